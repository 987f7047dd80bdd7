import Verif.Model.Regex
import Verif.Model.Isolate

/-!
# The paths an executor's program may use

* `BASE_FILESYSTEM`, `BASE_WRITE_FILESYSTEM`: dmoj/executors/mixins.py:15-45 (Linux);
* `get_fs`, `get_write_fs`: mixins.py:76-82 and overridden in the executors;
* `_get_fs_jail`: dmoj/cptbox/isolate.py:238-256.
-/

namespace Verif.FsPatterns
open Verif.Regex

/-- mixins.py:15-25, 30-31, 36-45 -/
def baseRead : List String :=
  ["/dev/(?:null|tty|zero|u?random)$", "/usr/(?!home)", "/lib(?:32|64)?/", "/opt/", "/etc$",
   "/etc/(?:localtime|timezone)$", "/usr$", "/tmp$", "/$",
   "/sys/devices/system/cpu(?:$|/online)", "/etc/selinux/config$",
   "/proc$", "/proc/(?:self|{pid})/(?:maps|exe|auxv)$", "/proc/(?:self|{pid})$",
   "/proc/(?:meminfo|stat|cpuinfo|filesystems|xen|uptime)$", "/proc/sys/vm/overcommit_memory$",
   "/etc/ld\\.so\\.(?:nohwcap|preload|cache)$"]

/-- mixins.py:26 -/
def baseWrite : List String := ["/dev/stdout$", "/dev/stderr$", "/dev/null$"]

/-- `p.format(pid=pid)` for fields that are just `pid`; `none` is an exception. Other uses of `pid` in a field
(`{pid:x}`, `{pid.real}`) are not treated. (isolate.py:238-256) -/
def format (pid : Nat) : Str → Option Str
  | [] => some []
  | '{' :: '{' :: t => (format pid t).map ('{' :: ·)
  | '{' :: 'p' :: 'i' :: 'd' :: '}' :: t => (format pid t).map (Nat.toDigits 10 pid ++ ·)
  | '{' :: _ => none
  | '}' :: '}' :: t => (format pid t).map ('}' :: ·)
  | '}' :: _ => none
  | c :: t => (format pid t).map (c :: ·)

/-- `'|'.join` (isolate.py:238-256) -/
def join : List Str → Str
  | [] => []
  | [a] => a
  | a :: b :: l => a ++ '|' :: join (b :: l)

/-- The pattern of `_get_fs_jail`. A part may be `None` (`find_executable`), which raises. (isolate.py:238-256) -/
def jailText (pid : Nat) (parts : List (Option Str)) : Option Str :=
  if parts = [] then some "(?!)".toList
  else (parts.mapM fun p : Option Str => p.bind (format pid)).map join

/-- The compiled pattern; `none` is an exception. (isolate.py:238-256) -/
def jailRe (pid : Nat) (parts : List (Option Str)) : Option Re := (jailText pid parts).bind parse

/-- `get_fs`: the base, the executor's `fs`, the configured `extra_fs`, the directory; then what overriding methods
append. (mixins.py:76-79) -/
def readParts (fs extra : List Str) (dir : Str) (more : List (Option Str)) : List (Option Str) :=
  (baseRead.map String.toList ++ fs ++ extra ++ [escape dir]).map some ++ more

/-- `get_write_fs` (mixins.py:81-82) -/
def writeParts (writeFs : List Str) : List (Option Str) := (baseWrite.map String.toList ++ writeFs).map some

/-- `fs` of the executors that have one: DART.py:19, FORTH.py:13, PERL.py:8, PHP.py:10, RUBY2.py:15, SWIFT.py:8,
mono_executor.py:35. RKT (RKT.py:9) depends on the home directory. -/
def ownFs : List (String × List String) :=
  [("DART", [".*/vm-service$"]), ("FORTH", ["/\\.gforth-history$"]), ("PERL", ["/etc/perl/.*?"]),
   ("PHP", [".*/php[\\w-]*\\.ini$", ".*/conf.d/.*\\.ini$"]), ("RUBY2", ["/proc/self/loginuid$"]), ("SWIFT", ["/lib"]),
   ("MONOCS", ["/etc/mono/"]), ("MONOFS", ["/etc/mono/"]), ("MONOVB", ["/etc/mono/"])]

/-- What Objective-C's `get_fs` adds (OBJC.py:36-37). -/
def objcMore : List (Option Str) := [some "/proc/\\d+/cmdline$".toList]

end Verif.FsPatterns
