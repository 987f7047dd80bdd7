import Verif.Basic

/-! # Specification: the readable and writable places, in plain words -/

namespace Verif.FsPatterns.Spec

abbrev Str := List Char

/-- What may follow a stem. -/
inductive Tail where
  /-- nothing (or a newline) -/
  | exact
  /-- anything -/
  | anything
  /-- anything not starting so -/
  | except (x : Str)
deriving DecidableEq, Repr

/-- The place is covered by the stem. -/
def Covers (e : Str × Tail) (path : Str) : Prop :=
  match e.2 with
  | .exact => path = e.1 ∨ path = e.1 ++ ['\n']
  | .anything => e.1 <+: path
  | .except x => e.1 <+: path ∧ ¬ (e.1 ++ x) <+: path

/-- Single files and directories every program may read. -/
def files : List String :=
  ["/dev/null", "/dev/tty", "/dev/zero", "/dev/urandom", "/dev/random", "/etc", "/etc/localtime", "/etc/timezone", "/usr", "/tmp", "/",
   "/sys/devices/system/cpu", "/etc/selinux/config", "/proc", "/proc/self", "/proc/self/maps", "/proc/self/exe", "/proc/self/auxv",
   "/proc/meminfo", "/proc/stat", "/proc/cpuinfo", "/proc/filesystems", "/proc/xen", "/proc/uptime",
   "/proc/sys/vm/overcommit_memory", "/etc/ld.so.nohwcap", "/etc/ld.so.preload", "/etc/ld.so.cache"]

/-- The same below the directory of its own process. -/
def ownFiles (pid : Nat) : List Str :=
  ["", "/maps", "/exe", "/auxv"].map fun x => "/proc/".toList ++ Nat.toDigits 10 pid ++ x.toList

/-- All the places. -/
def readable (pid : Nat) (dir : Str) : List (Str × Tail) :=
  files.map (fun f => (f.toList, Tail.exact)) ++ (ownFiles pid).map (fun f => (f, Tail.exact)) ++
  [("/usr/".toList, Tail.except "home".toList)] ++
  ["/lib/", "/lib32/", "/lib64/", "/opt/", "/sys/devices/system/cpu/online"].map (fun f => (f.toList, Tail.anything)) ++
  [(dir, Tail.anything)]

/-- The writable ones. -/
def writable : List (Str × Tail) := ["/dev/stdout", "/dev/stderr", "/dev/null"].map fun f => (f.toList, Tail.exact)

/-- Beginnings of paths that belong to the judge, to other users or to the system. -/
def hiddenStems : List String :=
  ["/home", "/root", "/var", "/run", "/srv", "/mnt", "/media", "/boot", "/tmp/", "/usr/home", "/etc/passwd", "/etc/shadow", "/etc/ssh",
   "/etc/hosts", "/sys/kernel", "/sys/fs", "/proc/sys/kernel", "/proc/self/environ", "/proc/self/mem", "/proc/self/fd", "/proc/self/root",
   "/proc/self/cwd", "/proc/net", "/proc/kcore", "/proc/cmdline", "/dev/sd", "/dev/mem", "/dev/shm", "/lost+found"]

end Verif.FsPatterns.Spec
