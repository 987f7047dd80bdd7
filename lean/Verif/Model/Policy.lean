import Verif.Model.Isolate
import Verif.Model.SyscallTables

/-!
# The policy of each executor (Linux)

* `PlatformExecutorMixin._add_syscalls`, `get_security`: dmoj/executors/mixins.py:63-74;
* the `syscalls` of the executors in dmoj/executors/*.py and of the classes they derive from;
* `ShellExecutor.get_security`: dmoj/executors/shell_executor.py:24-39;
* the integer/callback entries handed to the tracer: dmoj/cptbox/tracer.py:134-152.
-/

namespace Verif.Policy
open Verif.Syscalls Verif.Isolate Verif.Path Verif.ReadStr

/-- A value of the security dictionary. (mixins.py:63-74) -/
inductive Handler where
  | std (e : Entry)
  /-- `handle_execve`, shell_executor.py:30-35, with its set of permitted programs -/
  | exec (allowed : List Str)
  /-- `handle_procctl`, java_executor.py:41-46 -/
  | procctl
deriving DecidableEq

/-- `handle_execve`: an unreadable path makes an exception escape, which kills (see Model/Isolate).
(shell_executor.py:30-35) -/
def runExec (allowed : List Str) (s : Stop) : Verdict :=
  match readstrPy s.mem s.page s.usePeek s.is32 (s.regs 0).toNat with
  | .tooLong => .kill
  | .null => .kill
  | .text bytes =>
    match s.decode bytes with
    | none => .kill
    | some file =>
      match fullPath s file atFdcwd with
      | .error _ => .kill
      | .ok full => if full ∈ allowed then .exec else .kill

/-- `handle_procctl`. (java_executor.py:41-46) -/
def runProcctl (s : Stop) : Verdict :=
  if (s.regs 0).toInt = 0 ∧ (s.regs 1).toInt = s.pid ∧ (s.regs 2).toInt ∈ [17, 18] then .exec else .kill

/-- What a handler does at a stop. (handlers.py:9-23) -/
def Handler.run (h : Handler) (s : Stop) : Verdict :=
  match h with
  | .std e => Isolate.run e s
  | .exec a => runExec a s
  | .procctl => runProcctl s

/-- The base policy, isolate.py:40-148. -/
def base : List (String × Handler) := policy.map fun (n, e) => (n, .std e)

/-- `name` with `ALLOW`. (mixins.py:63-74) -/
def ok (names : List String) : List (String × Handler) := names.map fun n => (n, .std .allow)

/-- java_executor.py:57 -/
def java : List (String × Handler) :=
  ok ["pread64", "clock_nanosleep", "socketpair"] ++ [("procctl", .procctl)] ++ ok ["setrlimit", "thr_set_name"]

/-- mono_executor.py:38-46; `EAGAIN` is 11. -/
def mono : List (String × Handler) :=
  ok ["sched_setscheduler", "wait4", "rt_sigsuspend", "msync", "fadvise64", "clock_nanosleep"] ++ [("fork", .std (.errno 11))]

/-- The additional entries of each executor; `commands` is what `get_allowed_exec` finds. The entry for `eaccess` is
`sec[sys_access]` (shell_executor.py:38). -/
def executors (commands : List Str) : List (String × List (String × Handler)) :=
  [("ADA", []), ("AWK", ok ["getgroups"]),
   ("BASH", ok ["fork", "waitpid", "wait4"] ++ [("execve", .exec commands), ("eaccess", .std (.path 0 false))]),
   ("BF", []), ("C", []), ("C11", []), ("CBL", []), ("CLANG", []), ("CLANGX", []),
   ("COFFEE", ok ["newselect", "select", "epoll_create1", "epoll_ctl", "epoll_wait", "epoll_pwait", "sched_yield",
      "setrlimit", "eventfd2", "statx"]),
   ("CPP03", []), ("CPP11", []), ("CPP14", []), ("CPP17", []), ("CPP20", []), ("D", []),
   ("DART", ok ["epoll_create", "epoll_ctl", "epoll_wait", "timerfd_settime", "memfd_create", "ftruncate"]),
   ("F95", []), ("FORTH", []), ("GAS32", []), ("GAS64", []), ("GASARM", []),
   ("GO", ok ["mincore", "epoll_create1", "epoll_ctl", "epoll_pwait", "pselect6", "mlock"]),
   ("GROOVY", java), ("HASK", []), ("ICK", []), ("JAVA10", java), ("JAVA11", java), ("JAVA15", java),
   ("JAVA8", java), ("JAVA9", java), ("KOTLIN", java), ("LUA", []), ("MONOCS", mono), ("MONOFS", mono),
   ("MONOVB", mono), ("NASM", []), ("NASM64", []), ("OBJC", []), ("OCAML", []), ("PAS", []),
   ("PERL", ok ["umtx_op"]), ("PHP", []),
   ("PIKE", ok ["epoll_create", "epoll_ctl"] ++ [("fstatfs", .std (.errno 13))] ++ ok ["socketpair"] ++ [("fpathconf", .std (.errno 13))]),
   ("PRO", []), ("PY2", []), ("PY3", []), ("PYPY", []), ("PYPY3", []), ("RKT", ok ["epoll_create", "epoll_wait"]),
   ("RUBY2", ok ["thr_set_name", "eventfd2"]), ("RUST", []), ("SBCL", ok ["personality"]), ("SCALA", java), ("SCM", []),
   ("SED", []), ("SWIFT", []), ("TCL", ok ["connect", "access", "getsockname"]),
   ("TEXT", ok ["fadvise64_64", "fadvise64", "posix_fadvise", "arm_fadvise64_64"]), ("TUR", []), ("V8JS", []), ("ZIG", [])]

/-- `getattr(syscalls, 'sys_' + name)`; `none` is `AttributeError`. (mixins.py:63-74) -/
def idOf (name : String) : Option Nat := (create aliasFile allTables).1.find name

/-- The dictionary after the assignments `sec[id of name] = handler`, in order. A name without an id raises; the
executors have none (`C63_names`). (mixins.py:63-74) -/
def dict (p : List (String × Handler)) (id : Nat) : Option Handler :=
  p.foldl (fun d e => if idOf e.1 = some id then some e.2 else d) none

/-- The same as the tracer sees it: `ALLOW` is the integer 1, all others are callables. (tracer.py:138-152) -/
def sec (p : List (String × Handler)) (id : Nat) : Option (Pol Handler) :=
  match dict p id with
  | none => none
  | some (.std .allow) => some (.int 1)
  | some h => some (.fn h)

/-- The handler table for the ABI with table index `t`, tracer.py:138-152. -/
def table (p : List (String × Handler)) (t : Nat) : Table Handler :=
  build (sec p) (fun i => (create aliasFile allTables).1.calls i t) ((create aliasFile allTables).2 + 1)

/-- The numbers let through by the in-kernel filter, tracer.py:169-183: those of the native ABI (x64, index 1). -/
def kernelList (p : List (String × Handler)) : Nat → Bool :=
  whitelist (sec p) (fun i => (create aliasFile allTables).1.calls i 1) ((create aliasFile allTables).2 + 1)
    ((["exit", "exit_group"].filterMap idOf))

end Verif.Policy
