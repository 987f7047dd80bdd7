import Verif.Model.Path
import Verif.Model.ReadStr
import Verif.Model.Syscalls

/-!
# The sandbox policy: dmoj/cptbox/isolate.py (Linux)

One evaluation of a handler is a function of what the tracer sees at that stop (`Stop`). Regular
expressions are parameters (predicates on the full path); joining them with `|` (isolate.py:249) is
disjunction, which assumes that the configured expressions are complete by themselves. The FreeBSD
entries (isolate.py:150-186) are not modelled. An exception escaping a handler makes
`_syscall_handler` return 0 (dmoj/cptbox/_cptbox.pyx, `cdef int ... with gil`), i.e. `kill`.
-/

namespace Verif.Isolate
open Verif.Path Verif.ReadStr

/-- Why the target of a `/proc` link cannot be had. (isolate.py:258-284) -/
inductive LinkErr where
  | unicode
  | os
deriving DecidableEq, Repr

/-- What a handler can look at. (isolate.py:197-236, 258-300) -/
structure Stop where
  mem : Mem
  page : Nat
  usePeek : Bool
  is32 : Bool
  /-- `utf8text` -/
  decode : List UInt8 → Option Str
  cwd : Except LinkErr Str
  fdLink : Int → Except LinkErr Str
  regs : Nat → BitVec 64
  pid : Nat
  readFs : List (Str → Bool)
  writeFs : List (Str → Bool)

/-- Outcome of a handler: the syscall is executed; it is skipped and returns this error; the program is
killed. (handlers.py:9-23) -/
inductive Verdict where
  | exec
  | refuse (errno : Nat)
  | kill
deriving DecidableEq, Repr

/-- `errno.ENOENT`, `errno.EPERM` (isolate.py:197-236) -/
def ENOENT : Nat := 2
@[inherit_doc ENOENT] def EPERM : Nat := 1

/-- `_get_fs_jail(...).match(file)`, isolate.py:238-256: without patterns nothing matches. -/
def jail (s : Stop) (isWrite : Bool) (file : Str) : Bool :=
  (if isWrite then s.writeFs else s.readFs).any fun f => f file

/-- `_getcwd_pid` / `_getfd_pid` as selected in `get_full_path`, isolate.py:281. -/
def baseDir (s : Stop) (dirfd : BitVec 64) : Except LinkErr Str :=
  match baseOf dirfd with
  | .cwd => s.cwd
  | .fd n => s.fdLink n

/-- `get_full_path` with its exceptions, isolate.py:278-284. -/
def fullPath (s : Stop) (file : Str) (dirfd : BitVec 64) : Except LinkErr Str :=
  match file with
  | '/' :: _ => .ok (getFullPath [] file)
  | _ =>
    match baseDir s dirfd with
    | .error e => .error e
    | .ok dir => .ok (getFullPath dir file)

/-- `_file_access_check` and its callers, isolate.py:197-236, 258-276: `arg` is the register with the
path, `flagReg` that with the flags. -/
def checkFile (s : Stop) (arg flagReg : Nat) (isOpen : Bool) (dirfd : BitVec 64) : Verdict :=
  match readstrPy s.mem s.page s.usePeek s.is32 (s.regs arg).toNat with
  | .tooLong => .refuse ENOENT
  | .null => .refuse ENOENT
  | .text bytes =>
    match s.decode bytes with
    | none => .refuse ENOENT
    | some file =>
      match fullPath s file dirfd with
      | .error .unicode => .refuse ENOENT
      | .error .os => .kill
      | .ok full =>
        if jail s (isOpen && isWriteFlags (s.regs flagReg).toNat) full then .exec else .refuse ENOENT

/-- `AT_FDCWD` as a register. (isolate.py:6, 281) -/
def atFdcwd : BitVec 64 := BitVec.ofInt 64 (-100)

/-- `do_kill`, isolate.py:286-289. -/
def doKill (s : Stop) : Verdict := if (s.regs 0).toNat = s.pid then .exec else .refuse EPERM

/-- `do_prlimit`, isolate.py:291-292. -/
def doPrlimit (s : Stop) : Verdict := if (s.regs 0).toNat = 0 ∨ (s.regs 0).toNat = s.pid then .exec else .refuse EPERM

/-- `do_prctl`, isolate.py:294-300; `arg0` is signed. -/
def doPrctl (s : Stop) : Verdict :=
  if (s.regs 0).toInt ∈ [3, 15, 16, 41, (0x53564D41 : Int)] then .exec else .kill

/-- Handlers of the policy. (handlers.py:9-23) -/
inductive Entry where
  | allow
  | path (arg : Nat) (isOpen : Bool)
  | pathAt (isOpen : Bool)
  | errno (n : Nat)
  | kill
  | prctl
  | prlimit
deriving DecidableEq, Repr

/-- What a handler does at a stop. (handlers.py:9-23) -/
def run (e : Entry) (s : Stop) : Verdict :=
  match e with
  | .allow => .exec
  | .path arg isOpen => checkFile s arg 1 isOpen atFdcwd
  | .pathAt isOpen => checkFile s 1 2 isOpen (s.regs 0)
  | .errno n => .refuse n
  | .kill => doKill s
  | .prctl => doPrctl s
  | .prlimit => doPrlimit s

/-- The policy, isolate.py:40-148. -/
def policy : List (String × Entry) :=
  [("openat", .pathAt true), ("open", .path 0 true), ("faccessat", .pathAt false),
   ("access", .path 0 false), ("readlink", .path 0 false), ("readlinkat", .pathAt false),
   ("stat", .path 0 false), ("stat64", .path 0 false), ("lstat", .path 0 false),
   ("lstat64", .path 0 false), ("fstatat", .pathAt false), ("mkdir", .errno 1), ("unlink", .errno 1),
   ("tgkill", .kill), ("kill", .kill), ("prctl", .prctl), ("read", .allow), ("pread64", .allow),
   ("write", .allow), ("writev", .allow), ("statfs", .allow), ("statfs64", .allow), ("getpgrp", .allow),
   ("restart_syscall", .allow), ("select", .allow), ("newselect", .allow), ("modify_ldt", .allow),
   ("poll", .allow), ("ppoll", .allow), ("getgroups32", .allow), ("sched_getaffinity", .allow),
   ("sched_getparam", .allow), ("sched_getscheduler", .allow), ("sched_get_priority_min", .allow),
   ("sched_get_priority_max", .allow), ("timerfd_create", .allow), ("timer_create", .allow),
   ("timer_settime", .allow), ("timer_delete", .allow), ("sigprocmask", .allow), ("rt_sigreturn", .allow),
   ("sigreturn", .allow), ("nanosleep", .allow), ("sysinfo", .allow), ("getrandom", .allow),
   ("socket", .errno 13), ("socketcall", .errno 13), ("close", .allow), ("dup", .allow), ("dup2", .allow),
   ("dup3", .allow), ("fstat", .allow), ("mmap", .allow), ("mremap", .allow), ("mprotect", .allow),
   ("madvise", .allow), ("munmap", .allow), ("brk", .allow), ("fcntl", .allow), ("arch_prctl", .allow),
   ("set_tid_address", .allow), ("set_robust_list", .allow), ("futex", .allow), ("rt_sigaction", .allow),
   ("rt_sigprocmask", .allow), ("getrlimit", .allow), ("ioctl", .allow), ("getcwd", .allow),
   ("geteuid", .allow), ("getuid", .allow), ("getegid", .allow), ("getgid", .allow), ("getdents", .allow),
   ("lseek", .allow), ("getrusage", .allow), ("sigaltstack", .allow), ("pipe", .allow), ("pipe2", .allow),
   ("clock_gettime", .allow), ("clock_gettime64", .allow), ("clock_getres", .allow),
   ("gettimeofday", .allow), ("getpid", .allow), ("getppid", .allow), ("sched_yield", .allow),
   ("clone", .allow), ("exit", .allow), ("exit_group", .allow), ("gettid", .allow), ("mmap2", .allow),
   ("fstat64", .allow), ("set_thread_area", .allow), ("ugetrlimit", .allow), ("uname", .allow),
   ("getuid32", .allow), ("geteuid32", .allow), ("getgid32", .allow), ("getegid32", .allow),
   ("llseek", .allow), ("fcntl64", .allow), ("time", .allow), ("prlimit64", .prlimit),
   ("getdents64", .allow)]

end Verif.Isolate
