import Verif.Model.Monitor
import Verif.Model.SyscallTables
import Verif.Model.Feedback

/-!
# How a program ended, and what its user is told

`_event_handler` (dmoj/cptbox/_cptbox.pyx:420-439) on the events of the tracer loop, `_protection_fault` and `get_syscall_name`
(dmoj/cptbox/tracer.py:64-73, 262-294), the properties `signal`, `returncode`, `was_initialized` (_cptbox.pyx:501-503, 548-559) and
`get_feedback_str` (dmoj/result.py:72-98). The loop itself is `Verif.Monitor.step`. Numbers of signals are those of Linux on x86 and ARM.
-/

namespace Verif.Ending
open Verif.Monitor Verif.Syscalls

/-- Texts. (result.py:72-98) -/
abbrev Str := List Char

/-- What `wait4` says of the end of the main thread. (ptproc.cpp:362) -/
inductive Ended where
  | exited (code : Nat)
  | killed (sig : Nat)
deriving DecidableEq, Repr

/-- `WIFEXITED(status) ? WEXITSTATUS(status) : -WTERMSIG(status)`, ptproc.cpp:362. -/
def returncode : Ended → Int
  | .exited c => c
  | .killed s => -(s : Int)

/-- `SIGXCPU`. (_cptbox.pyx:436-438) -/
def SIGXCPU : Nat := 24

/-- What the Python object has noted: `_signal`; whether `_cpu_time_exceeded` was called; the name in `protection_fault`.
(_cptbox.pyx:420-439, tracer.py:262-294) -/
structure Seen where
  signal : Nat := 0
  xcpu : Bool := false
  fault : Option Str := none
deriving DecidableEq, Repr

/-- `_SYSCALL_INDICIES`, tracer.py:22-30. -/
def index (abi : Nat) : Option Nat := [0, 1, 2, 3, 5, 4][abi]?

/-- `get_syscall_name`, tracer.py:64-73, with `translator` and `by_id` of the repository's tables. The tracer never gets here with an
ABI that is not in the list (ptdebug.cpp:61-87 reports those as unreadable). -/
def callName (m : Maps) (count abi : Nat) (nr : Int) : Str :=
  match index abi with
  | none => "failed to read registers".toList
  | some i =>
    match (List.range count).find? fun id => decide (0 ≤ nr) && (m.calls id i).contains nr.toNat with
    | some id => ((m.byId[id]?).getD "").toList
    | none => "unknown".toList

/-- `_protection_fault`, tracer.py:262-286: the name noted. -/
def faultName (abi : Nat) (nr : Int) : Str :=
  if nr = -1 then "ptrace fail".toList
  else callName (create aliasFile allTables).1 ((create aliasFile allTables).2 + 1) abi nr

/-- The ABI the debugger has at a stop. (tracer.py:64-73) -/
def abiAt {C : Type} : Stop C → Nat
  | .sys _ v => v.abi
  | _ => 0

/-- `_event_handler`, _cptbox.pyx:420-439 (memory is in Model/Memory). -/
def note (abi : Nat) (n : Seen) : Act → Seen
  | .signalEvent sig =>
    let n := if sig ≠ SIGTRAP then { n with signal := sig } else n
    if sig = SIGXCPU then { n with xcpu := true } else n
  | .report nr => { n with fault := some (faultName abi nr) }
  | _ => n

/-- The tracer loop with what Python notes of it. (ptproc.cpp:107-363, _cptbox.pyx:420-439) -/
def watch {C : Type} (cfg : Cfg C) : State → Seen → List (Stop C) → State × Seen
  | s, n, [] => (s, n)
  | s, n, e :: es =>
    let r := step cfg s e
    watch cfg r.1 (r.2.foldl (note (abiAt e)) n) es

/-- The other facts of result.py:73-98: limits exceeded according to the clocks (`_is_tle` set elsewhere than by SIGXCPU), the memory and the
pipes; whether the executor is one of Mono's, whose `_cpu_time_exceeded` does nothing (mono_executor.py:14-16). -/
structure Limits where
  tle : Bool := false
  mle : Bool := false
  ole : Bool := false
  mono : Bool := false
deriving DecidableEq, Repr

/-- The process as `get_feedback_str` sees it: `signal` and `was_initialized`, _cptbox.pyx:501-503, 548-553; `is_ir`, `is_rte`,
tracer.py:210-224. -/
def proc (r : State × Seen) (e : Ended) (l : Limits) : Feedback.Proc where
  ir := decide (returncode e > 0)
  rte := decide (returncode e < 0)
  tle := l.tle || (r.2.xcpu && !l.mono)
  mle := l.mle
  ole := l.ole
  initialized := r.1.spawned
  signal := if r.1.spawned then r.2.signal else 0
  fault := r.2.fault

/-- The feedback of a run: the stops `wait4` reported, how the program ended. `strsignal` includes `lower()`; `none` is an internal error of the
executor's. (result.py:72-98) -/
def told {C : Type} (strsignal : Nat → Str) (parse : Str → Feedback.Proc → Option Str) (cfg : Cfg C) (stops : List (Stop C)) (e : Ended) (l : Limits)
    (err : Str) : Option Str :=
  Feedback.feedback strsignal parse err (proc (watch cfg {} {} stops) e l)

end Verif.Ending
