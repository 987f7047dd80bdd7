import Verif.Model.Syscalls
import Verif.Model.Isolate

/-!
# The tracer loop: `pt_process::monitor`, dmoj/cptbox/ptproc.cpp:107-363 (Linux branch)

One iteration of the loop is a function of the state and of the stop returned by `wait4`. The clock
(lines 128-141) is in `Model/Time.lean`. A failing `wait4` (stale `status`) is in `Model/Interrupted.lean`; the FreeBSD branches
are not modelled. What the registers mean is in `Model/Abi.lean`; here a syscall stop carries the values the
tracer reads from them.
-/

namespace Verif.Monitor
open Verif.Syscalls Verif.Isolate

/-- Outcome of `pre_syscall` (reading the registers), ptdebug.cpp:61-87. -/
inductive Pre where
  | ok
  | esrch
  | err
deriving DecidableEq, Repr

/-- What the tracer learns at a syscall stop. `run` is the outcome of the Python handler there, `post`
whether writing the registers back succeeds (ptdebug.cpp:89-111). -/
structure View (C : Type) where
  pre : Pre := .ok
  abi : Nat := 1
  nr : Int
  result : Int := 0
  arg0 : Int := 0
  run : C → Verdict := fun _ => .kill
  post : Bool := true

/-- `PTRACE_EVENT_*` of a SIGTRAP stop; `plain` is any other SIGTRAP. (ptproc.cpp:148-158, 290-338) -/
inductive Trap where
  | exit
  | clone
  | fork (child : Nat)
  | vfork (child : Nat)
  | plain
deriving DecidableEq, Repr

/-- What `wait4` reports. (ptproc.cpp:121-147) -/
inductive Stop (C : Type) where
  | gone (pid : Nat)
  | sys (pid : Nat) (v : View C)
  | trap (pid : Nat) (t : Trap)
  | signal (pid : Nat) (sig : Nat)
  | continued (pid : Nat)

/-- The thread concerned. (ptproc.cpp:121-147) -/
def Stop.pid {C : Type} : Stop C → Nat
  | .gone p | .sys p _ | .trap p _ | .signal p _ | .continued p => p

/-- Configuration: `_use_seccomp`, the handler tables, the numbers of the harmless call (`getpid`)
substituted for a refused one without seccomp (_cptbox.pyx:234-241), and `this->pid`. -/
structure Cfg (C : Type) where
  seccomp : Bool
  isArm : Bool := false
  tables : Nat → Table C
  noop : Nat → Int
  main : Nat

/-- State of the loop, of the debugger and of the Python objects: `syscall_` (missing is 0), the key set
of `on_return_`, the single `on_return_callback` slot of the Python `Debugger` (the error it will
report), `exit_reason`, `children`, `protection_fault` of the Python object. (ptproc.cpp:107-120, ptdebug.cpp:28-58) -/
structure State where
  first : Bool := true
  spawned : Bool := false
  toggle : Nat → Bool := fun _ => false
  onRet : Nat → Bool := fun _ => false
  slot : Option Nat := none
  faulted : Bool := false
  children : List Nat := []
  fault : Option Int := none
  finished : Bool := false

/-- Observable actions, in order. `resume` restarts the thread; `setNr`/`setRes` are the register
changes made (`none`: left as the program had them). (ptproc.cpp:81-96, 340-349) -/
inductive Act where
  | resume (pid : Nat) (setNr setRes : Option Int) (sig : Nat)
  | report (nr : Int)
  | killGroup
  | killChild (pid : Nat)
  | ptraceError
  | signalEvent (sig : Nat)
  | exited (faulted : Bool)
deriving DecidableEq, Repr

/-- `map[k] = v` (ptdebug.cpp:32-58) -/
def upd (f : Nat → Bool) (k : Nat) (v : Bool) : Nat → Bool := fun x => if x = k then v else f x

/-- `protection_fault`, ptproc.cpp:81-96 with the Python event handler (_cptbox.pyx `_event_handler`,
tracer.py:262-288): the actions and the state afterwards. -/
def faultActs (nr : Int) : List Act := [.report nr, .killGroup]

/-- ptproc.cpp:81-96, 340-349. -/
@[inherit_doc faultActs]
def State.faultAt (s : State) (nr : Int) : State := { s with faulted := true, fault := some nr }

/-- `is_end_of_first_execve`, ptdebug_x64.cpp:119-130. -/
def firstExecve {C : Type} (cfg : Cfg C) (enter : Bool) (v : View C) : Bool :=
  if cfg.seccomp then v.nr == 59
  else if enter then false
  else if v.abi = 0 then v.nr == 11 && v.result == 0
  else v.nr == 59 && v.result == 0

/-- The end of the handling of a syscall stop, ptproc.cpp:276-288 and 346: run the return callback if
there is one and it is due, write the registers back if changed, resume. -/
def finish {C : Type} (cfg : Cfg C) (s : State) (pid : Nat) (v : View C) (enter : Bool) (setNr : Option Int) : State × List Act :=
  let due := (cfg.seccomp || !enter) && s.onRet pid
  let setRes : Option Int := if due then s.slot.map (fun e => -(e : Int)) else none
  let s' := if due then { s with onRet := upd s.onRet pid false, slot := none } else s
  if (setNr.isSome || setRes.isSome) && !v.post then
    (s'.faultAt v.nr, .ptraceError :: faultActs v.nr)
  else ({ s' with first := false }, [.resume pid setNr setRes 0])

/-- What `errno_handler` does to the debugger, handlers.py:9-18 and _cptbox.pyx:234-241, 374-376. -/
def State.register (s : State) (pid e : Nat) : State := { s with onRet := upd s.onRet pid true, slot := some e }

/-- The number written by `debugger.syscall = -1`. (handlers.py:9-18) -/
def Cfg.skipNr {C : Type} (cfg : Cfg C) (abi : Nat) : Int := if cfg.seccomp then -1 else cfg.noop abi

/-- A syscall stop, ptproc.cpp:196-288. -/
def sysStep {C : Type} (cfg : Cfg C) (s : State) (pid : Nat) (v : View C) : State × List Act :=
  let s := if cfg.seccomp then s else { s with toggle := upd s.toggle pid (!s.toggle pid) }
  match v.pre with
  | .esrch => (s, [])
  | .err => (s.faultAt (-1), .ptraceError :: faultActs (-1))
  | .ok =>
    let enter := cfg.seccomp || s.toggle pid
    if s.spawned = false then
      ({ s with spawned := firstExecve cfg enter v, first := false }, [.resume pid none none 0])
    else if enter then
      match decideCall cfg.isArm (cfg.tables v.abi) v.nr with
      | .allow => finish cfg s pid v enter none
      | .stdouterr =>
        if v.arg0 = 1 ∨ v.arg0 = 2 then finish cfg s pid v enter none
        else
          let r := finish cfg (s.faultAt v.nr) pid v enter none
          (r.1, faultActs v.nr ++ r.2)
      | .ask c =>
        match v.run c with
        | .exec => finish cfg s pid v enter none
        | .refuse e => finish cfg (s.register pid e) pid v enter (some (cfg.skipNr v.abi))
        | .kill => (s.faultAt v.nr, faultActs v.nr)
      | .deny => (s.faultAt v.nr, faultActs v.nr)
    else finish cfg s pid v enter none

/-- `SIGTRAP` (ptproc.cpp:290-338) -/
def SIGTRAP : Nat := 5

/-- One iteration of the loop, ptproc.cpp:121-350. A finished loop does nothing more; ending the loop
includes ptproc.cpp:352-360. -/
def step {C : Type} (cfg : Cfg C) (s : State) (e : Stop C) : State × List Act :=
  if s.finished then (s, []) else
  match e with
  | .gone pid =>
    if s.first = true ∨ pid = cfg.main then
      ({ s with finished := true }, s.children.map .killChild ++ [.exited s.faulted])
    else ({ s with children := s.children.filter (· ≠ pid) }, [])
  | .continued pid => ({ s with first := false }, [.resume pid none none 0])
  | .sys pid v => sysStep cfg s pid v
  | .trap pid t =>
    let s := { s with toggle := upd s.toggle pid false }
    let s := match t with
      | .fork c | .vfork c => { s with children := c :: s.children.filter (· ≠ c) }
      | _ => s
    let note := if s.first = false ∧ pid = cfg.main then [Act.signalEvent SIGTRAP] else []
    ({ s with first := false }, note ++ [.resume pid none none 0])
  | .signal pid sig =>
    let s := { s with toggle := upd s.toggle pid false }
    let note := if s.first = false ∧ pid = cfg.main then [Act.signalEvent sig] else []
    ({ s with first := false }, note ++ [.resume pid none none (if s.first then 0 else sig)])

/-- The loop on a sequence of stops. (ptproc.cpp:107-363) -/
def run {C : Type} (cfg : Cfg C) : State → List (Stop C) → State × List (List Act)
  | s, [] => (s, [])
  | s, e :: es =>
    let r := step cfg s e
    let r' := run cfg r.1 es
    (r'.1, r.2 :: r'.2)

end Verif.Monitor
