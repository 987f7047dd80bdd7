import Verif.Basic

/-!
# The time limit watchdog: dmoj/cptbox/tracer.py:154-167, 185-205, 230-243, 292-351

Three threads and the program: `_run_process` (the monitor thread), `_shocker_thread`, and whoever calls `wait`. One
transition is one access to shared state. Times are whole units (Python: floats). `execution_time` grows only when `wait4`
returns (dmoj/cptbox/ptproc.cpp:122-135); `wall_clock_time` is read off the clock. The program is one process; the rest of
its group shares its fate. Left out: the few instructions between the return of the last `wait4` and `end_time = end`
(ptproc.cpp:140-360) in which the wall clock is still running; torn reads of the two `timespec` values are in `Model/Torn.lean`.
-/

namespace Verif.Watchdog

/-- `_time` and `_wall_time`, tracer.py:120-121. -/
structure Cfg where
  time : Nat
  wallTime : Nat
deriving DecidableEq, Repr

/-- The monitor thread: before `_spawn`, in `wait4`, after it returned the death of the program, and after each of the
following statements (`_exited = True`, the final check, `_died.set()`). (tracer.py:296-330) -/
inductive MPc where
  | starting
  | waiting
  | reaped (code : Int)
  | published
  | checked
  | done
deriving DecidableEq, Repr

/-- The shocker thread: not started; before `_spawned_or_errored`; at `_died.wait(1)`; at the comparison; at `kill`; at
`_is_tle = True`; at the wake signal; finished. (tracer.py:332-351) -/
inductive SPc where
  | off
  | waiting
  | loop
  | check
  | kill
  | flag
  | wake
  | done
deriving DecidableEq, Repr

/-- tracer.py:154-167, 296-351. -/
structure St where
  mon : MPc := .starting
  shock : SPc
  /-- the program: running (`none`) or dead with this code, not yet reaped -/
  dead : Option Int := none
  /-- `_spawned_or_errored`, `_died`, `_is_tle` -/
  spawned : Bool := false
  died : Bool := false
  tle : Bool := false
  /-- `returncode` -/
  ret : Option Int := none
  /-- time spent in `wait4` so far, what of it was added to `execution_time`, `wall_clock_time` -/
  ran : Nat := 0
  exec : Nat := 0
  wall : Nat := 0
  /-- history: the watchdog ended the program; it signalled a process id that was no longer the program's -/
  killed : Bool := false
  stray : Bool := false
deriving DecidableEq, Repr

/-- The end of `__init__`, tracer.py:154-163: the shocker thread exists only if there is a time limit. -/
def init (c : Cfg) : St := { shock := if c.time ≠ 0 then .waiting else .off }

/-- What can happen. (tracer.py:154-167, 296-351) -/
inductive Act where
  /-- `_spawn` returns or raises -/
  | spawn (ok : Bool)
  /-- time passes -/
  | time (d w : Nat)
  /-- SIGXCPU is reported (tracer.py:292-294) -/
  | xcpu
  /-- the program dies of its own accord -/
  | exit (code : Int)
  /-- `wait4` returns a stop and the program is restarted -/
  | stop
  /-- a step of the monitor thread -/
  | monitor
  /-- a step of the shocker thread; should it call `killpg`, whether that finds the group -/
  | shocker (found : Bool)
deriving DecidableEq, Repr

/-- `_run_process` after `_spawn`, tracer.py:323-330; the death is reported by `wait4` (ptproc.cpp:140-147), which also adds
the last wait to `exec_time`; `returncode` appears with `_exited` (_cptbox.pyx:497-498, 560-563). -/
def monitorStep (c : Cfg) (s : St) : St :=
  match s.mon with
  | .starting => s
  | .waiting =>
    match s.dead with
    | none => s
    | some code => { s with mon := .reaped code, exec := s.ran }
  | .reaped code => { s with mon := .published, ret := some code }
  | .published => { s with mon := .checked, tle := s.tle || (c.time != 0 && decide (s.exec > c.time)) }
  | .checked => { s with mon := .done, died := true }
  | .done => s

/-- The program was reaped or never existed, so its process id may belong to someone else.
(tracer.py:154-167, 296-351) -/
def St.gone (s : St) : Bool :=
  match s.mon with
  | .starting => false
  | .waiting => false
  | _ => true

/-- `kill`, tracer.py:230-243; an `OSError` of `killpg` is printed and dropped. A group whose leader is dead but not reaped
still exists, and the signal changes nothing. -/
def kill (s : St) (found : Bool) : St :=
  match s.ret with
  | some _ => s
  | none =>
    if s.gone then { s with stray := true }
    else if found && s.dead.isNone then { s with dead := some (-9), killed := true }
    else s

/-- `_shocker_thread`, tracer.py:332-351; the wake signal only provokes an `Act.stop`. -/
def shockerStep (c : Cfg) (s : St) (found : Bool) : St :=
  match s.shock with
  | .off => s
  | .waiting => if s.spawned then { s with shock := .loop } else s
  | .loop => if s.died then { s with shock := .done } else { s with shock := .check }
  | .check => if s.exec > c.time ∨ s.wall > c.wallTime then { s with shock := .kill } else { s with shock := .wake }
  | .kill => { kill s found with shock := .flag }
  | .flag => { s with tle := true, shock := .done }
  | .wake => { s with shock := .loop }
  | .done => s

/-- One transition; what cannot happen in a state leaves it alone. A failing `_spawn` sets `_died` and then
`_spawned_or_errored` (tracer.py:296-311), here at once: the shocker thread looks at the second first. -/
def step (c : Cfg) (s : St) : Act → St
  | .spawn ok =>
    if s.mon = .starting then
      if ok then { s with mon := .waiting, spawned := true } else { s with mon := .done, spawned := true, died := true }
    else s
  | .time d w => if s.mon = .waiting then { s with ran := s.ran + d, wall := s.wall + w } else s
  | .xcpu => if s.mon = .waiting then { s with tle := true } else s
  | .exit code => if s.mon = .waiting ∧ s.dead = none then { s with dead := some code } else s
  | .stop => if s.mon = .waiting ∧ s.dead = none then { s with exec := s.ran } else s
  | .monitor => monitorStep c s
  | .shocker found => shockerStep c s found

/-- The state after a history. (tracer.py:154-167, 296-351) -/
def run (c : Cfg) (as : List Act) : St := as.foldl (step c) (init c)

end Verif.Watchdog
