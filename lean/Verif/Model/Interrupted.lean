import Verif.Model.Monitor

/-!
# A wait or a question that fails: `pt_process::monitor`, dmoj/cptbox/ptproc.cpp:107-363 (Linux branch)

The result of `wait4` is not looked at (ptproc.cpp:128-130). If the call fails (a signal with a handler, which Python installs without `SA_RESTART`,
reaches the tracing thread), `pid` is -1 and `status` is what it was, the last status reported, or indeterminate before the first. Around
`Model/Monitor.lean`: a wait is a stop, or fails. So can the question who was made by a `fork`. `ptrace` for the process -1 fails with `ESRCH` and changes nothing, nor do the entries of -1 in the
maps of the debugger (ptdebug.cpp:28-58): no thread has that number.
-/

namespace Verif.Interrupted
open Verif.Monitor

/-- What is indeterminate: whether the variable `status`, before anything was assigned to it, looks like the end of a process (ptproc.cpp:109, 140),
and the variable `npid` if `PTRACE_GETEVENTMSG` fails (ptproc.cpp:324-327; as the `pid_t` put into the set). -/
structure Junk where
  ended : Bool
  npid : Int
deriving DecidableEq, Repr

/-- What `wait4` does, ptproc.cpp:130; `unsaid`: the process `pid` has made `child`, but is killed (by the watchdog, or by an abort) before
`PTRACE_GETEVENTMSG` could say so, which fails, and `npid` is not assigned (ptproc.cpp:324-327). -/
inductive Wait (C : Type) where
  | stop (e : Stop C)
  | failed (j : Junk)
  | unsaid (pid child : Nat) (npid : Int)

/-- The state of the loop; `last` is what `status` says (`none`: nothing assigned yet), `lost` that `pgid` is -1 (ptproc.cpp:182), `stray` the members of
`children` put there without having been assigned. (ptproc.cpp:107-120) -/
structure St (C : Type) where
  base : State := {}
  last : Option (Stop C) := none
  lost : Bool := false
  stray : List Int := []

/-- What is done; `killStray` is `kill` of a member of `children` that is no child. (ptproc.cpp:352-354) -/
inductive Out where
  | act (a : Act)
  | killStray (n : Int)
deriving DecidableEq, Repr

/-- `children.erase(pid)`, ptproc.cpp:144. -/
def erased {C : Type} (stray : List Int) : Stop C → List Int
  | .gone p => stray.filter (· ≠ (p : Int))
  | _ => stray

/-- One iteration, ptproc.cpp:121-350. After a failed first wait that does not look like an end the loop waits for the process 1 (`pgid = pid` of line
182, so `-pgid` is 1), which is not a child: all later waits fail. -/
def step {C : Type} (cfg : Cfg C) (s : St C) : Wait C → St C × List Out
  | .stop e =>
    if s.base.finished || s.lost then (s, []) else
    let r := Monitor.step cfg s.base e
    let mine := s.stray.filter fun n => !decide (n ∈ s.base.children.map (Int.ofNat ·))
    ({ s with base := r.1, last := some e, stray := erased s.stray e },
      (if r.1.finished then mine.map .killStray else []) ++ r.2.map .act)
  | .unsaid p c n =>
    if s.base.finished || s.lost then (s, []) else
    let r := Monitor.step cfg s.base (.trap p .plain)
    ({ s with base := r.1, last := some (.trap p (.fork c)), stray := n :: s.stray.filter (· ≠ n) }, r.2.map .act)
  | .failed j =>
    if s.base.finished || s.lost then (s, []) else
    match s.last with
    | none =>
      if j.ended then ({ s with base := { s.base with finished := true } }, [.act (.exited s.base.faulted)])
      else ({ s with base := { s.base with first := false }, lost := true }, [])
    | some (.trap _ (.fork _)) | some (.trap _ (.vfork _)) => ({ s with stray := j.npid :: s.stray.filter (· ≠ j.npid) }, [])
    | some _ => (s, [])

/-- The loop. (ptproc.cpp:107-363) -/
def run {C : Type} (cfg : Cfg C) : St C → List (Wait C) → St C × List Out
  | s, [] => (s, [])
  | s, w :: ws =>
    let r := step cfg s w
    let r' := run cfg r.1 ws
    (r'.1, r.2 ++ r'.2)

end Verif.Interrupted
