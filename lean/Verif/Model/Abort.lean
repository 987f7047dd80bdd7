import Verif.Model.Worker

/-!
# Aborting: the two threads of a worker and the program it runs

dmoj/judge.py:357-435, 437-512; dmoj/graders/base.py:13-31; dmoj/graders/standard.py:13-40, 79-103.

The main thread grades (`Model/Worker.lean` has the same as one function), the other one listens to the judge, the program runs. One access to
something shared per step; messages that follow each other without such an access are sent in one step. Left out: the end of the listener with the
BYE of the judge, and that a process id may be reused (C65). `grader.cases()` raising counts as an exception while building.
-/

namespace Verif.Abort
open Verif Worker

/-- What is graded: what building gives, and whether the site asked for short circuits. (judge.py:437-468) -/
structure Cfg where
  build : Build
  sc : Bool

/-- Where `grade` is. (standard.py:13-40) -/
inductive Part where
  /-- `case.input_data()` -/
  | input
  /-- in `binary.launch`: the program runs, `_current_proc` is not assigned yet -/
  | launched
  /-- talking to the program, waiting for its end -/
  | running
  /-- `populate_result`, `check_result` -/
  | checking
  /-- `grade` has returned, `_abort_requested` is looked at next (judge.py:483) -/
  | look (r : Res)

/-- The main thread; `l` has the variables of the loops and what was done before this case. (judge.py:394-420, 437-507) -/
inductive Pc where
  /-- `Problem(...)`, `grader_class(...)` -/
  | building
  /-- before the next batch, or the next case without batch -/
  | outer (gs : List (Option Nat × List TestCase)) (l : Worker.St)
  /-- before the next case of a batch -/
  | inner (bn : Option Nat) (cs : List TestCase) (gs : List (Option Nat × List TestCase)) (l : Worker.St)
  | grading (p : Part) (bn : Option Nat) (c : TestCase) (cs : List TestCase) (gs : List (Option Nat × List TestCase)) (l : Worker.St)
  | ended

/-- The listening thread: in `recv`; in `_do_abort` after the flag is set; with the grader in hand; with a process in hand; returned.
(judge.py:371-385, 509-512, base.py:24-31) -/
inductive RPc where
  | recv
  | flagged
  | grader
  | kill (n : Nat)
  | gone
deriving DecidableEq

/-- The worker. (judge.py:299-312, base.py:13-14) -/
structure St where
  pc : Pc := .building
  rpc : RPc := .recv
  /-- `_abort_requested` -/
  flag : Bool := false
  /-- `self.grader` is set -/
  grader : Bool := false
  /-- `_current_proc`: the process of this case -/
  cur : Option Nat := none
  /-- the case whose program is alive -/
  prog : Option Nat := none
  /-- the judge has closed its end of the pipe; the listener has seen it -/
  hung : Bool := false
  seen : Bool := false
  /-- everything done: cases given to the grader, messages -/
  acts : List Act := []
  /-- history: the outcome of each case with the flag as it was seen; the programs killed; an exception out of building; a message not sent -/
  log : List (Nat × Option Res × Bool) := []
  killed : List Nat := []
  early : Bool := false
  cut : Bool := false

/-- What can happen. (judge.py:357-512) -/
inductive Action where
  /-- the main thread makes a step -/
  | main
  /-- `grade` returns -/
  | checked (r : Res)
  /-- an exception in `grade`, or while building -/
  | raises
  /-- the program ends, by itself or for its limits -/
  | exit
  /-- the judge asks for an abort, and the listener sets the flag -/
  | request
  /-- the judge closes the pipe, or dies -/
  | hangup
  /-- the listener makes a step -/
  | listener
deriving DecidableEq

/-- The end of the main thread; `self.grader = None` (judge.py:435). -/
def St.finish (s : St) : St := { s with pc := .ended, grader := false }

/-- Sending: without a judge it raises, which ends the worker. (judge.py:401-420) -/
def St.send (s : St) (es : List Event) (k : St → St) : St :=
  if s.hung && !es.isEmpty then { s.finish with cut := true } else k { s with acts := s.acts ++ es.map .send }

/-- A step of the main thread. (judge.py:437-507, standard.py:13-40) -/
def mainStep (c : Cfg) (s : St) : St :=
  match s.pc with
  | .building =>
    match c.build with
    | .compileError => s.send [.compileError] St.finish
    | .ok warning pretested items =>
      { s with grader := true }.send ((if warning then [Event.compileMessage] else []) ++ [Event.gradingBegin pretested]) fun s =>
        { s with pc := .outer (groupBy (flatten 0 items)) ⟨s.acts, 0, false, c.sc⟩ }
  | .outer [] _ => s.send [.gradingEnd] St.finish
  | .outer ((bn, cs) :: gs) l =>
    s.send (if truthy bn then [.batchBegin (bn.getD 0)] else []) fun s => { s with pc := .inner bn cs gs { l with acts := s.acts } }
  | .inner bn [] gs l =>
    s.send (if truthy bn then [.batchEnd (bn.getD 0)] else []) fun s =>
      { s with pc := .outer gs { l with acts := s.acts, sc := if truthy bn then l.sc && l.enabled else l.sc } }
  | .inner bn (t :: cs) gs l =>
    if l.sc then s.send [.result bn (l.caseNo + 1) ⟨Result.SC, 0⟩] fun s => { s with pc := .inner bn cs gs { l with acts := s.acts, caseNo := l.caseNo + 1 } }
    else { s with pc := .grading .input bn t cs gs l, acts := s.acts ++ [.exec (l.caseNo + 1)] }
  | .grading .input bn t cs gs l => { s with pc := .grading .launched bn t cs gs l, prog := some (l.caseNo + 1) }
  | .grading .launched bn t cs gs l => { s with pc := .grading .running bn t cs gs l, cur := some (l.caseNo + 1) }
  | .grading .running bn t cs gs l => if s.prog = none then { s with pc := .grading .checking bn t cs gs l } else s
  | .grading .checking _ _ _ _ _ => s
  | .grading (.look r) bn t cs gs l =>
    let s := { s with log := s.log ++ [(l.caseNo + 1, some r, s.flag)] }
    if s.flag then s.send [.gradingAborted] St.finish
    else
      let wa := decide (r.flag &&& Result.WA ≠ 0)
      let enabled := if wa then l.enabled || decide (t.points = 0) else l.enabled
      let sc := if wa then l.sc || (bn.isSome || enabled) else l.sc
      s.send [.result bn (l.caseNo + 1) r] fun s => { s with pc := .inner bn cs gs ⟨s.acts, l.caseNo + 1, sc, enabled⟩ }
  | .ended => s

/-- A step of the listener in `_do_abort`, judge.py:509-512, base.py:24-31. After a hang-up it returns (judge.py:375-379). -/
def listenerStep (s : St) : St :=
  let back := if s.seen then RPc.gone else .recv
  match s.rpc with
  | .recv => if s.hung then { s with flag := true, rpc := .flagged, seen := true } else s
  | .flagged => if s.grader then { s with rpc := .grader } else { s with rpc := back }
  | .grader =>
    match s.cur with
    | some n => { s with rpc := .kill n }
    | none => { s with rpc := back }
  | .kill n => if s.prog = some n then { s with rpc := back, prog := none, killed := s.killed ++ [n] } else { s with rpc := back }
  | .gone => s

/-- One step; what cannot happen in a state leaves it alone. (judge.py:357-512) -/
def step (c : Cfg) (s : St) : Action → St
  | .main => mainStep c s
  | .checked r =>
    match s.pc with
    | .grading .checking bn t cs gs l => { s with pc := .grading (.look r) bn t cs gs l }
    | _ => s
  | .raises =>
    match s.pc with
    | .building => { s.finish with early := true }
    | .grading (.look _) _ _ _ _ _ => s
    | .grading _ _ _ _ _ l => { s.finish with log := s.log ++ [(l.caseNo + 1, none, s.flag)] }
    | _ => s
  | .exit => { s with prog := none }
  | .request => if s.rpc = .recv ∧ s.hung = false then { s with flag := true, rpc := .flagged } else s
  | .hangup => { s with hung := true }
  | .listener => listenerStep s

/-- The worker after this has happened. (judge.py:357-512) -/
def run (c : Cfg) (as : List Action) : St := as.foldl (step c) {}

end Verif.Abort
