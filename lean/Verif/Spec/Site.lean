import Verif.Spec.Judge
import Verif.Spec.Worker

/-!
# Specification: what the site is told of each submission (C82)
-/

namespace Verif.Site
open Verif Judge

/-- One thing the site learns: a result, or a packet about a submission. -/
inductive Item where
  | result (sid pos : Nat)
  | packet (k : Kind) (sid : Nat)
deriving DecidableEq, Repr

/-- What the site learns from the packets sent, in order. -/
def received : List Ev → List Item
  | [] => []
  | .enq _ :: h => received h
  | .status sid cs :: h => cs.map (fun c => .result sid c.pos) ++ received h
  | .say k sid _ :: h => .packet k sid :: received h
  | .ack _ :: h => received h
  | .other :: h => received h

/-- The submissions the site asked for, in order. -/
def requested : List Ev → List Nat
  | [] => []
  | .ack sid :: h => sid :: requested h
  | .enq _ :: h => requested h
  | .status _ _ :: h => requested h
  | .say _ _ _ :: h => requested h
  | .other :: h => requested h

/-- What the site should learn from a worker's message. -/
def tell (sid : Nat) : Msg → List Item
  | .hello => []
  | .compileError => [.packet .compileError sid]
  | .compileMessage => [.packet .compileMessage sid]
  | .gradingBegin => [.packet .gradingBegin sid]
  | .gradingEnd => [.packet .gradingEnd sid]
  | .gradingAborted => [.packet .gradingAborted sid]
  | .batchBegin => [.packet .batchBegin sid]
  | .batchEnd => [.packet .batchEnd sid]
  | .result p => [.result sid p]
  | .unhandled => [.packet .internalError sid]
  | .garbage => [.packet .internalError sid]

/-- What the site should learn from a worker's messages. -/
def told (sid : Nat) (l : List Msg) : List Item := l.flatMap (tell sid)

/-- The report on a submission whose worker would say `workerMsgs r`: all of it, or a part of it and the news of an internal error. -/
def Report (sid : Nat) (r : WorkerRun) (x : List Item) : Prop :=
  x = told sid (workerMsgs r) ∨ ∃ p, p <+: workerMsgs r ∧ x = told sid p ++ [.packet .internalError sid]

/-- The reports on submissions, one after the other; `run i` is what the worker of the `i`-th submission does. -/
def Reports (run : Nat → WorkerRun) : Nat → List Nat → List Item → Prop
  | _, [], x => x = []
  | i, sid :: r, x => ∃ y z, x = y ++ z ∧ Report sid (run i) y ∧ Reports run (i + 1) r z

/-- A worker says BYE when it has said everything (dmoj/judge.py:395-403). -/
def SaidAll (got : List Msg) : Prop := ∃ r, got = workerMsgs r

/-- Each worker has said a part of what it will say. -/
def Keeps (run : Nat → WorkerRun) (s : S) : Prop := ∀ g ∈ s.finished ++ s.grs, g.got <+: workerMsgs (run g.ticket)

/-- A mark of the grading stream as the site sees it. -/
def shown (sid : Nat) : Spec.Mark → Item
  | .begin => .packet .gradingBegin sid
  | .batchBegin _ => .packet .batchBegin sid
  | .case _ n => .result sid n
  | .batchEnd _ => .packet .batchEnd sid
  | .finish => .packet .gradingEnd sid
  | .abort => .packet .gradingAborted sid
  | .compileError => .packet .compileError sid

/-- Does this end a submission for the site? -/
def Item.ends : Item → Bool
  | .result _ _ => false
  | .packet k _ => k.terminal

end Verif.Site
