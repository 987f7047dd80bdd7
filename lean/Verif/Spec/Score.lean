import Verif.Model.Score
import Verif.Spec.Helped
import Verif.Spec.Site

/-!
# Specification: the points the site adds up (C96)
-/

namespace Verif.Score.Spec
open Verif Verif.Spec Verif.Worker Verif.Submission Verif.Helped Verif.Helped.Spec Verif.Score

/-- What comes of a case worth `value`. -/
inductive Decides (value : Rat) : Job → Outcome → Prop where
  | right (a r) : Right a r → Decides value (.standard a r) (.graded true value)
  | wrong (a r) : ¬ Right a r → Decides value (.standard a r) (.graded false 0)
  | own (r s o) : Gets value r s o → Decides value (.own r s) o

/-- What the site may have of a report, at some time: a part of what the worker will say, or that and the news of an internal error. -/
def Partly (sid : Nat) (r : Judge.WorkerRun) (y : List Site.Item) : Prop :=
  ∃ p, p <+: Judge.workerMsgs r ∧ y <+: Site.told sid p ++ [.packet .internalError sid]

/-- The numbers of the cases in a report. -/
def numbers : List Site.Item → List Nat
  | [] => []
  | .result _ n :: x => n :: numbers x
  | .packet _ _ :: x => numbers x

/-- The points of a result with this number among those produced. -/
def pointsIn (l : List (Nat × Res)) (n : Nat) : Rat :=
  match l.find? (fun x => x.1 = n) with
  | some x => x.2.points
  | none => 0

/-- What the site adds up from a report on a submission whose worker did `acts`. -/
def score (acts : List Act) (report : List Site.Item) : Rat := ((numbers report).map (pointsIn (resultsOf acts))).sum

/-- The submission an item is about. -/
def about : Site.Item → Nat
  | .result sid _ => sid
  | .packet _ sid => sid

/-- No Python code of the author hands out points itself. -/
def NoAward (t : Task) : Prop := ∀ n r right x text, t.job n ≠ .own r (.code (.ret (.result right x text)))

/-- Every case is decided to be worth its full points. -/
def Full (t : Task) : Prop :=
  ∀ n bn p, 1 ≤ n → (caseList 0 t.items)[n - 1]? = some (bn, p) → ∃ right, Decides p (t.job n) (.graded right p)

end Verif.Score.Spec
