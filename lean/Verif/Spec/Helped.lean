import Verif.Model.Helped
import Verif.Spec.Interactor
import Verif.Spec.Partial
import Verif.Spec.Submission

/-!
# Specification: what the author's code decides (C95)
-/

namespace Verif.Helped.Spec
open Verif Verif.Spec Verif.Grading Verif.Submission Verif.Helped Verif.Contrib.Spec Verif.Interactor.Spec

/-- What comes of a case. -/
inductive Outcome where
  /-- the points, and whether the answer counts as right -/
  | graded (right : Bool) (points : Rat)
  /-- the author's code failed -/
  | broken

/-- What a program says by its exit status (and, for part of the points, by a line of its stderr). -/
inductive Says (p : Protocol) (value : Rat) (h : Helper) : Bool → Rat → Prop where
  | yes : h.proc.returncode = 0 → Says p value h true value
  | no : h.proc.returncode = 1 → Says p value h false 0
  | ill : p ≠ .default → h.proc.returncode = 2 → Says p value h false 0
  | points (n : Nat) : p = .testlib → h.proc.returncode = 7 → First PointsLine h.stderr n → (n : Rat) ≤ value → Says p value h true n
  | fraction (n d : Nat) : p = .coci → h.proc.returncode = 7 → First FractionLine h.stderr (n, d) → n ≤ d →
      Says p value h true ((n / d : Rat) * value)

/-- It says nothing it may say. -/
def Senseless (p : Protocol) (value : Rat) (h : Helper) : Prop := ∀ right points, ¬ Says p value h right points

/-- What comes of a case worth `value`. -/
inductive Gets (value : Rat) (r : Run) : Side → Outcome → Prop where
  -- a checker is asked only about programs that did nothing wrong
  | crash (p f h) : ¬ Clean r.proc → Gets value r (.checker p f h) (.graded false 0)
  | unreadable (p f h) : Clean r.proc → ¬ IsText h.stdout → Gets value r (.checker p f h) (.graded false 0)
  | checked (p f h right points) : Clean r.proc → IsText h.stdout → Says p value h right points →
      Gets value r (.checker p f h) (.graded right points)
  | checkerFails (p f h) : Clean r.proc → IsText h.stdout → Senseless p value h → Gets value r (.checker p f h) .broken
  -- an interactor must have ended properly in any case
  | garbled (p h) : ¬ IsText h.stderr → Gets value r (.interactor p true h) .broken
  | interactorFails (p f h) : Senseless p value h → Gets value r (.interactor p f h) .broken
  | crashed (p f h right points) : (f = true → IsText h.stderr) → Says p value h right points → ¬ Clean r.proc →
      Gets value r (.interactor p f h) (.graded false 0)
  | interacted (p f h right points) : (f = true → IsText h.stderr) → Says p value h right points → Clean r.proc →
      Gets value r (.interactor p f h) (.graded right points)
  -- Python code may raise `WrongAnswer`, and may see the streams closed
  | raises : Gets value r (.code .raised) .broken
  | crashes (e) : e ≠ .raised → ¬ Clean r.proc → Gets value r (.code e) (.graded false 0)
  | wrong (m) : Clean r.proc → Gets value r (.code (.wrongAnswer m)) (.graded false 0)
  | closed : Clean r.proc → Gets value r (.code .ioError) (.graded false 0)
  | accepts : Clean r.proc → Gets value r (.code (.ret (.bool true))) (.graded true value)
  | rejects : Clean r.proc → Gets value r (.code (.ret (.bool false))) (.graded false 0)
  | awards (right points t) : Clean r.proc → Gets value r (.code (.ret (.result right points t))) (.graded right points)
  | odd (a) : Clean r.proc → (∀ v, a ≠ .bool v) → (∀ right points t, a ≠ .result right points t) →
      Gets value r (.code (.ret a)) .broken

/-- The author's code judges every case, as `right` and `points` say. -/
def Judged (items : List Verif.Worker.Item) (run : Nat → Run) (side : Nat → Side) (right : Nat → Bool) (points : Nat → Rat) : Prop :=
  ∀ n bn p, 1 ≤ n → (caseList 0 items)[n - 1]? = some (bn, p) → Gets p (run n) (side n) (.graded (right n) (points n))

end Verif.Helped.Spec
