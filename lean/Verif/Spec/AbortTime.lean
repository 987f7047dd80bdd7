import Verif.Model.AbortTime

/-! # C118: what aborting means -/

namespace Verif.Spec.AbortTime

open Verif.AbortTime

/-- The messages that end a grading for the site. -/
def Terminal : Ev → Prop
  | .aborted | .done | .compileError | .internal => True
  | _ => False

/-- Exactly one message ends the grading, and nothing comes after it. -/
def Ends (l : List (Nat × Ev)) (t : Nat) (e : Ev) : Prop :=
  Terminal e ∧ ∃ l', l = l' ++ [(t, e)] ∧ ∀ x ∈ l', ¬Terminal x.2

/-- A program is started. -/
def starts : Ev → Bool
  | .launch _ => true
  | _ => false

/-- The moment of the abort is one while the program of case `i` runs, in the course the work takes if left alone. -/
def Running (w : Work) (i t : Nat) : Prop :=
  ∃ l e, (l, Ev.launch i) ∈ worker w none ∧ (e, Ev.exited i) ∈ worker w none ∧ l < t ∧ t < e

end Verif.Spec.AbortTime
