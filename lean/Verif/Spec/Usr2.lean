import Verif.Model.Usr2

/-!
# C121: requests by signal, specification
-/

namespace Verif.Usr2

/-- The main thread is within `set`, past taking the lock. -/
def Within (s : St) : Prop := ∃ p ∈ s.main, p ≠ SPc.acquire

/-- No signal arrives while the main thread is. -/
def Calm : St → List Act → Prop
  | _, [] => True
  | s, a :: as => (a = .signal → ¬ Within s) ∧ Calm (act s a) as

/-- Nothing new is asked for: threads only go on. -/
def GoesOn (as : List Act) : Prop := ∀ a ∈ as, ∃ w, a = Act.step w

/-- A stretch in which threads only go on, and the main thread, the updater and those of `ns` each do at least once. -/
def Round (ns : List Nat) (r : List Act) : Prop :=
  GoesOn r ∧ .step .main ∈ r ∧ .step .updater ∈ r ∧ ∀ n ∈ ns, .step (.other n) ∈ r

end Verif.Usr2
