import Verif.Model.Bridge

/-!
# What is said of two programs connected by pipes
-/

namespace Verif.Bridge.Spec

open Verif.Bridge (P Prog Who State Status Label Deed)

/-- A state that can occur. -/
def Reach (cap : Nat) (s : State) : Prop := ∃ ls, run cap start ls = some s

/-- The other program. -/
def other : Prog → Prog
  | .sub => .inter
  | .inter => .sub

/-- It has been started and has not ended. -/
def Alive (s : State) (g : Prog) : Prop := s.status g = .born ∨ s.status g = .running

/-- The judge has started both and is waiting, or done. -/
def Started (s : State) : Prop := 12 ≤ s.at_

/-- It runs and wants to do this, but has to wait. -/
def Blocked (cap : Nat) (s : State) (g : Prog) (d : Deed) : Prop := s.status g = .running ∧ step cap s (.prog g d) = none

end Verif.Bridge.Spec
