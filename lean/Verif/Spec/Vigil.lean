import Verif.Model.Vigil
import Verif.Spec.Family

/-! # Specification: when the judge has waited long enough -/

namespace Verif.Vigil.Spec
open Verif.Vigil

/-- A process of the submission that can still write to the pipe (or read it, the input). -/
def Holds (s : State) (p : Nat) (e : End) : Prop := (p, e) ∈ s.holds

/-- What the threads of the judge do by themselves. -/
def own : List Event := [.fam (.see 0), .died, .fam .finish, .eof .in_, .eof .out, .eof .err, .wake]

/-- Each of these happens, in some order, in each of `n` successive parts of the history, whatever else does. -/
inductive Rounds : Nat → List Event → Prop
  | zero (bs : List Event) : Rounds 0 bs
  | more {n : Nat} (as bs : List Event) : (∀ e ∈ own, e ∈ as) → Rounds n bs → Rounds (n + 1) (as ++ bs)

/-- The submission makes a process that nobody traces. -/
def Hides (e : Event) : Prop := ∃ f, e = .fam f ∧ Family.Spec.Hides f

/-- The judge has returned. -/
def Returned (s : State) : Prop := s.talk = .returned

end Verif.Vigil.Spec
