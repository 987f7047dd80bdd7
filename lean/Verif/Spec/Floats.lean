import Verif.Spec.Checkers
import Mathlib.Algebra.Order.Ring.Abs
import Mathlib.Algebra.Order.Field.Rat

/-! # Specification of the float checker -/

namespace Verif.Spec
open Verif

/-- A process token matches a judge token: literally if the judge token is not a number, else it is
itself a number within tolerance. -/
def TokenMatch {F : Type} (parse : Bytes → Option F) (within : F → F → Prop) (pt jt : Bytes) : Prop :=
  match parse jt with
  | none => pt = jt
  | some jf => ∃ pf, parse pt = some pf ∧ within pf jf

/-- Outputs match line by line and token by token. -/
def FloatMatch {F : Type} (parse : Bytes → Option F) (within : F → F → Prop) (p j : Bytes) : Prop :=
  List.Forall₂ (fun pl jl => List.Forall₂ (TokenMatch parse within) (tokens pl) (tokens jl))
    (neLines p) (neLines j)

/-- Absolute tolerance on exact numbers. -/
def withinAbs (eps p j : Rat) : Prop := |p - j| ≤ eps

/-- Relative tolerance on exact numbers. -/
def withinRel (eps p j : Rat) : Prop := |p - j| ≤ eps * |j|

/-- Default: absolute, or relative once the reference is not tiny. -/
def withinDefault (eps p j : Rat) : Prop := |p - j| ≤ eps ∨ (eps ≤ |j| ∧ |p - j| ≤ eps * |j|)

end Verif.Spec
