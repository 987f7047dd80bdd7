import Verif.Basic

/-! # Partial points reported by a helper program -/

namespace Verif.Contrib.Spec

/-- Lines with a newline between each two. -/
def joined : List Bytes → Bytes
  | [] => []
  | [l] => l
  | l :: ls => l ++ 10 :: joined ls

/-- Decimal digits. -/
def Digits (d : Bytes) : Prop := d ≠ [] ∧ ∀ c ∈ d, 48 ≤ c.toNat ∧ c.toNat ≤ 57

/-- Their value: the last counts once. -/
def decimal (d : Bytes) : Nat := d.reverse.foldr (fun c n => (c.toNat - 48) + 10 * n) 0

/-- `points N` -/
def PointsLine (l : Bytes) (n : Nat) : Prop := ∃ d, l = b "points " ++ d ∧ Digits d ∧ n = decimal d

/-- `partial N/D`, where `D` is not zero. -/
def FractionLine (l : Bytes) (x : Nat × Nat) : Prop :=
  ∃ d e, l = b "partial " ++ d ++ b "/" ++ e ∧ Digits d ∧ Digits e ∧ x = (decimal d, decimal e) ∧ decimal e ≠ 0

/-- The first of the lines that have a form says so. -/
def First {α : Type} (form : Bytes → α → Prop) (text : Bytes) (x : α) : Prop :=
  ∃ before line after, text = joined (before ++ line :: after) ∧ (∀ l ∈ before ++ line :: after, (10 : Byte) ∉ l) ∧ form line x ∧
    ∀ l ∈ before, ∀ y, ¬ form l y

end Verif.Contrib.Spec
