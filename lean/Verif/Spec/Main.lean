import Verif.Basic

/-!
# What the theorems on starting and stopping say, without the model
-/

namespace Verif.Main.Spec

/-- White space. -/
def Blank (s : List Char) : Prop := ∀ c ∈ s, c = ' ' ∨ c = '\n' ∨ c = '\t' ∨ c = '\r'

/-- A file that says `1`. -/
def SaysOne (s : List Char) : Prop := ∃ a b, s = a ++ '1' :: b ∧ Blank a ∧ Blank b

/-- A character that cannot follow `%`. -/
def Wrong (c : Char) : Prop := c ∉ "%(-+ #0123456789*.hlLsracdiuoxXeEfFgG".toList

/-- `l` contains `part` in one piece, after what was in `before`. -/
def Since {α : Type} (before part l : List α) : Prop := ∃ a b, l = before ++ a ++ part ++ b

end Verif.Main.Spec
