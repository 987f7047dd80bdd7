import Verif.Spec.Shown

/-! # What a compiler said and what remains of it -/

namespace Verif.Spec.Message

/-- The word occurs in the output. -/
def Mentions (word : String) (out : List UInt8) : Prop := Shown.encode word.toList <:+: out

/-- `t` without the white space around it. -/
def Trimmed (ws : Char → Bool) (t s : List Char) : Prop :=
  ∃ a b, t = a ++ s ++ b ∧ (∀ c ∈ a ++ b, ws c = true) ∧ (∀ c, s.head? = some c → ws c = false) ∧ (∀ c, s.getLast? = some c → ws c = false)

end Verif.Spec.Message
