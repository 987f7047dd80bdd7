import Verif.Model.Shown

/-! # What the site should be shown -/

namespace Verif.Shown

/-- The UTF-8 encoding of a text. -/
def encode (t : Text) : Bytes := t.flatMap String.utf8EncodeChar

/-- `k` is the number of characters of `t` that lie wholly in its first `n` bytes. -/
def Fits (t : Text) (n k : Nat) : Prop :=
  k ≤ t.length ∧ (encode (t.take k)).length ≤ n ∧ (k < t.length → n < (encode (t.take (k + 1))).length)

/-- The first `n` bytes of `t` end inside a character. -/
def CutInside (t : Text) (n : Nat) : Prop := n < (encode t).length ∧ ∀ k, (encode (t.take k)).length ≠ n

end Verif.Shown
