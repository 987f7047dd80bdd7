import Verif.Basic

/-! # Specification: the string at an address -/

namespace Verif.ReadStr

/-- The string stored at address `a`: the bytes before the first zero byte. -/
structure StringAt (byte : Nat → UInt8) (a : Nat) (s : List UInt8) : Prop where
  bytes : ∀ i (h : i < s.length), s[i] = byte (a + i)
  nonzero : ∀ i, i < s.length → byte (a + i) ≠ 0
  nul : byte (a + s.length) = 0

end Verif.ReadStr
