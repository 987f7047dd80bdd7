import Verif.Model.Limits
import Verif.Spec.Start

/-!
# Specification: the limits asked for
-/

namespace Verif.Limits.Spec
open Verif.Child Verif.Start Verif.Start.Spec Verif.Limits

/-- Rounding to floating point numbers: larger stays at least as large, and integers up to 2^53 are exact. -/
structure Rounding (rnd : ℚ → ℚ) : Prop where
  mono : ∀ a b, a ≤ b → rnd a ≤ rnd b
  exact : ∀ n : Int, -2 ^ 53 ≤ n → n ≤ 2 ^ 53 → rnd n = n

/-- Widths of `unsigned long`. -/
def Width (W : Nat) : Prop := W = 64 ∨ W = 32

/-- The process may use no more address space, data, processes and file growth than asked for. -/
structure Held (a : Ask) (l : Limits) : Prop where
  address : ∀ n : Nat, a.memory ≠ 0 → a.memory + a.addressGrace = n → n ≠ 0 → AtMost (l .as) (n * 1024) (n * 1024)
  data : ∀ n : Nat, a.memory + a.dataGrace = n → n ≠ 0 → AtMost (l .data) (n * 1024) (n * 1024)
  nproc : ∀ n : Nat, a.nproc = n → AtMost (l .nproc) n n
  fsize : ∀ n : Nat, a.fsize = n → AtMost (l .fsize) n n
  core : AtMost (l .core) 0 0

/-- The numbers fit. -/
structure Fits (W : Nat) (rnd : ℚ → ℚ) (a : Ask) : Prop where
  time : ∃ t : ℚ, a.time = .fin t ∧ (t = 0 ∨ -1 < rnd (t + 5) ∧ rnd (t + 5) < 2 ^ 32)
  data : 0 ≤ a.memory + a.dataGrace ∧ (a.memory + a.dataGrace) * 1024 < 2 ^ W
  address : a.memory ≠ 0 → 0 ≤ a.memory + a.addressGrace ∧ (a.memory + a.addressGrace) * 1024 < 2 ^ W
  nproc : -2 ^ 31 ≤ a.nproc ∧ a.nproc < 2 ^ 31
  fsize : -2 ^ 31 ≤ a.fsize ∧ a.fsize < 2 ^ 31

end Verif.Limits.Spec
