import Verif.Spec.Abi
import Verif.Model.Isolate
import Verif.Model.SyscallTables
import Mathlib.Tactic.Common

/-!
# C56 The tracer judges the system call the kernel will run
-/

namespace Verif.Abi
open Verif.Abi.Spec

private theorem toInt_small (x : BitVec 32) (h : x.toNat < 2 ^ 30) : x.toInt = x.toNat := by
  rw [BitVec.toInt_eq_toNat_cond, if_pos (by omega)]

private theorem and_bit (r : BitVec 64) : (r &&& x32bit ≠ 0) ↔ (r.setWidth 32).getLsbD 30 = true := by
  constructor
  · intro h
    by_contra hh
    apply h
    apply BitVec.eq_of_getLsbD_eq
    intro i hi
    have hb : x32bit.getLsbD i = decide (i = 30) := by
      unfold x32bit
      have : ∀ j : Fin 64, (0x40000000#64).getLsbD j = decide ((j : Nat) = 30) := by decide +kernel
      exact this ⟨i, hi⟩
    rw [BitVec.getLsbD_and, hb]
    by_cases hi' : i = 30
    · subst hi'
      simp at hh
      simp [hh]
    · simp [hi']
  · intro h hz
    have := congrArg (fun b => b.getLsbD 30) hz
    have hb : x32bit.getLsbD 30 = true := by decide
    simp only [BitVec.getLsbD_and, hb, Bool.and_true] at this
    simp only [BitVec.getLsbD_setWidth] at h
    rw [this] at h
    revert h
    decide

private theorem bit_of_lt (x : BitVec 32) (h : x.toNat < 2 ^ 30) : x.getLsbD 30 = false := by
  rw [BitVec.getLsbD]
  exact Nat.testBit_lt_two_pow h

private theorem bit_of_ge (x : BitVec 32) (h : 2 ^ 30 ≤ x.toNat) (h' : x.toNat < 2 ^ 31) : x.getLsbD 30 = true := by
  rw [BitVec.getLsbD, Nat.testBit_eq_decide_div_mod_eq]
  have : x.toNat / 2 ^ 30 = 1 := by omega
  simp [this]

private theorem clear_bit (r : BitVec 64) (h : 2 ^ 30 ≤ (r.setWidth 32).toNat) (h' : (r.setWidth 32).toNat < 2 ^ 31) :
    ((r &&& ~~~x32bit).setWidth 32).toNat = (r.setWidth 32).toNat - 2 ^ 30 := by
  have e : ((r &&& ~~~x32bit).setWidth 32) = (r.setWidth 32) - 0x40000000#32 := by
    have e1 : (r &&& ~~~x32bit).setWidth 32 = (r.setWidth 32) &&& ~~~(0x40000000#32) := by
      rw [BitVec.setWidth_and]; rfl
    rw [e1]
    generalize (r.setWidth 32) = x at h h'
    have key : x &&& ~~~(0x40000000#32) = BitVec.ofNat 32 (x.toNat % 2 ^ 30) := by
      apply BitVec.eq_of_getLsbD_eq
      intro i hi
      have hc : ∀ j : Fin 32, (~~~(0x40000000#32)).getLsbD j = decide ((j : Nat) ≠ 30) := by decide +kernel
      rw [BitVec.getLsbD_and, hc ⟨i, hi⟩, BitVec.getLsbD_ofNat, Nat.testBit_mod_two_pow]
      simp only [hi, decide_true, Bool.true_and]
      have hx : x.getLsbD i = x.toNat.testBit i := rfl
      rw [hx]
      by_cases h1 : i < 30
      · have : i ≠ 30 := by omega
        simp [h1, this]
      · by_cases h2 : i = 30
        · simp [h2]
        · have h3 : i = 31 := by omega
          subst h3
          have : x.toNat.testBit 31 = false := Nat.testBit_lt_two_pow h'
          simp [this]
    rw [key]
    apply BitVec.eq_of_toNat_eq
    simp only [BitVec.toNat_ofNat, BitVec.toNat_sub]
    omega
  rw [e, BitVec.toNat_sub]
  simp only [BitVec.toNat_ofNat]
  omega

/-- 64-bit code using the `syscall` instruction: whenever the kernel runs a call at all, the tracer
judged exactly that one, for every register value. -/
theorem C56_native (z : Sizes) (rax : BitVec 64) (a n : Nat) (h : dispatch z .syscall64 rax = some (a, n)) :
    (abi (seen true rax), number (seen true rax)) = (a, (n : Int)) := by
  unfold dispatch at h
  simp only at h
  simp only [seen, if_true]
  have hz := z.small
  split_ifs at h with h1 h2
  · cases h
    have hb : ¬ (rax &&& x32bit ≠ 0) := by
      rw [and_bit, bit_of_lt _ (by omega)]; simp
    simp only [abi, number]
    rw [if_neg hb, if_neg hb, toInt_small _ (by omega)]
  · cases h
    have hlt : (rax.setWidth 32).toNat < 2 ^ 31 := by omega
    have hb : rax &&& x32bit ≠ 0 := by
      rw [and_bit, bit_of_ge _ h2.1 hlt]
    have hc := clear_bit rax h2.1 hlt
    simp only [abi, number]
    rw [if_pos hb, if_pos hb, toInt_small _ (by omega), hc]

example : dispatch ⟨450, 450, 600, by decide⟩ .syscall64 (0x40000208#64) = some (2, 520) := by decide

/-- 32-bit code, any entry. -/
theorem C56_compat (z : Sizes) (entry : Entry) (hp : Possible false entry) (rax : BitVec 64) (a n : Nat)
    (h : dispatch z entry rax = some (a, n)) : (abi (seen false rax), number (seen false rax)) = (a, (n : Int)) := by
  have hz := z.small
  have key : (if (rax.setWidth 32).toNat < z.x86 then some (0, (rax.setWidth 32).toNat) else none) = some (a, n) := by
    cases entry with
    | syscall64 => simp [Possible] at hp
    | int80 => exact h
    | compat => exact h
  split_ifs at key with h1
  cases key
  simp only [seen, abi, number, Bool.false_eq_true, if_false]
  rw [toInt_small _ (by omega)]

example : Possible false .int80 ∧ dispatch ⟨450, 450, 600, by decide⟩ .int80 (0xFFFFFFFF00000005#64) = some (0, 5) := by
  refine ⟨trivial, ?_⟩
  decide

/-- Numbers with the top bit set, which the kernel has no call for, are judged as negative numbers. -/
theorem C56_negative (rax : BitVec 64) (h : (rax.setWidth 32).toNat ≥ 2 ^ 31) : number (seen true rax) < 0 := by
  simp only [seen, if_true, number]
  have top : (rax.setWidth 32).getLsbD 31 = true := by
    rw [BitVec.getLsbD, Nat.testBit_eq_decide_div_mod_eq]
    have := (rax.setWidth 32).isLt
    have : (rax.setWidth 32).toNat / 2 ^ 31 = 1 := by omega
    rw [this]; rfl
  split_ifs with hb
  · have e1 : (rax &&& ~~~x32bit).setWidth 32 = (rax.setWidth 32) &&& ~~~(0x40000000#32) := by
      rw [BitVec.setWidth_and]; rfl
    have : ((rax &&& ~~~x32bit).setWidth 32).getLsbD 31 = true := by
      rw [e1, BitVec.getLsbD_and, top]; decide
    have h2 : 2 ^ 31 ≤ ((rax &&& ~~~x32bit).setWidth 32).toNat := by
      by_contra hh
      rw [BitVec.getLsbD, Nat.testBit_lt_two_pow (by omega)] at this
      simp at this
    rw [BitVec.toInt_eq_toNat_cond, if_neg (by omega)]
    have := ((rax &&& ~~~x32bit).setWidth 32).isLt
    omega
  · rw [BitVec.toInt_eq_toNat_cond, if_neg (by omega)]
    have := (rax.setWidth 32).isLt
    omega

example : (((-1 : BitVec 64)).setWidth 32).toNat ≥ 2 ^ 31 ∧ number (seen true (-1)) = -1073741825 := by
  decide +kernel

/-- Writing a number of the same ABI back: the kernel and the tracer both see it. With -1 (refused under
seccomp) the low half of the register is -1, which makes the kernel skip the call, in every ABI. -/
theorem C56_skip (r : Regs) :
    match setNumber r (-1) with
    | .small e => e = -1
    | .large x => x.setWidth 32 = -1 := by
  cases r with
  | small e => simp [setNumber]
  | large x =>
    by_cases h : abi (.large x) = 2
    · simp only [setNumber, h, if_true]; decide
    · simp only [setNumber, h, if_false]; decide

/-- Replacing the number keeps the ABI and is read back. -/
theorem C56_replace (r : Regs) (n : Nat) (hn : n < 2 ^ 30) :
    abi (setNumber r (BitVec.ofNat 32 n)) = abi r ∧ number (setNumber r (BitVec.ofNat 32 n)) = n := by
  have hnat : (BitVec.ofNat 32 n).toNat = n := by simp only [BitVec.toNat_ofNat]; omega
  have hmsb : (BitVec.ofNat 32 n).msb = false := by
    rw [BitVec.msb_eq_false_iff_two_mul_lt, hnat]; omega
  have hse : (BitVec.ofNat 32 n).signExtend 64 = BitVec.ofNat 64 n := by
    rw [BitVec.signExtend_eq_setWidth_of_msb_false hmsb]
    apply BitVec.eq_of_toNat_eq
    simp only [BitVec.toNat_setWidth, BitVec.toNat_ofNat]
    omega
  cases r with
  | small e =>
    simp only [setNumber, abi, number, true_and]
    rw [toInt_small _ (by omega), hnat]
  | large x =>
    have hn64 : ((BitVec.ofNat 64 n).setWidth 32).toNat = n := by
      simp only [BitVec.toNat_setWidth, BitVec.toNat_ofNat]; omega
    by_cases h : abi (.large x) = 2
    · have hr : setNumber (.large x) (BitVec.ofNat 32 n) = .large (BitVec.ofNat 64 n ||| x32bit) := by
        simp only [setNumber, h, if_true, hse]
      have hb : (BitVec.ofNat 64 n ||| x32bit) &&& x32bit ≠ 0 := by
        intro hz
        have := congrArg (fun b => b.getLsbD 30) hz
        have hb : x32bit.getLsbD 30 = true := by decide
        simp only [BitVec.getLsbD_and, BitVec.getLsbD_or, hb, Bool.or_true, Bool.and_true] at this
        revert this
        decide
      rw [hr, h]
      simp only [abi, number]
      rw [if_pos hb, if_pos hb]
      refine ⟨rfl, ?_⟩
      have : ((BitVec.ofNat 64 n ||| x32bit) &&& ~~~x32bit).setWidth 32 = BitVec.ofNat 32 n := by
        apply BitVec.eq_of_getLsbD_eq
        intro i hi
        have hb : x32bit.getLsbD i = decide (i = 30) := by
          unfold x32bit
          have : ∀ j : Fin 64, (0x40000000#64).getLsbD j = decide ((j : Nat) = 30) := by decide +kernel
          exact this ⟨i, by omega⟩
        have hi64 : i < 64 := by omega
        rw [BitVec.getLsbD_setWidth, BitVec.getLsbD_and, BitVec.getLsbD_or, BitVec.getLsbD_not, hb, BitVec.getLsbD_ofNat, BitVec.getLsbD_ofNat]
        by_cases h30 : i = 30
        · subst h30
          have : n.testBit 30 = false := Nat.testBit_lt_two_pow hn
          simp [this]
        · simp [h30, hi, hi64]
      rw [this, toInt_small _ (by omega), hnat]
    · have hr : setNumber (.large x) (BitVec.ofNat 32 n) = .large (BitVec.ofNat 64 n) := by
        simp only [setNumber, h, if_false, hse]
      have hb : ¬ ((BitVec.ofNat 64 n) &&& x32bit ≠ 0) := by
        rw [and_bit, bit_of_lt _ (by omega)]; simp
      have ha : abi (.large x) = 1 := by
        revert h
        simp only [abi]
        split_ifs <;> simp
      rw [hr, ha]
      simp only [abi, number]
      rw [if_neg hb, if_neg hb]
      exact ⟨rfl, by rw [toInt_small _ (by omega), hn64]⟩

/-- The full property fails: 64-bit code may use `int 0x80`. Number 5 then is the 32-bit `open`, while
the tracer judges the 64-bit call 5, `fstat`, which the policy allows without looking at its
arguments. -/
theorem C56_int80_fails :
    ∃ rax : BitVec 64, Possible true .int80 ∧ (∀ z : Sizes, 6 ≤ z.x86 → dispatch z .int80 rax = some (0, 5)) ∧
      (abi (seen true rax), number (seen true rax)) = (1, 5) ∧
      (5, "open") ∈ Syscalls.x86Table ∧ (5, "fstat") ∈ Syscalls.x64Table ∧
      Isolate.policy.lookup "fstat" = some .allow ∧ Isolate.policy.lookup "open" ≠ some .allow := by
  refine ⟨5#64, trivial, ?_, by decide, by decide +kernel, by decide +kernel, by rfl, by decide⟩
  intro z hz
  have : ((5#64).setWidth 32).toNat = 5 := by decide
  simp only [dispatch, this]
  rw [if_pos (by omega)]

end Verif.Abi
