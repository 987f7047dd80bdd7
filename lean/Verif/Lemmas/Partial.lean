import Verif.Model.Contrib
import Verif.Spec.Partial

/-! # Reading partial points -/

namespace Verif.Contrib

open Spec

theorem splitBy_line (s : Bytes) : joined (splitBy (· == 10) s) = s ∧ (∀ l ∈ splitBy (· == 10) s, (10 : Byte) ∉ l) ∧ splitBy (· == 10) s ≠ [] := by
  induction s with
  | nil => simp [splitBy, joined]
  | cons c s ih =>
    obtain ⟨h1, h2, h3⟩ := ih
    rw [splitBy]
    cases hs : splitBy (· == 10) s with
    | nil => exact absurd hs h3
    | cons h t =>
      rw [hs] at h1 h2
      by_cases hc : c = 10
      · subst hc
        simp only [beq_self_eq_true, if_true]
        refine ⟨?_, ?_, by simp⟩
        · rw [joined]
          · simp [h1]
          · simp
        · intro l hl
          simp only [List.mem_cons] at hl
          rcases hl with rfl | hl
          · simp
          · exact h2 l (by simpa using hl)
      · simp only [beq_iff_eq, hc, if_false]
        refine ⟨?_, ?_, by simp⟩
        · cases t with
          | nil => simpa [joined] using h1
          | cons a t =>
            rw [joined.eq_3 _ _ (by simp)] at h1 ⊢
            simp [h1]
        · intro l hl
          simp only [List.mem_cons] at hl
          rcases hl with rfl | hl
          · have := h2 h (by simp)
            simp [this, Ne.symm hc]
          · exact h2 l (by simp [hl])

theorem splitBy_joined (ls : List Bytes) (h : ∀ l ∈ ls, (10 : Byte) ∉ l) (hn : ls ≠ []) : splitBy (· == 10) (joined ls) = ls := by
  have one : ∀ l : Bytes, (10 : Byte) ∉ l → splitBy (· == 10) l = [l] := by
    intro l
    induction l with
    | nil => intro _; rfl
    | cons c l ih =>
      intro hl
      have hc : c ≠ 10 := fun e => hl (by simp [e])
      rw [splitBy, ih (fun e => hl (by simp [e]))]
      simp [hc]
  have more : ∀ l r : Bytes, (10 : Byte) ∉ l → splitBy (· == 10) (l ++ 10 :: r) = l :: splitBy (· == 10) r := by
    intro l r
    induction l with
    | nil => intro _; simp [splitBy]
    | cons c l ih =>
      intro hl
      have hc : c ≠ 10 := fun e => hl (by simp [e])
      rw [List.cons_append, splitBy, ih (fun e => hl (by simp [e]))]
      simp [hc]
  induction ls with
  | nil => exact absurd rfl hn
  | cons a ls ih =>
    cases ls with
    | nil => exact one a (h a (by simp))
    | cons c ls =>
      rw [joined.eq_3 _ _ (by simp), more _ _ (h a (by simp)), ih (fun l hl => h l (by simp [hl])) (by simp)]

theorem first_iff {α : Type} (f : Bytes → Option α) (form : Bytes → α → Prop) (hf : ∀ l x, f l = some x ↔ form l x) (s : Bytes) (x : α) :
    (splitBy (· == 10) s).findSome? f = some x ↔ First form s x := by
  rw [List.findSome?_eq_some_iff]
  have hnone : ∀ l, f l = none ↔ ∀ y, ¬ form l y := by
    intro l
    cases h : f l with
    | none => simp only [true_iff]; intro y hy; rw [(hf l y).mpr hy] at h; cases h
    | some y => simp only [reduceCtorEq, false_iff]; intro hy; exact hy y ((hf l y).mp h)
  constructor
  · rintro ⟨l₁, a, l₂, h1, h2, h3⟩
    obtain ⟨e1, e2, _⟩ := splitBy_line s
    rw [h1] at e1 e2
    exact ⟨l₁, a, l₂, e1.symm, e2, (hf a x).mp h2, fun l hl => (hnone l).mp (h3 l hl)⟩
  · rintro ⟨l₁, a, l₂, h1, h2, h3, h4⟩
    refine ⟨l₁, a, l₂, ?_, (hf a x).mpr h3, fun l hl => (hnone l).mpr (h4 l hl)⟩
    rw [h1, splitBy_joined _ h2 (by simp)]

theorem digitsVal_eq (d : Bytes) : digitsVal d = decimal d := by
  unfold digitsVal decimal
  rw [List.foldr_reverse]
  congr 1
  funext n c
  omega

theorem isDigit_iff (c : Byte) : isDigit c = true ↔ 48 ≤ c.toNat ∧ c.toNat ≤ 57 := by
  simp [isDigit, UInt8.le_iff_toNat_le]

theorem all_digits (d : Bytes) : (d ≠ [] ∧ d.all isDigit = true) ↔ Digits d := by
  simp only [Digits, List.all_eq_true, isDigit_iff]

theorem dropPrefix_iff (p s r : Bytes) : dropPrefix p s = some r ↔ s = p ++ r := by
  unfold dropPrefix
  constructor
  · intro h
    split at h
    · next hp =>
      obtain ⟨t, rfl⟩ := List.isPrefixOf_iff_prefix.1 hp
      simp at h
      rw [h]
    · cases h
  · rintro rfl
    rw [if_pos (List.isPrefixOf_iff_prefix.2 (List.prefix_append _ _))]
    simp

theorem matchPoints_iff (l : Bytes) (n : Nat) : matchPoints l = some n ↔ PointsLine l n := by
  unfold matchPoints PointsLine
  constructor
  · intro h
    split at h
    · next d hd =>
      split at h
      · next hh =>
        cases h
        exact ⟨d, (dropPrefix_iff _ _ _).mp hd, (all_digits d).mp hh, digitsVal_eq d⟩
      · cases h
    · cases h
  · rintro ⟨d, rfl, hd, rfl⟩
    rw [(dropPrefix_iff _ _ _).mpr rfl]
    simp only
    rw [if_pos ((all_digits d).mpr hd), digitsVal_eq]

theorem decimal_zero (d : Bytes) (h : ∀ c ∈ d, 48 ≤ c.toNat ∧ c.toNat ≤ 57) :
    decimal d ≠ 0 ↔ d.any (fun x => isDigit x && x != 48) = true := by
  rw [List.any_eq_true]
  unfold decimal
  have : ∀ l : Bytes, (∀ c ∈ l, 48 ≤ c.toNat ∧ c.toNat ≤ 57) →
      (l.foldr (fun c n => (c.toNat - 48) + 10 * n) 0 ≠ 0 ↔ ∃ x ∈ l, (isDigit x && x != 48) = true) := by
    intro l
    induction l with
    | nil => simp
    | cons c l ih =>
      intro hl
      have ih := ih (fun x hx => hl x (by simp [hx]))
      have hc := hl c (by simp)
      have hd : (isDigit c && c != 48) = true ↔ c.toNat - 48 ≠ 0 := by
        have h1 := (isDigit_iff c).mpr hc
        have h2 : c = 48 ↔ c.toNat = 48 := by rw [← UInt8.toNat_inj]; rfl
        simp [h1, h2]; omega
      rw [List.foldr_cons]
      simp only [List.mem_cons, exists_eq_or_imp, hd, ← ih]
      omega
  rw [this d.reverse (fun c hc => h c (by simpa using hc))]
  simp

theorem matchFraction_iff (l : Bytes) (x : Nat × Nat) : matchFraction l = some x ↔ FractionLine l x := by
  unfold matchFraction FractionLine
  have slash : b "/" = [47] := by decide
  constructor
  · intro h
    split at h
    · next d hd =>
      have hd := (dropPrefix_iff _ _ _).mp hd
      simp only at h
      split at h
      · next c den hden =>
        split at h
        · next hh =>
          obtain ⟨h1, h2, h3, h4⟩ := hh
          cases h
          have hsplit := List.takeWhile_append_dropWhile (p := isDigit) (l := d)
          have hdig : Digits (d.takeWhile isDigit) := by
            rw [← all_digits]
            exact ⟨h2, List.all_takeWhile⟩
          have hne : den ≠ [] := by rintro rfl; simp at h4
          have hden' := (all_digits den).mp ⟨hne, h3⟩
          refine ⟨d.takeWhile isDigit, den, ?_, hdig, hden', by rw [digitsVal_eq, digitsVal_eq], ?_⟩
          · rw [hd, slash]
            rw [hden, h1] at hsplit
            simp [hsplit]
          · exact (decimal_zero den hden'.2).mpr h4
        · cases h
      · cases h
    · cases h
  · rintro ⟨d, e, rfl, hd, he, rfl, hz⟩
    have hassoc : b "partial " ++ d ++ b "/" ++ e = b "partial " ++ (d ++ 47 :: e) := by rw [slash]; simp
    rw [(dropPrefix_iff _ _ _).mpr hassoc]
    have hda : ∀ c ∈ d, isDigit c = true := fun c hc => (isDigit_iff c).mpr (hd.2 c hc)
    have h47 : isDigit 47 = false := by decide
    have h1 : (d ++ 47 :: e).takeWhile isDigit = d := by
      rw [List.takeWhile_append_of_pos hda]; simp [h47]
    have h2 : (d ++ 47 :: e).dropWhile isDigit = 47 :: e := by
      rw [List.dropWhile_append_of_pos hda]; simp [h47]
    simp only [h1, h2]
    rw [if_pos ⟨by decide, hd.1, ((all_digits e).mpr he).2, (decimal_zero e he.2).mp hz⟩, digitsVal_eq, digitsVal_eq]

theorem searchPoints_iff (s : Bytes) (n : Nat) : searchPoints s = some n ↔ First PointsLine s n :=
  first_iff matchPoints PointsLine matchPoints_iff s n

theorem searchFraction_iff (s : Bytes) (x : Nat × Nat) : searchFraction s = some x ↔ First FractionLine s x :=
  first_iff matchFraction FractionLine matchFraction_iff s x

end Verif.Contrib
