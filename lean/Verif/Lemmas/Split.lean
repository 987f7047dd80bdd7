import Verif.Basic
import Verif.Spec.Checkers

/-! Lemmas relating the splitting primitives of the model to the specification vocabulary. -/

namespace Verif
open Spec

theorem splitBy_ne_nil (p : Byte → Bool) (s : Bytes) : splitBy p s ≠ [] := by
  cases s with
  | nil => simp [splitBy]
  | cons c s =>
    simp only [splitBy]
    split
    · simp
    · split <;> simp

theorem splitBy_eq (p : Byte → Bool) (s : Bytes) : splitBy p s = s.splitOnP p := by
  induction s with
  | nil => simp [splitBy]
  | cons c s ih =>
    rw [List.splitOnP_cons_eq_if_modifyHead, ← ih]
    simp only [splitBy]
    split
    · rfl
    · cases h : splitBy p s with
      | nil => exact absurd h (splitBy_ne_nil p s)
      | cons h t => simp

theorem dropEmpty_eq {α : Type} [DecidableEq α] (xs : List (List α)) :
    dropEmpty xs = xs.filter (fun x => x ≠ []) := by
  unfold dropEmpty
  congr 1
  funext x
  cases x <;> simp

theorem lines_ne_nil (s : Bytes) : lines s ≠ [] := by
  simp [lines]

theorem lines_cons (c : Byte) (s : Bytes) :
    lines (c :: s) = if isLine c then [] :: lines s else (lines s).modifyHead (List.cons c) := by
  simp only [lines]; exact List.splitOnP_cons_eq_if_modifyHead ..

theorem tokens_nil : tokens [] = [] := by simp [tokens]

theorem tokens_white {c : Byte} (h : isWhite c = true) (s : Bytes) : tokens (c :: s) = tokens s := by
  simp [tokens, List.splitOnP_cons_eq_if_modifyHead, h]

/-- A token followed by whitespace or the end. -/
theorem tokens_token (t u : Bytes) (ht : ∀ c ∈ t, isWhite c = false) (hne : t ≠ [])
    (hu : ∀ c r, u = c :: r → isWhite c = true) : tokens (t ++ u) = t :: tokens u := by
  have key : ∀ (t : Bytes), (∀ c ∈ t, isWhite c = false) →
      (t ++ u).splitOnP isWhite = (u.splitOnP isWhite).modifyHead (t ++ ·) := by
    intro t
    induction t with
    | nil => intro _; simp only [List.nil_append]; cases u.splitOnP isWhite <;> simp
    | cons c t ih =>
      intro h
      rw [List.cons_append, List.splitOnP_cons_eq_if_modifyHead, ih (fun d hd => h d (by simp [hd]))]
      simp only [h c (by simp), Bool.false_eq_true, if_false]
      cases u.splitOnP isWhite <;> simp
  simp only [tokens]
  rw [key t ht]
  cases u with
  | nil => simp [hne]
  | cons c r => simp [List.splitOnP_cons_eq_if_modifyHead, hu c r rfl, hne]

theorem isLine_isWhite {c : Byte} (h : isLine c = true) : isWhite c = true := by
  simp only [isLine, isWhite, Bool.or_eq_true] at *
  rcases h with h | h <;> simp [h]

/-- The model's `bytes.split()` is the specification's tokenisation. -/
theorem pySplit_eq (s : Bytes) : pySplit s = tokens s := by
  induction s with
  | nil => simp [pySplit, tokens_nil]
  | cons c s ih =>
    unfold pySplit
    by_cases hc : isWhite c = true
    · simp [hc, tokens_white hc, ih]
    · have hc' : isWhite c = false := by simpa using hc
      simp only [hc', Bool.false_eq_true, if_false]
      cases s with
      | nil =>
        have := tokens_token [c] [] (by simpa using hc') (by simp) (by simp)
        simpa [tokens_nil] using this.symm
      | cons d s =>
        simp only [ih]
        by_cases hd : isWhite d = true
        · simp only [hd, if_true]
          have := tokens_token [c] (d :: s) (by simpa using hc') (by simp)
            (by intro c' r h; cases h; exact hd)
          simpa using this.symm
        · have hd' : isWhite d = false := by simpa using hd
          simp only [hd', Bool.false_eq_true, if_false]
          simp only [tokens, List.splitOnP_cons_eq_if_modifyHead, hc', hd', Bool.false_eq_true, if_false]
          cases h : s.splitOnP isWhite with
          | nil => simp at h
          | cons x xs => simp

end Verif
