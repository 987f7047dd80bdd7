import Verif.Model.Checkers
import Verif.Lemmas.Split
import Mathlib.Data.List.TakeWhile
import Mathlib.Tactic.ByContra

/-! Helper lemmas for C01 (standard checker). -/

namespace Verif.Checkers
open Verif Spec

/-- Rest of a suffix after its leading whitespace. -/
def next (s : Bytes) : Bytes := s.dropWhile isWhite

/-- Class of the leading whitespace: 2 / 1 / 0 as in `skip_spaces`. -/
def sepClass (s : Bytes) : Nat :=
  if (s.takeWhile isWhite).any isLine then 2 else if (s.takeWhile isWhite) ≠ [] then 1 else 0

def nw (c : Byte) : Bool := !isWhite c

theorem tokenLines_white {c : Byte} (h : isWhite c = true) (s : Bytes) :
    tokenLines (c :: s) = tokenLines s := by
  simp only [tokenLines, lines_cons]
  by_cases hl : isLine c = true
  · simp [hl, tokens_nil]
  · simp only [hl, Bool.false_eq_true, if_false]
    cases hs : lines s with
    | nil => exact absurd hs (lines_ne_nil s)
    | cons x xs => simp [List.modifyHead, tokens_white h]

theorem tokenLines_next (s : Bytes) : tokenLines (next s) = tokenLines s := by
  induction s with
  | nil => rfl
  | cons c s ih =>
    unfold next at *
    by_cases hc : isWhite c = true
    · simp [hc, tokenLines_white hc, ih]
    · simp [hc]

theorem next_start (s : Bytes) {c : Byte} {r : Bytes} (h : next s = c :: r) : isWhite c = false := by
  induction s with
  | nil => simp [next] at h
  | cons d s ih =>
    unfold next at *
    by_cases hd : isWhite d = true
    · simp [hd] at h; exact ih h
    · simp [hd] at h
      rw [← h.1]; simpa using hd

theorem tokenLines_nil : tokenLines [] = [] := by simp [tokenLines, lines, tokens]

/-- First line of a suffix that starts with whitespace (or is empty): empty or starts with
whitespace. -/
theorem lines_head_start {r h : Bytes} {tl : List Bytes} (hl : lines r = h :: tl)
    (hr : ∀ c s, r = c :: s → isWhite c = true) : ∀ c s, h = c :: s → isWhite c = true := by
  intro c s hh
  cases r with
  | nil => simp [lines] at hl; simp [hl.1] at hh
  | cons d r =>
    rw [lines_cons] at hl
    split at hl
    · simp at hl; simp [hl.1] at hh
    · cases hx : lines r with
      | nil => exact absurd hx (lines_ne_nil r)
      | cons x xs =>
        simp [hx] at hl
        have : c = d := by
          have := hl.1; rw [hh] at this; simp at this; exact this.1.symm
        rw [this]; exact hr d r rfl

theorem lines_append (t r : Bytes) (ht : ∀ c ∈ t, isLine c = false) :
    lines (t ++ r) = (lines r).modifyHead (t ++ ·) := by
  induction t with
  | nil => simp only [List.nil_append]; cases lines r <;> simp
  | cons c t ih =>
    rw [List.cons_append, lines_cons, ih (fun d hd => ht d (by simp [hd]))]
    simp only [ht c (by simp), Bool.false_eq_true, if_false]
    cases lines r <;> simp

theorem not_isLine_of_not_isWhite {c : Byte} (h : isWhite c = false) : isLine c = false := by
  cases hl : isLine c with
  | false => rfl
  | true => rw [isLine_isWhite hl] at h; cases h

/-- Prepend a token to the first line. -/
def consHead (t : Bytes) : List (List Bytes) → List (List Bytes)
  | [] => [[t]]
  | h :: r => (t :: h) :: r

theorem tokenLines_token (t r : Bytes) (ht : ∀ c ∈ t, isWhite c = false) (hne : t ≠ [])
    (hr : ∀ c s, r = c :: s → isWhite c = true) {h : Bytes} {tl : List Bytes}
    (hl : lines r = h :: tl) :
    tokenLines (t ++ r) = (t :: tokens h) :: (tl.map tokens).filter (fun l => l ≠ []) := by
  have h1 := lines_append t r (fun c hc => not_isLine_of_not_isWhite (ht c hc))
  simp only [tokenLines, h1, hl, List.modifyHead, List.map_cons]
  rw [tokens_token t h ht hne (lines_head_start hl hr)]
  simp

theorem tokens_ne_nil_of_start {c : Byte} (h : isWhite c = false) (s : Bytes) :
    tokens (c :: s) ≠ [] := by
  simp only [tokens, List.splitOnP_cons_eq_if_modifyHead, h, Bool.false_eq_true, if_false]
  cases hx : s.splitOnP isWhite with
  | nil => simp at hx
  | cons x xs => simp

/-- Decomposition of the token lines after a token. -/
theorem tokenLines_glue (t : Bytes) (ht : ∀ c ∈ t, isWhite c = false) (hne : t ≠ []) (r : Bytes)
    (hr : ∀ c s, r = c :: s → isWhite c = true) :
    tokenLines (t ++ r) =
      if next r = [] then [[t]]
      else if sepClass r = 2 then [t] :: tokenLines (next r)
      else consHead t (tokenLines (next r)) := by
  -- generalise: first-line tokens and remaining token lines of `r`
  have key : ∀ r : Bytes, ∀ h tl, lines r = h :: tl →
      ((r.takeWhile isWhite).any isLine = true →
        tokens h = [] ∧ (tl.map tokens).filter (fun l => l ≠ []) = tokenLines (next r)) ∧
      ((r.takeWhile isWhite).any isLine = false → next r ≠ [] →
        tokens h :: (tl.map tokens).filter (fun l => l ≠ []) = tokenLines (next r)) ∧
      ((r.takeWhile isWhite).any isLine = false → next r = [] →
        tokens h = [] ∧ tl = []) := by
    intro r
    induction r with
    | nil =>
      intro h tl hl
      simp [lines] at hl
      rw [hl.1, hl.2]
      simp [next, tokens_nil]
    | cons c s ih =>
      intro h tl hl
      rw [lines_cons] at hl
      by_cases hc : isWhite c = true
      · by_cases hlc : isLine c = true
        · simp only [hlc, if_true] at hl
          obtain ⟨rfl, rfl⟩ : [] = h ∧ lines s = tl := by simpa using hl
          refine ⟨fun _ => ⟨tokens_nil, ?_⟩, ?_, ?_⟩
          · have h1 : next (c :: s) = next s := by simp [next, hc]
            rw [h1, tokenLines_next]; rfl
          · intro h; simp [hc, hlc] at h
          · intro h; simp [hc, hlc] at h
        · simp only [hlc, Bool.false_eq_true, if_false] at hl
          cases hx : lines s with
          | nil => exact absurd hx (lines_ne_nil s)
          | cons x xs =>
            rw [hx] at hl
            obtain ⟨rfl, rfl⟩ : c :: x = h ∧ xs = tl := by simpa using hl
            have h1 : next (c :: s) = next s := by simp [next, hc]
            have h2 : ((c :: s).takeWhile isWhite).any isLine = (s.takeWhile isWhite).any isLine := by
              simp [hc, hlc]
            rw [h1, h2, tokens_white hc]
            exact ih x xs hx
      · have hc' : isWhite c = false := by simpa using hc
        have hlc := not_isLine_of_not_isWhite hc'
        have h1 : next (c :: s) = c :: s := by simp [next, hc']
        refine ⟨?_, ?_, ?_⟩
        · intro h; simp [hc'] at h
        · intro _ _
          rw [h1]
          have hl' : lines (c :: s) = h :: tl := by rw [lines_cons]; exact hl
          have hth : tokens h ≠ [] := by
            simp only [hlc, Bool.false_eq_true, if_false] at hl
            cases hx : lines s with
            | nil => exact absurd hx (lines_ne_nil s)
            | cons x xs =>
              rw [hx] at hl
              obtain ⟨rfl, rfl⟩ : c :: x = h ∧ xs = tl := by simpa using hl
              exact tokens_ne_nil_of_start hc' x
          simp only [tokenLines, hl', List.map_cons]
          rw [List.filter_cons_of_pos (by simpa using hth)]
        · intro _ hn; rw [h1] at hn; cases hn
  cases hl : lines r with
  | nil => exact absurd hl (lines_ne_nil r)
  | cons h tl =>
    rw [tokenLines_token t r ht hne hr hl]
    obtain ⟨k1, k2, k3⟩ := key r h tl hl
    by_cases hany : (r.takeWhile isWhite).any isLine = true
    · obtain ⟨h1, h2⟩ := k1 hany
      have hsc : sepClass r = 2 := by simp only [sepClass, hany, if_true]
      rw [h1, h2]
      by_cases hn : next r = []
      · rw [hn, tokenLines_nil]; simp
      · simp [hn, hsc]
    · have hany' : (r.takeWhile isWhite).any isLine = false := by
        cases hh : (r.takeWhile isWhite).any isLine with
        | true => exact absurd hh hany
        | false => rfl
      have hsc : sepClass r ≠ 2 := by
        simp only [sepClass, hany', Bool.false_eq_true, if_false]; split <;> simp
      by_cases hn : next r = []
      · obtain ⟨h1, h2⟩ := k3 hany' hn
        simp [hn, h1, h2]
      · simp only [hn, hsc, if_false]
        rw [← k2 hany' hn, consHead]

/-- The token lines of a suffix starting with a token. -/
theorem tokenLines_start {c : Byte} (hc : isWhite c = false) (s : Bytes) :
    ∃ h r, h ≠ [] ∧ tokenLines (c :: s) = h :: r := by
  have hlc := not_isLine_of_not_isWhite hc
  cases hx : lines s with
  | nil => exact absurd hx (lines_ne_nil s)
  | cons x xs =>
    refine ⟨tokens (c :: x), (xs.map tokens).filter (fun l => l ≠ []),
      tokens_ne_nil_of_start hc x, ?_⟩
    simp only [tokenLines, lines_cons, hlc, Bool.false_eq_true, if_false, hx, List.modifyHead,
      List.map_cons]
    rw [List.filter_cons_of_pos (by simpa using tokens_ne_nil_of_start hc x)]

/-- Relation computed by the loop on suffixes. -/
def LoopSpec (a c : Bytes) : Prop :=
  (next a = [] ∧ next c = []) ∨
  (next a ≠ [] ∧ next c ≠ [] ∧ sepClass a = sepClass c ∧ tokenLines (next a) = tokenLines (next c))

theorem dropWhile_nw_start (x : Bytes) : ∀ c s, x.dropWhile nw = c :: s → isWhite c = true := by
  induction x with
  | nil => simp
  | cons d x ih =>
    intro c s h
    by_cases hd : nw d = true
    · simp [hd] at h; exact ih c s h
    · simp [hd] at h
      rw [← h.1]; simpa [nw] using hd

theorem takeWhile_nw_mem (x : Bytes) : ∀ c ∈ x.takeWhile nw, isWhite c = false := by
  intro c hc
  have := List.mem_takeWhile_imp hc
  simpa [nw] using this

theorem sepClass_eq_zero_iff (s : Bytes) : sepClass s = 0 ↔ s.takeWhile isWhite = [] := by
  unfold sepClass
  constructor
  · intro h
    split at h
    · cases h
    · split at h
      · cases h
      · rename_i hh; simpa using hh
  · intro h; simp [h]

theorem sepClass_lt (s : Bytes) : sepClass s = 0 ∨ sepClass s = 1 ∨ sepClass s = 2 := by
  unfold sepClass; split
  · simp
  · split <;> simp

/-- Step lemma: judge suffix `t ++ a`, process suffix `t ++ c` with `t` the whole judge token. -/
theorem step_match (t a c : Bytes) (ht : ∀ x ∈ t, isWhite x = false) (hne : t ≠ [])
    (ha : ∀ x s, a = x :: s → isWhite x = true) :
    LoopSpec a c ↔ tokenLines (t ++ a) = tokenLines (t ++ c) := by
  by_cases hc : ∀ x s, c = x :: s → isWhite x = true
  · rw [tokenLines_glue t ht hne a ha, tokenLines_glue t ht hne c hc]
    unfold LoopSpec
    have shape : ∀ r : Bytes, next r ≠ [] → ∃ h l, h ≠ [] ∧ tokenLines (next r) = h :: l := by
      intro r hr
      cases hx : next r with
      | nil => exact absurd hx hr
      | cons y ys => exact tokenLines_start (next_start r hx) ys
    have nz : ∀ r : Bytes, (∀ x s, r = x :: s → isWhite x = true) → next r ≠ [] → sepClass r ≠ 0 := by
      intro r hr hn h0
      rw [sepClass_eq_zero_iff] at h0
      cases r with
      | nil => exact hn rfl
      | cons x s => simp [hr x s rfl] at h0
    by_cases hna : next a = [] <;> by_cases hnc : next c = []
    · simp [hna, hnc]
    · obtain ⟨h, l, hh, e⟩ := shape c hnc
      simp only [hna, hnc, if_true, if_false, e]
      split
      · simp
      · simp [consHead, hh.symm]
    · obtain ⟨h, l, hh, e⟩ := shape a hna
      simp only [hna, hnc, if_true, if_false, e]
      split
      · simp
      · simp [consHead, hh]
    · obtain ⟨h, l, hh, e⟩ := shape a hna
      obtain ⟨h', l', hh', e'⟩ := shape c hnc
      have na := nz a ha hna
      have nc := nz c hc hnc
      have sa := sepClass_lt a
      have sc := sepClass_lt c
      simp only [hna, hnc, if_false, false_and, false_or, e, e', not_false_eq_true, true_and, ne_eq]
      rcases sa with sa | sa | sa <;> rcases sc with sc | sc | sc <;>
        simp_all [consHead]
  · -- the process token continues: both sides are false
    have : ∃ x s, c = x :: s ∧ isWhite x = false := by
      simp only [not_forall] at hc
      obtain ⟨x, s, hx, hw⟩ := hc
      exact ⟨x, s, hx, by simpa using hw⟩
    obtain ⟨x, s, rfl, hx⟩ := this
    have hnc : next (x :: s) ≠ [] := by simp [next, hx]
    have hsc : sepClass (x :: s) = 0 := by simp [sepClass_eq_zero_iff, hx]
    constructor
    · intro h
      rcases h with h | ⟨h1, _, h3, _⟩
      · exact absurd h.2 hnc
      · rw [hsc, sepClass_eq_zero_iff] at h3
        cases a with
        | nil => exact absurd rfl h1
        | cons y ys => simp [ha y ys rfl] at h3
    · intro h
      exfalso
      -- compare the first tokens
      have hT : ∀ y ∈ t ++ (x :: s).takeWhile nw, isWhite y = false := by
        intro y hy
        rcases List.mem_append.1 hy with hy | hy
        · exact ht y hy
        · exact takeWhile_nw_mem _ y hy
      have e2 : t ++ x :: s = (t ++ (x :: s).takeWhile nw) ++ (x :: s).dropWhile nw := by
        rw [List.append_assoc, List.takeWhile_append_dropWhile]
      rw [e2] at h
      cases hl : lines a with
      | nil => exact absurd hl (lines_ne_nil a)
      | cons u us =>
        cases hl' : lines ((x :: s).dropWhile nw) with
        | nil => exact absurd hl' (lines_ne_nil _)
        | cons v vs =>
          rw [tokenLines_token t a ht hne ha hl,
            tokenLines_token _ _ hT (by simp [hne]) (dropWhile_nw_start _) hl'] at h
          simp [nw, hx] at h

/-! ### From cursors to suffixes -/

theorem getElem?_of_drop {s : Bytes} {pos : Nat} {c : Byte} {r : Bytes} (h : s.drop pos = c :: r) :
    s[pos]? = some c ∧ pos < s.length ∧ s.drop (pos + 1) = r := by
  have hlt : pos < s.length := by
    by_contra hn
    have hn : s.length ≤ pos := by omega
    rw [List.drop_eq_nil_of_le hn] at h; cases h
  rw [List.drop_eq_getElem_cons hlt] at h
  have h' := List.cons.inj h
  refine ⟨?_, hlt, h'.2⟩
  rw [List.getElem?_eq_getElem hlt, h'.1]

theorem skipLead_spec (s : Bytes) (pos : Nat) (hp : pos ≤ s.length) :
    ∃ pos', skipLead s pos = some pos' ∧ pos' ≤ s.length ∧ s.drop pos' = next (s.drop pos) := by
  generalize hr : s.drop pos = r
  induction r generalizing pos with
  | nil =>
    have hlen : ¬ pos < s.length := by
      intro h; rw [List.drop_eq_getElem_cons h] at hr; cases hr
    refine ⟨pos, ?_, hp, ?_⟩
    · rw [skipLead]; simp [hlen]
    · simp [hr, next]
  | cons c r ih =>
    obtain ⟨h1, h2, h3⟩ := getElem?_of_drop hr
    rw [skipLead]
    simp only [h2, dif_pos, h1]
    by_cases hc : isWhite c = true
    · obtain ⟨pos', e, le, d⟩ := ih (pos + 1) (by omega) h3
      refine ⟨pos', ?_, le, ?_⟩
      · simp [hc, e]
      · rw [d]; simp [next, hc]
    · refine ⟨pos, by simp [hc], hp, ?_⟩
      rw [hr]; simp [next, hc]

theorem skipLoop_spec (s : Bytes) (pos : Nat) (hp : pos ≤ s.length) (l sp : Bool) :
    ∃ pos', skipLoop s pos l sp =
        some (pos', l || ((s.drop pos).takeWhile isWhite).any isLine,
          sp || !((s.drop pos).takeWhile isWhite).isEmpty) ∧
      pos' ≤ s.length ∧ s.drop pos' = next (s.drop pos) := by
  generalize hr : s.drop pos = r
  induction r generalizing pos l sp with
  | nil =>
    have hlen : ¬ pos < s.length := by
      intro h; rw [List.drop_eq_getElem_cons h] at hr; cases hr
    refine ⟨pos, ?_, hp, ?_⟩
    · rw [skipLoop]; simp [hlen]
    · simp [hr, next]
  | cons c r ih =>
    obtain ⟨h1, h2, h3⟩ := getElem?_of_drop hr
    rw [skipLoop]
    simp only [h2, dif_pos, h1]
    by_cases hc : isWhite c = true
    · obtain ⟨pos', e, le, d⟩ := ih (pos + 1) (by omega) (l || isLine c) true h3
      refine ⟨pos', ?_, le, ?_⟩
      · simp [hc, e, Bool.or_assoc]
      · rw [d]; simp [next, hc]
    · have hc' : isWhite c = false := by simpa using hc
      refine ⟨pos, by simp [hc', not_isLine_of_not_isWhite hc'], hp, ?_⟩
      rw [hr]; simp [next, hc]

theorem skipSpaces_spec (s : Bytes) (pos : Nat) (hp : pos ≤ s.length) :
    ∃ pos', skipSpaces s pos = some (pos', sepClass (s.drop pos)) ∧
      pos' ≤ s.length ∧ s.drop pos' = next (s.drop pos) := by
  obtain ⟨pos', e, le, d⟩ := skipLoop_spec s pos hp false false
  refine ⟨pos', ?_, le, d⟩
  unfold skipSpaces
  rw [e]
  simp only [sepClass, Bool.false_or]
  cases hx : (s.drop pos).takeWhile isWhite <;> simp

/-- The comparison loop: either the judge token is a prefix of the process suffix and both
cursors move past it, or it is not and the answer is "differ". -/
theorem cmpLoop_spec (jd pr : Bytes) (j p : Nat) (hj : j ≤ jd.length) (hp : p ≤ pr.length) :
    (∃ j' p', cmpLoop jd pr j p = some (.cont j' p') ∧ j' ≤ jd.length ∧ p' ≤ pr.length ∧
        jd.drop j' = (jd.drop j).dropWhile nw ∧
        pr.drop p = (jd.drop j).takeWhile nw ++ pr.drop p') ∨
    (cmpLoop jd pr j p = some .differ ∧
      ∀ r, pr.drop p ≠ (jd.drop j).takeWhile nw ++ r) := by
  generalize hr : jd.drop j = a
  induction a generalizing j p with
  | nil =>
    have hlen : ¬ j < jd.length := by
      intro h; rw [List.drop_eq_getElem_cons h] at hr; cases hr
    left
    exact ⟨j, p, by rw [cmpLoop]; simp [hlen], hj, hp, by simp [hr], by simp⟩
  | cons c r ih =>
    obtain ⟨h1, h2, h3⟩ := getElem?_of_drop hr
    rw [cmpLoop]
    simp only [h2, dif_pos, h1]
    by_cases hc : isWhite c = true
    · left
      exact ⟨j, p, by simp [hc], hj, hp, by simp [hr, nw, hc], by simp [nw, hc]⟩
    · have hc' : isWhite c = false := by simpa using hc
      simp only [hc', Bool.false_eq_true, if_false]
      have hnw : nw c = true := by simp [nw, hc']
      by_cases hpl : pr.length ≤ p
      · right
        refine ⟨by simp [hpl], ?_⟩
        intro r'
        rw [List.drop_eq_nil_of_le hpl]
        simp [hnw]
      · simp only [hpl, if_false]
        have hlt : p < pr.length := by omega
        have hd : pr.drop p = pr[p] :: pr.drop (p + 1) := List.drop_eq_getElem_cons hlt
        rw [List.getElem?_eq_getElem hlt]
        by_cases he : c = pr[p]
        · simp only [he, ne_eq, not_true_eq_false, if_false]
          rcases ih (j + 1) (p + 1) (by omega) (by omega) h3 with
            ⟨j', p', e, lj, lp, dj, dp⟩ | ⟨e, hdiff⟩
          · left
            refine ⟨j', p', e, lj, lp, ?_, ?_⟩
            · rw [dj, ← he]; simp [hnw]
            · rw [hd, dp, ← he]; simp [hnw]
          · right
            refine ⟨e, ?_⟩
            intro r'
            rw [hd, ← he]
            simp only [List.takeWhile_cons, hnw, if_true, List.cons_append, List.cons.injEq,
              true_and]
            exact hdiff r'
        · right
          refine ⟨by simp [he], ?_⟩
          intro r'
          rw [hd]
          simp only [List.takeWhile_cons, hnw, if_true, List.cons_append, ne_eq, List.cons.injEq,
            not_and]
          intro h; exact absurd h.symm he

/-- The main loop never faults, never runs out of fuel, and decides `LoopSpec`. -/
theorem stdLoop_spec (jd pr : Bytes) (fuel j p : Nat) (hj : j ≤ jd.length) (hp : p ≤ pr.length)
    (hfuel : jd.length - j < fuel)  :
    ∃ r, stdLoop jd pr fuel j p = some r ∧
      (r = true ↔ LoopSpec (jd.drop j) (pr.drop p)) := by
  induction fuel generalizing j p with
  | zero => omega
  | succ fuel ih =>
    obtain ⟨j1, ej, lj, dj⟩ := skipSpaces_spec jd j hj
    obtain ⟨p1, ep, lp, dp⟩ := skipSpaces_spec pr p hp
    unfold stdLoop
    simp only [ej, ep]
    have ja : j1 = jd.length ↔ next (jd.drop j) = [] := by
      rw [← dj, List.drop_eq_nil_iff]; omega
    have pa : p1 = pr.length ↔ next (pr.drop p) = [] := by
      rw [← dp, List.drop_eq_nil_iff]; omega
    by_cases h1 : j1 = jd.length ∨ p1 = pr.length
    · have : (j1 == jd.length || p1 == pr.length) = true := by simpa using h1
      simp only [this, if_true]
      refine ⟨_, rfl, ?_⟩
      simp only [Bool.and_eq_true, beq_iff_eq, ja, pa, LoopSpec]
      rw [ja, pa] at h1
      constructor
      · intro h; exact Or.inl h
      · rintro (h | ⟨h2, h3, _⟩)
        · exact h
        · rcases h1 with h1 | h1
          · exact absurd h1 h2
          · exact absurd h1 h3
    · have : (j1 == jd.length || p1 == pr.length) = false := by simpa using h1
      simp only [this, Bool.false_eq_true, if_false]
      have hja : next (jd.drop j) ≠ [] := fun h => h1 (Or.inl (ja.2 h))
      have hpa : next (pr.drop p) ≠ [] := fun h => h1 (Or.inr (pa.2 h))
      by_cases hs : sepClass (jd.drop j) = sepClass (pr.drop p)
      · simp only [hs, ne_eq, not_true_eq_false, if_false]
        have hspec : LoopSpec (jd.drop j) (pr.drop p) ↔
            tokenLines (jd.drop j1) = tokenLines (pr.drop p1) := by
          rw [dj, dp]
          simp [LoopSpec, hja, hpa, hs]
        -- the judge suffix starts with a token
        obtain ⟨c, r, hcr⟩ : ∃ c r, jd.drop j1 = c :: r := by
          cases hx : jd.drop j1 with
          | nil => rw [dj] at hx; exact absurd hx hja
          | cons c r => exact ⟨c, r, rfl⟩
        have hcw : isWhite c = false := next_start _ (dj ▸ hcr)
        have htne : (jd.drop j1).takeWhile nw ≠ [] := by rw [hcr]; simp [nw, hcw]
        have hsplit : jd.drop j1 = (jd.drop j1).takeWhile nw ++ (jd.drop j1).dropWhile nw :=
          (List.takeWhile_append_dropWhile ..).symm
        rcases cmpLoop_spec jd pr j1 p1 lj lp with ⟨j2, p2, e, lj2, lp2, dj2, dp2⟩ | ⟨e, hdiff⟩
        · simp only [e]
          have hprog : j < j2 := by
            have a1 : (jd.drop j2).length < (jd.drop j1).length := by
              rw [dj2, hcr]
              have : ((c :: r).dropWhile nw).length ≤ r.length := by
                simp only [List.dropWhile_cons, nw, hcw, Bool.not_false, if_true]
                exact (List.dropWhile_sublist _).length_le
              simp only [List.length_cons]; omega
            have a2 : (jd.drop j1).length ≤ (jd.drop j).length := by
              rw [dj]; exact (List.dropWhile_sublist _).length_le
            simp only [List.length_drop] at a1 a2; omega
          obtain ⟨res, er, hr⟩ := ih j2 p2 lj2 lp2 (by omega)
          refine ⟨res, er, ?_⟩
          rw [hr, hspec, dp2, dj2]
          have key := step_match ((jd.drop j1).takeWhile nw) ((jd.drop j1).dropWhile nw)
            (pr.drop p2) (takeWhile_nw_mem _) htne (dropWhile_nw_start _)
          rw [← hsplit] at key
          exact key
        · simp only [e]
          refine ⟨false, rfl, ?_⟩
          simp only [Bool.false_eq_true, false_iff]
          rw [hspec]
          intro heq
          -- first tokens agree, so the judge token is a prefix of the process suffix
          have hsplit' : pr.drop p1 = (pr.drop p1).takeWhile nw ++ (pr.drop p1).dropWhile nw :=
            (List.takeWhile_append_dropWhile ..).symm
          obtain ⟨d, r', hdr⟩ : ∃ d r', pr.drop p1 = d :: r' := by
            cases hx : pr.drop p1 with
            | nil => rw [dp] at hx; exact absurd hx hpa
            | cons d r => exact ⟨d, r, rfl⟩
          have hdw : isWhite d = false := next_start _ (dp ▸ hdr)
          have htne' : (pr.drop p1).takeWhile nw ≠ [] := by rw [hdr]; simp [nw, hdw]
          cases hl : lines ((jd.drop j1).dropWhile nw) with
          | nil => exact absurd hl (lines_ne_nil _)
          | cons u us =>
            cases hl' : lines ((pr.drop p1).dropWhile nw) with
            | nil => exact absurd hl' (lines_ne_nil _)
            | cons v vs =>
              rw [hsplit, hsplit',
                tokenLines_token _ _ (takeWhile_nw_mem _) htne (dropWhile_nw_start _) hl,
                tokenLines_token _ _ (takeWhile_nw_mem _) htne' (dropWhile_nw_start _) hl'] at heq
              have h0 : (jd.drop j1).takeWhile nw = (pr.drop p1).takeWhile nw := by
                simp at heq; exact heq.1.1
              exact hdiff ((pr.drop p1).dropWhile nw) (by rw [h0]; exact hsplit')
      · simp only [ne_eq, hs, not_false_eq_true, if_true]
        refine ⟨false, rfl, ?_⟩
        simp only [Bool.false_eq_true, false_iff]
        rintro (h | ⟨_, _, h, _⟩)
        · exact hja h.1
        · exact hs h

/-- The C routine is total (no out-of-bounds read, always terminates within its fuel) and decides
equality of token lines. -/
theorem standardC_total (jd pr : Bytes) :
    ∃ r, standardC jd pr = some r ∧ (r = true ↔ tokenLines jd = tokenLines pr) := by
  obtain ⟨j, ej, lj, dj⟩ := skipLead_spec jd 0 (by omega)
  obtain ⟨p, ep, lp, dp⟩ := skipLead_spec pr 0 (by omega)
  simp only [List.drop_zero] at dj dp
  obtain ⟨r, er, hr⟩ := stdLoop_spec jd pr (jd.length + 1) j p lj lp (by omega)
  refine ⟨r, ?_, ?_⟩
  · simp only [standardC, ej, ep, er]
  · rw [hr, dj, dp]
    have idem : ∀ s : Bytes, next (next s) = next s := by
      intro s
      cases hx : next s with
      | nil => rfl
      | cons c r => simp [next, next_start s hx]
    have sc : ∀ s : Bytes, sepClass (next s) = 0 := by
      intro s
      rw [sepClass_eq_zero_iff]
      cases hx : next s with
      | nil => rfl
      | cons c r => simp [next_start s hx]
    simp only [LoopSpec, idem, sc, true_and]
    rw [← tokenLines_next jd, ← tokenLines_next pr]
    by_cases h1 : next jd = [] <;> by_cases h2 : next pr = []
    · simp [h1, h2]
    · cases hx : next pr with
      | nil => exact absurd hx h2
      | cons c r =>
        obtain ⟨h, l, _, e⟩ := tokenLines_start (next_start pr hx) r
        simp [h1, e, tokenLines_nil]
    · cases hx : next jd with
      | nil => exact absurd hx h1
      | cons c r =>
        obtain ⟨h, l, _, e⟩ := tokenLines_start (next_start jd hx) r
        simp [h2, e, tokenLines_nil]
    · simp [h1, h2]

end Verif.Checkers
