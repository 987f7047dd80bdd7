import Verif.Lemmas.Standard
import Mathlib.Data.List.DropRight
import Mathlib.Data.List.Sort
import Mathlib.Data.List.Count
import Mathlib.Data.Rat.Defs
import Mathlib.Algebra.Order.Field.Rat
import Mathlib.Algebra.Order.Field.Basic
import Mathlib.Tactic.Positivity
import Mathlib.Tactic.Linarith
import Mathlib.Tactic.FieldSimp

/-! Helper lemmas for the remaining checkers (C02-C06) and for the invariances of C01. -/

namespace Verif.Checkers
open Verif Spec

/-! ### Whitespace invariance of `tokenLines` -/

/-- Starts with a non-whitespace byte. -/
def startsNW : Bytes → Bool
  | [] => false
  | c :: _ => nw c

theorem tokens_cons_nw {c : Byte} (hc : isWhite c = false) (s : Bytes) :
    tokens (c :: s) = if startsNW s then (tokens s).modifyHead (List.cons c) else [c] :: tokens s := by
  cases s with
  | nil =>
    simpa [startsNW, tokens_nil] using tokens_token [c] [] (by simpa using hc) (by simp) (by simp)
  | cons d s =>
    by_cases hd : isWhite d = true
    · have := tokens_token [c] (d :: s) (by simpa using hc) (by simp)
        (by intro c' r h; cases h; exact hd)
      simpa [startsNW, nw, hd] using this
    · have hd' : isWhite d = false := by simpa using hd
      simp only [startsNW, nw, hd', Bool.not_false, if_true]
      simp only [tokens, List.splitOnP_cons_eq_if_modifyHead, hc, hd', Bool.false_eq_true, if_false]
      cases h : s.splitOnP isWhite with
      | nil => simp at h
      | cons x xs => simp

/-- What determines the token lines of `a ++ u` for any `a`. -/
def SameView (u v : Bytes) : Prop :=
  ∃ h tl h' tl', lines u = h :: tl ∧ lines v = h' :: tl' ∧ tokens h = tokens h' ∧
    startsNW h = startsNW h' ∧
    (tl.map tokens).filter (fun l => l ≠ []) = (tl'.map tokens).filter (fun l => l ≠ [])

theorem SameView.tokenLines_eq {u v : Bytes} (h : SameView u v) : tokenLines u = tokenLines v := by
  obtain ⟨h, tl, h', tl', e, e', ht, _, hf⟩ := h
  simp only [tokenLines, e, e', List.map_cons, List.filter_cons, ht, hf]

theorem SameView.cons {u v : Bytes} (h : SameView u v) (c : Byte) : SameView (c :: u) (c :: v) := by
  have heq := h.tokenLines_eq
  obtain ⟨h, tl, h', tl', e, e', ht, hs, hf⟩ := h
  by_cases hl : isLine c = true
  · refine ⟨[], lines u, [], lines v, by simp [lines_cons, hl], by simp [lines_cons, hl], rfl, rfl, heq⟩
  · refine ⟨c :: h, tl, c :: h', tl', by simp [lines_cons, hl, e], by simp [lines_cons, hl, e'], ?_,
      rfl, hf⟩
    by_cases hc : isWhite c = true
    · rw [tokens_white hc, tokens_white hc, ht]
    · have hc' : isWhite c = false := by simpa using hc
      rw [tokens_cons_nw hc', tokens_cons_nw hc', hs, ht]

theorem SameView.append {u v : Bytes} (h : SameView u v) (a : Bytes) : SameView (a ++ u) (a ++ v) := by
  induction a with
  | nil => exact h
  | cons c a ih => exact ih.cons c

/-- A non-empty whitespace run without line break acts as one space. -/
theorem sameView_space (w c : Bytes) (hw : ∀ x ∈ w, isWhite x = true) (hn : ∀ x ∈ w, isLine x = false)
    (hne : w ≠ []) : SameView (w ++ c) (32 :: c) := by
  have hl := lines_append w c hn
  have hl2 := lines_append [32] c (by intro x hx; simp at hx; subst hx; decide)
  cases hx : lines c with
  | nil => exact absurd hx (lines_ne_nil c)
  | cons x xs =>
    rw [hx] at hl hl2
    refine ⟨w ++ x, xs, 32 :: x, xs, by simpa using hl, by simpa using hl2, ?_, ?_, rfl⟩
    · rw [tokens_white (by decide)]
      clear hl hne
      induction w with
      | nil => rfl
      | cons d w ih =>
        rw [List.cons_append, tokens_white (hw d (by simp))]
        exact ih (fun y hy => hw y (by simp [hy])) (fun y hy => hn y (by simp [hy]))
    · cases w with
      | nil => exact absurd rfl hne
      | cons d w => simp [startsNW, nw, hw d (by simp), show isWhite 32 = true by decide]

/-- A whitespace run containing a line break acts as one newline. -/
theorem sameView_newline (w c : Bytes) (hw : ∀ x ∈ w, isWhite x = true)
    (hn : ∃ x ∈ w, isLine x = true) : SameView (w ++ c) (10 :: c) := by
  have hwt : ∀ w : Bytes, (∀ x ∈ w, isWhite x = true) → tokenLines (w ++ c) = tokenLines c := by
    intro w
    induction w with
    | nil => intro _; rfl
    | cons d w ih =>
      intro h
      rw [List.cons_append, tokenLines_white (h d (by simp))]
      exact ih (fun y hy => h y (by simp [hy]))
  have hl2 : lines (10 :: c) = [] :: lines c := by
    rw [lines_cons]; simp [show isLine 10 = true by decide]
  suffices hsuf : ∃ h tl, lines (w ++ c) = h :: tl ∧ tokens h = [] ∧ startsNW h = false ∧
      (tl.map tokens).filter (fun l => l ≠ []) = tokenLines c by
    obtain ⟨h, tl, e, ht, hs, hf⟩ := hsuf
    exact ⟨h, tl, [], lines c, e, hl2, by rw [ht, tokens_nil], by rw [hs]; rfl, hf⟩
  induction w with
  | nil => obtain ⟨x, hx, _⟩ := hn; cases hx
  | cons d w ih =>
    have hd := hw d (by simp)
    by_cases hld : isLine d = true
    · refine ⟨[], lines (w ++ c), by rw [List.cons_append, lines_cons]; simp [hld], tokens_nil, rfl, ?_⟩
      exact hwt w (fun y hy => hw y (by simp [hy]))
    · obtain ⟨x, hx, hxl⟩ := hn
      have hx' : x ∈ w := by
        rcases List.mem_cons.1 hx with rfl | h
        · exact absurd hxl hld
        · exact h
      obtain ⟨h, tl, e, ht, hs, hf⟩ := ih (fun y hy => hw y (by simp [hy])) ⟨x, hx', hxl⟩
      refine ⟨d :: h, tl, by rw [List.cons_append, lines_cons]; simp [hld, e], ?_, ?_, hf⟩
      · rw [tokens_white hd, ht]
      · simp [startsNW, nw, hd]

/-- Trailing whitespace is irrelevant. -/
theorem tokenLines_trail (a w : Bytes) (hw : ∀ x ∈ w, isWhite x = true) :
    tokenLines (a ++ w) = tokenLines a := by
  have tw : ∀ w : Bytes, (∀ x ∈ w, isWhite x = true) → tokenLines w = [] := by
    intro w
    induction w with
    | nil => intro _; exact tokenLines_nil
    | cons d w ih =>
      intro h; rw [tokenLines_white (h d (by simp))]; exact ih (fun y hy => h y (by simp [hy]))
  have : SameView w [] := by
    cases hl : lines w with
    | nil => exact absurd hl (lines_ne_nil w)
    | cons h tl =>
      have hsub : ∀ x ∈ h, isWhite x = true := by
        clear tw
        induction w generalizing h tl with
        | nil => simp [lines] at hl; simp [hl.1]
        | cons d w ih =>
          rw [lines_cons] at hl
          split at hl
          · rw [← (List.cons.inj hl).1]; simp
          · cases hx : lines w with
            | nil => exact absurd hx (lines_ne_nil w)
            | cons x xs =>
              rw [hx] at hl
              obtain ⟨rfl, rfl⟩ : d :: x = h ∧ xs = tl := by simpa using hl
              intro y hy
              rcases List.mem_cons.1 hy with rfl | hy
              · exact hw _ (by simp)
              · exact ih (fun y hy => hw y (by simp [hy])) x xs hx y hy
      have h1 := tw w hw
      simp only [tokenLines, hl, List.map_cons, List.filter_cons] at h1
      have hth : tokens h = [] := by
        by_contra hne; simp [hne] at h1
      refine ⟨h, tl, [], [], hl, by simp [lines], by rw [hth, tokens_nil], ?_, ?_⟩
      · cases h with
        | nil => rfl
        | cons c s => simp [startsNW, nw, hsub c (by simp)]
      · simpa [hth] using h1
  have := (this.append a).tokenLines_eq
  simpa using this

/-! ### Orders and sorting -/

theorem lexLe_total {α : Type} [DecidableEq α] (le : α → α → Bool)
    (ht : ∀ a c, le a c || le c a) (x y : List α) : (lexLe le x y || lexLe le y x) = true := by
  induction x generalizing y with
  | nil => simp [lexLe]
  | cons a x ih =>
    cases y with
    | nil => simp [lexLe]
    | cons c y =>
      by_cases h : a = c
      · subst h; simpa [lexLe] using ih y
      · have h' : ¬ c = a := fun e => h e.symm
        simpa [lexLe, h, h'] using ht a c

theorem lexLe_antisymm {α : Type} [DecidableEq α] (le : α → α → Bool)
    (ha : ∀ a c, le a c = true → le c a = true → a = c) (x y : List α)
    (h1 : lexLe le x y = true) (h2 : lexLe le y x = true) : x = y := by
  induction x generalizing y with
  | nil => cases y with
    | nil => rfl
    | cons c y => simp [lexLe] at h2
  | cons a x ih =>
    cases y with
    | nil => simp [lexLe] at h1
    | cons c y =>
      by_cases h : a = c
      · subst h
        simp only [lexLe, if_true] at h1 h2
        rw [ih y h1 h2]
      · have h' : ¬ c = a := fun e => h e.symm
        simp only [lexLe, h, h', if_false] at h1 h2
        exact absurd (ha a c h1 h2) h

theorem lexLe_trans {α : Type} [DecidableEq α] (le : α → α → Bool)
    (htr : ∀ a c d, le a c = true → le c d = true → le a d = true)
    (ha : ∀ a c, le a c = true → le c a = true → a = c) (x y z : List α)
    (h1 : lexLe le x y = true) (h2 : lexLe le y z = true) : lexLe le x z = true := by
  induction x generalizing y z with
  | nil => simp [lexLe]
  | cons a x ih =>
    cases y with
    | nil => simp [lexLe] at h1
    | cons c y =>
      cases z with
      | nil => simp [lexLe] at h2
      | cons d z =>
        simp only [lexLe] at h1 h2 ⊢
        by_cases hac : a = c
        · subst hac
          simp only [if_true] at h1
          by_cases had : a = d
          · subst had
            simp only [if_true] at h2 ⊢
            exact ih y z h1 h2
          · simp only [had, if_false] at h2 ⊢
            exact h2
        · simp only [hac, if_false] at h1
          by_cases hcd : c = d
          · subst hcd
            simp only [hac, if_false]
            exact h1
          · simp only [hcd, if_false] at h2
            by_cases had : a = d
            · subst had
              exact absurd (ha a c h1 h2) hac
            · simp only [had, if_false]
              exact htr a c d h1 h2

theorem bytesLe_total (x y : Bytes) : (bytesLe x y || bytesLe y x) = true := by
  refine lexLe_total _ (fun a c => ?_) x y
  have := UInt8.le_total a c
  simpa using this

theorem bytesLe_antisymm (x y : Bytes) (h1 : bytesLe x y = true) (h2 : bytesLe y x = true) : x = y :=
  lexLe_antisymm _ (fun a c h1 h2 => UInt8.le_antisymm (by simpa using h1) (by simpa using h2)) x y h1 h2

theorem bytesLe_trans (x y z : Bytes) (h1 : bytesLe x y = true) (h2 : bytesLe y z = true) :
    bytesLe x z = true :=
  lexLe_trans _
    (fun a c d h1 h2 => by simpa using UInt8.le_trans (by simpa using h1) (by simpa using h2))
    (fun a c h1 h2 => UInt8.le_antisymm (by simpa using h1) (by simpa using h2)) x y z h1 h2

theorem bytesListLe_total (x y : List Bytes) : (bytesListLe x y || bytesListLe y x) = true :=
  lexLe_total _ bytesLe_total x y

theorem bytesListLe_antisymm (x y : List Bytes) (h1 : bytesListLe x y = true)
    (h2 : bytesListLe y x = true) : x = y := lexLe_antisymm _ bytesLe_antisymm x y h1 h2

theorem bytesListLe_trans (x y z : List Bytes) (h1 : bytesListLe x y = true)
    (h2 : bytesListLe y z = true) : bytesListLe x z = true :=
  lexLe_trans _ bytesLe_trans bytesLe_antisymm x y z h1 h2

/-- Equal sorted lists iff permutations. -/
theorem mergeSort_eq_iff_perm {α : Type} (le : α → α → Bool)
    (ht : ∀ a c, (le a c || le c a) = true) (ha : ∀ a c, le a c = true → le c a = true → a = c)
    (htr : ∀ a c d, le a c = true → le c d = true → le a d = true) (x y : List α) :
    x.mergeSort le = y.mergeSort le ↔ x.Perm y := by
  constructor
  · intro h
    have h1 := List.mergeSort_perm x le
    have h2 := List.mergeSort_perm y le
    rw [h] at h1
    exact h1.symm.trans h2
  · intro h
    refine List.Perm.eq_of_pairwise (le := fun a c => le a c = true) (fun a c _ _ => ha a c)
      (List.pairwise_mergeSort htr ht x) (List.pairwise_mergeSort htr ht y) ?_
    exact (List.mergeSort_perm x le).trans (h.trans (List.mergeSort_perm y le).symm)

theorem zipAllEq_iff {α : Type} [DecidableEq α] (x y : List α) (h : x.length = y.length) :
    zipAllEq x y = true ↔ x = y := by
  induction x generalizing y with
  | nil => cases y with
    | nil => simp [zipAllEq]
    | cons c y => simp at h
  | cons a x ih =>
    cases y with
    | nil => simp at h
    | cons c y =>
      simp only [List.length_cons, Nat.add_right_cancel_iff] at h
      by_cases hac : a = c
      · subst hac; simpa [zipAllEq] using ih y h
      · simp [zipAllEq, hac]

/-- The whole sort-and-compare procedure decides permutation. -/
theorem sortCompare_iff {α : Type} [DecidableEq α] (le : α → α → Bool)
    (ht : ∀ a c, (le a c || le c a) = true) (ha : ∀ a c, le a c = true → le c a = true → a = c)
    (htr : ∀ a c d, le a c = true → le c d = true → le a d = true) (x y : List α)
    (hl : x.length = y.length) :
    zipAllEq (x.mergeSort le) (y.mergeSort le) = true ↔ x.Perm y := by
  rw [zipAllEq_iff _ _ (by simp [hl]), mergeSort_eq_iff_perm le ht ha htr]

/-! ### Counters -/

theorem Counter.get?_bump (ct : Counter) (c d : Byte) :
    (ct.bump c).get? d = if c = d then some ((ct.get? c).getD 0 + 1) else ct.get? d := by
  induction ct with
  | nil => by_cases h : c = d <;> simp [Counter.bump, Counter.get?, h]
  | cons kv r ih =>
    obtain ⟨k, n⟩ := kv
    by_cases hk : k = c
    · subst hk
      by_cases hd : k = d <;> simp [Counter.bump, Counter.get?, hd]
    · by_cases hd : k = d
      · subst hd
        have hne : ¬ c = k := fun e => hk e.symm
        simp [Counter.bump, Counter.get?, hk, hne]
      · simp only [Counter.bump, hk, if_false, Counter.get?, hd]
        rw [ih]

theorem Counter.get?_foldl (s : Bytes) (ct : Counter) (d : Byte) :
    ((s.foldl Counter.bump ct).get? d).getD 0 = (ct.get? d).getD 0 + s.count d := by
  induction s generalizing ct with
  | nil => simp
  | cons c s ih =>
    rw [List.foldl_cons, ih, Counter.get?_bump]
    by_cases h : c = d
    · subst h; simp; omega
    · simp [h]

/-- Keys are distinct and counts positive. -/
def Counter.WF (ct : Counter) : Prop := (ct.map Prod.fst).Nodup ∧ ∀ kv ∈ ct, 0 < kv.2

theorem Counter.keys_bump (ct : Counter) (c : Byte) :
    ∀ k, k ∈ (ct.bump c).map Prod.fst ↔ k ∈ ct.map Prod.fst ∨ k = c := by
  induction ct with
  | nil => intro k; simp [Counter.bump]
  | cons kv r ih =>
    intro k
    obtain ⟨k', n⟩ := kv
    by_cases hk : k' = c
    · subst hk
      simp only [Counter.bump, if_true, List.map_cons, List.mem_cons]
      tauto
    · simp only [Counter.bump, hk, if_false, List.map_cons, List.mem_cons, ih k]
      tauto

theorem Counter.WF.bump {ct : Counter} (h : ct.WF) (c : Byte) : (ct.bump c).WF := by
  induction ct with
  | nil => simp [Counter.bump, Counter.WF]
  | cons kv r ih =>
    obtain ⟨k, n⟩ := kv
    obtain ⟨hn, hp⟩ := h
    simp only [List.map_cons, List.nodup_cons] at hn
    have hr : Counter.WF r := ⟨hn.2, fun kv hkv => hp kv (by simp [hkv])⟩
    by_cases hk : k = c
    · simp only [Counter.bump, hk, if_true]
      refine ⟨by simp [← hk]; exact ⟨by simpa using hn.1, hn.2⟩, ?_⟩
      intro kv hkv
      rcases List.mem_cons.1 hkv with rfl | h
      · simp
      · exact hp kv (by simp [h])
    · simp only [Counter.bump, hk, if_false]
      obtain ⟨h1, h2⟩ := ih hr
      refine ⟨?_, ?_⟩
      · simp only [List.map_cons, List.nodup_cons]
        refine ⟨?_, h1⟩
        rw [Counter.keys_bump]
        rintro (h | h)
        · exact hn.1 h
        · exact hk h
      · intro kv hkv
        rcases List.mem_cons.1 hkv with rfl | h
        · exact hp _ (by simp)
        · exact h2 kv h

theorem Counter.WF_foldl (s : Bytes) (ct : Counter) (h : ct.WF) : (s.foldl Counter.bump ct).WF := by
  induction s generalizing ct with
  | nil => exact h
  | cons c s ih => exact ih _ (h.bump c)

theorem Counter.get?_eq_some {ct : Counter} (h : ct.WF) (k : Byte) (n : Nat) :
    ct.get? k = some n ↔ (k, n) ∈ ct := by
  induction ct with
  | nil => simp [Counter.get?]
  | cons kv r ih =>
    obtain ⟨k', n'⟩ := kv
    obtain ⟨hn, hp⟩ := h
    simp only [List.map_cons, List.nodup_cons] at hn
    have hr : Counter.WF r := ⟨hn.2, fun kv hkv => hp kv (by simp [hkv])⟩
    by_cases hk : k' = k
    · subst hk
      simp only [Counter.get?, if_true, List.mem_cons, Option.some.injEq, Prod.mk.injEq, true_and]
      constructor
      · intro h; exact Or.inl h.symm
      · rintro (h | h)
        · exact h.symm
        · exact absurd (List.mem_map.2 ⟨(k', n), h, rfl⟩) hn.1
    · have hk' : ¬ k = k' := fun e => hk e.symm
      simp [Counter.get?, hk, hk', ih hr]

theorem Counter.eq_iff {x y : Counter} (hx : x.WF) (hy : y.WF) :
    x.eq y = true ↔ ∀ c, x.get? c = y.get? c := by
  have nx : x.Nodup := List.Nodup.of_map _ hx.1
  have ny : y.Nodup := List.Nodup.of_map _ hy.1
  simp only [Counter.eq, Bool.and_eq_true, beq_iff_eq, List.all_eq_true]
  constructor
  · rintro ⟨hl, hall⟩ c
    have hsub : x ⊆ y := fun kv hkv => (Counter.get?_eq_some hy kv.1 kv.2).1 (hall kv hkv)
    have hperm : x.Perm y := (List.subperm_of_subset nx hsub).perm_of_length_le (by omega)
    cases h : y.get? c with
    | some n =>
      rw [Counter.get?_eq_some hx]
      exact hperm.mem_iff.2 ((Counter.get?_eq_some hy c n).1 h)
    | none =>
      cases h' : x.get? c with
      | none => rfl
      | some n =>
        have := hperm.mem_iff.1 ((Counter.get?_eq_some hx c n).1 h')
        rw [(Counter.get?_eq_some hy c n).2 this] at h; cases h
  · intro h
    have hmem : ∀ kv, kv ∈ x ↔ kv ∈ y := by
      rintro ⟨k, n⟩
      rw [← Counter.get?_eq_some hx, ← Counter.get?_eq_some hy, h k]
    refine ⟨((List.perm_ext_iff_of_nodup nx ny).2 hmem).length_eq, ?_⟩
    intro kv hkv
    exact (Counter.get?_eq_some hy kv.1 kv.2).2 ((hmem kv).1 hkv)

/-- A counter of bytes knows exactly the counts. -/
theorem Counter.get?_ofBytes (s : Bytes) (c : Byte) :
    (Counter.ofBytes s).get? c = if s.count c = 0 then none else some (s.count c) := by
  have h1 := Counter.get?_foldl s [] c
  have hwf : (Counter.ofBytes s).WF := Counter.WF_foldl s [] (by simp [Counter.WF])
  simp only [Counter.get?, Option.getD_none, Nat.zero_add] at h1
  unfold Counter.ofBytes at *
  cases h : (s.foldl Counter.bump []).get? c with
  | none => rw [h] at h1; simp at h1; simp [← h1]
  | some n =>
    rw [h] at h1
    simp only [Option.getD_some] at h1
    have := hwf.2 (c, n) ((Counter.get?_eq_some hwf c n).1 h)
    simp only at this
    rw [← h1]; simp; omega

theorem Counter.ofBytes_eq_iff (s t : Bytes) :
    (Counter.ofBytes s).eq (Counter.ofBytes t) = true ↔ s.Perm t := by
  have hw : ∀ u : Bytes, (Counter.ofBytes u).WF :=
    fun u => Counter.WF_foldl u [] (by simp [Counter.WF])
  rw [Counter.eq_iff (hw s) (hw t), List.perm_iff_count]
  constructor
  · intro h c
    have := h c
    rw [Counter.get?_ofBytes, Counter.get?_ofBytes] at this
    split at this <;> split at this <;> simp_all
  · intro h c
    rw [Counter.get?_ofBytes, Counter.get?_ofBytes, h c]

/-! ### rstripped -/

theorem rstrip_eq (s : Bytes) : rstrip s = s.rdropWhile isWhite := rfl

theorem rstrippedLoop_iff (x y : List Bytes) (h : x.length = y.length) :
    rstrippedLoop x y = true ↔ x.map rstrip = y.map rstrip := by
  induction x generalizing y with
  | nil => cases y with
    | nil => simp [rstrippedLoop]
    | cons c y => simp at h
  | cons a x ih =>
    cases y with
    | nil => simp at h
    | cons c y =>
      simp only [List.length_cons, Nat.add_right_cancel_iff] at h
      by_cases hac : rstrip a = rstrip c
      · simpa [rstrippedLoop, hac] using ih y h
      · simp [rstrippedLoop, hac]

/-! ### linecount -/

theorem linecountLoop_count (x y : List Bytes) :
    (linecountLoop x y).2 = (List.zip x y).countP (fun q => strip q.1 = strip q.2) := by
  induction x generalizing y with
  | nil => simp [linecountLoop]
  | cons a x ih =>
    cases y with
    | nil => simp [linecountLoop]
    | cons c y =>
      by_cases hac : strip a = strip c
      · simp [linecountLoop, hac, ih]
      · simp [linecountLoop, hac, ih]

theorem linecountLoop_marks (x y : List Bytes) (h : x.length ≤ y.length) :
    (linecountLoop x y).1 =
      (List.range y.length).map (fun i =>
        match x[i]?, y[i]? with
        | some p, some j => if strip p = strip j then tick else cross
        | _, _ => cross) := by
  induction x generalizing y with
  | nil =>
    simp only [linecountLoop]
    apply List.ext_getElem <;> simp
  | cons a x ih =>
    cases y with
    | nil => simp at h
    | cons c y =>
      have h' : x.length ≤ y.length := by simpa using h
      rw [List.length_cons, List.range_succ_eq_map]
      simp only [linecountLoop, List.map_cons, List.map_map]
      have e : ((fun i =>
          match (a :: x)[i]?, (c :: y)[i]? with
          | some p, some j => if strip p = strip j then tick else cross
          | _, _ => cross) ∘ Nat.succ) = (fun i =>
          match x[i]?, y[i]? with
          | some p, some j => if strip p = strip j then tick else cross
          | _, _ => cross) := by
        funext i; simp
      rw [e, ← ih y h']
      by_cases hac : strip a = strip c <;> simp [hac]

end Verif.Checkers
