import Verif.Spec.Names
import Mathlib.Tactic.ByContra

/-!
# Helper lemmas for C102: what the parts of the two patterns match
-/

namespace Verif.Names

variable {u : Chars}

theorem mem_takes {p : Char → Bool} {r : Str} {b : Bool} {x : Bool × Str} : x ∈ takes p b r ↔
    ∃ a, r = a ++ x.2 ∧ (∀ c ∈ a, p c = true) ∧ x.1 = (b && a.isEmpty) := by
  induction r generalizing b with
  | nil =>
    obtain ⟨y, z⟩ := x
    simp only [takes, List.mem_singleton, Prod.mk.injEq]
    constructor
    · rintro ⟨rfl, rfl⟩; exact ⟨[], by simp⟩
    · rintro ⟨a, h, -, h'⟩
      have h := List.append_eq_nil_iff.1 h.symm
      rw [h.1] at h'
      exact ⟨by simpa using h', h.2⟩
  | cons d r ih =>
    obtain ⟨y, z⟩ := x
    simp only [takes, List.mem_cons, Prod.mk.injEq]
    constructor
    · rintro (⟨rfl, rfl⟩ | h)
      · exact ⟨[], by simp⟩
      · by_cases hd : p d = true
        · rw [if_pos hd, ih] at h
          obtain ⟨a, h1, h2, h3⟩ := h
          refine ⟨d :: a, by simpa using h1, ?_, by simpa using h3⟩
          intro c hc
          rcases List.mem_cons.1 hc with rfl | hc
          · exact hd
          · exact h2 c hc
        · rw [if_neg hd] at h; simp at h
    · rintro ⟨a, h1, h2, h3⟩
      cases a with
      | nil => exact .inl ⟨by simpa using h3, by simpa using h1.symm⟩
      | cons e a =>
        simp only [List.cons_append, List.cons.injEq] at h1
        obtain ⟨rfl, h1⟩ := h1
        refine .inr ?_
        rw [if_pos (h2 _ (by simp)), ih]
        exact ⟨a, h1, fun c hc => h2 c (by simp [hc]), by simpa using h3⟩

theorem takes_sorted (p : Char → Bool) (b : Bool) (r : Str) :
    (takes p b r).Pairwise fun x y => y.2.length < x.2.length := by
  induction r generalizing b with
  | nil => simp [takes]
  | cons d r ih =>
    rw [takes, List.pairwise_cons]
    constructor
    · intro x hx
      by_cases hd : p d = true
      · rw [if_pos hd, mem_takes] at hx
        obtain ⟨a, h, -⟩ := hx
        rw [h]; simp; omega
      · rw [if_neg hd] at hx; simp at hx
    · by_cases hd : p d = true
      · rw [if_pos hd]; exact ih _
      · rw [if_neg hd]; simp

theorem mem_star {lz : Bool} {o : One} {s t : At} : t ∈ run u (.star lz o) s ↔
    ∃ a, s.rest = a ++ t.rest ∧ (∀ c ∈ a, o.has u c = true) ∧ t.first = (s.first && a.isEmpty) ∧ t.groups = s.groups := by
  have : t ∈ run u (.star lz o) s ↔
      t ∈ (takes (o.has u) s.first s.rest).map fun x => { s with first := x.1, rest := x.2 } := by
    cases lz <;> simp [run]
  rw [this, List.mem_map]
  obtain ⟨tf, tr, tg⟩ := t
  constructor
  · rintro ⟨x, hx, h⟩
    obtain ⟨a, h1, h2, h3⟩ := mem_takes.1 hx
    simp only [At.mk.injEq] at h
    obtain ⟨rfl, rfl, rfl⟩ := h
    exact ⟨a, h1, h2, h3, rfl⟩
  · rintro ⟨a, h1, h2, h3, h4⟩
    exact ⟨(tf, tr), mem_takes.2 ⟨a, h1, h2, h3⟩, by simpa using h4.symm⟩

theorem mem_seq {a b : Re} {s t : At} : t ∈ run u (.seq a b) s ↔ ∃ m ∈ run u a s, t ∈ run u b m := by
  simp [run]

theorem mem_one {o : One} {s t : At} : t ∈ run u (.one o) s ↔
    ∃ c, s.rest = c :: t.rest ∧ o.has u c = true ∧ t.first = false ∧ t.groups = s.groups := by
  obtain ⟨sf, sr, sg⟩ := s
  obtain ⟨tf, tr, tg⟩ := t
  rw [run]
  cases sr with
  | nil => simp
  | cons c r =>
    simp only
    split
    · rename_i h
      simp only [List.mem_singleton, At.mk.injEq, List.cons.injEq]
      constructor
      · rintro ⟨rfl, rfl, rfl⟩; exact ⟨c, ⟨rfl, rfl⟩, h, rfl, rfl⟩
      · rintro ⟨d, ⟨rfl, rfl⟩, -, rfl, rfl⟩; exact ⟨rfl, rfl, rfl⟩
    · rename_i h
      simp only [List.not_mem_nil, List.cons.injEq, false_iff]
      rintro ⟨d, ⟨rfl, -⟩, h', -⟩
      exact h h'

/-- One or more. -/
theorem mem_plus {o : One} {s t : At} : t ∈ run u (.seq (.one o) (.star false o)) s ↔
    ∃ a, a ≠ [] ∧ s.rest = a ++ t.rest ∧ (∀ c ∈ a, o.has u c = true) ∧ t.first = false ∧ t.groups = s.groups := by
  rw [mem_seq]
  constructor
  · rintro ⟨m, hm, ht⟩
    obtain ⟨c, h1, h2, h3, h4⟩ := mem_one.1 hm
    obtain ⟨a, g1, g2, g3, g4⟩ := mem_star.1 ht
    refine ⟨c :: a, by simp, by rw [h1, g1]; rfl, ?_, by rw [g3, h3]; rfl, g4.trans h4⟩
    intro d hd
    rcases List.mem_cons.1 hd with rfl | hd
    · exact h2
    · exact g2 d hd
  · rintro ⟨a, h1, h2, h3, h4, h5⟩
    cases a with
    | nil => exact absurd rfl h1
    | cons c a =>
      refine ⟨⟨false, a ++ t.rest, s.groups⟩, mem_one.2 ⟨c, h2, h3 c (by simp), rfl, rfl⟩, ?_⟩
      exact mem_star.2 ⟨a, rfl, fun d hd => h3 d (by simp [hd]), by rw [h4]; rfl, h5⟩

theorem mem_group_plus {n : Str} {o : One} {s t : At} :
    t ∈ run u (.group n (.seq (.one o) (.star false o))) s ↔
    ∃ a, a ≠ [] ∧ s.rest = a ++ t.rest ∧ (∀ c ∈ a, o.has u c = true) ∧ t.first = false ∧
      t.groups = (n, a) :: s.groups := by
  rw [run, List.mem_map]
  have key : ∀ (a r : Str), (a ++ r).take ((a ++ r).length - r.length) = a := by intro a r; simp
  constructor
  · rintro ⟨m, hm, rfl⟩
    obtain ⟨a, h1, h2, h3, h4, h5⟩ := mem_plus.1 hm
    refine ⟨a, h1, h2, h3, h4, ?_⟩
    rw [h2, key, h5]
  · rintro ⟨a, h1, h2, h3, h4, h5⟩
    refine ⟨{ t with groups := s.groups }, mem_plus.2 ⟨a, h1, h2, h3, h4, rfl⟩, ?_⟩
    obtain ⟨tf, tr, tg⟩ := t
    simp only [At.mk.injEq, true_and] at h2 h5 ⊢
    rw [h5, h2, key]

theorem mem_eos {s t : At} : t ∈ run u .eos s ↔ t = s ∧ (s.rest = [] ∨ s.rest = ['\n']) := by
  rw [run]
  split <;> simp_all

/-! ## The parts of the patterns -/

/-- `(?:^|\W)(?P<batch>\d+)[^\d\s]+` -/
def batchRe : Re := .seq (.alt .start (.one .nonword)) (.seq (.group "batch".toList (.seq (.one .digit) (.star false .digit)))
  (.seq (.one (.noneOf true true)) (.star false (.noneOf true true))))

/-- `(?P<case>\d+)[^\d\s]*$` -/
def caseRe : Re := .seq (.group "case".toList (.seq (.one .digit) (.star false .digit)))
  (.seq (.star false (.noneOf true true)) .eos)

/-- A letter or more, one by one. -/
def litsRe : Str → Re
  | [] => .eps
  | [c] => .one (.lit c)
  | c :: l => .seq (.one (.lit c)) (litsRe l)

/-- The whole pattern. -/
def wholeRe (m : Str) : Re := .seq .start (.seq
  (.look (.alt (.seq (.star true .any) (litsRe ('.' :: m))) (litsRe m)))
  (.seq (.star true .any) (.seq (.opt batchRe) caseRe)))

theorem parse_input : parse inputPattern = some (wholeRe ['i', 'n']) := by decide +kernel

theorem parse_output : parse outputPattern = some (wholeRe ['o', 'u', 't']) := by decide +kernel

theorem noneOf_iff {c : Char} : (One.noneOf true true).has u c = true ↔ u.digit c = false ∧ u.space c = false := by
  simp [One.has]

/-- What the end of the pattern matches. -/
theorem mem_case {s t : At} : t ∈ run u caseRe s ↔
    ∃ num post, num ≠ [] ∧ s.rest = num ++ post ++ t.rest ∧ (∀ c ∈ num, u.digit c = true) ∧
      (∀ c ∈ post, u.digit c = false ∧ u.space c = false) ∧ (t.rest = [] ∨ t.rest = ['\n']) ∧
      t.first = false ∧ t.groups = ("case".toList, num) :: s.groups := by
  rw [caseRe, mem_seq]
  constructor
  · rintro ⟨m, hm, ht⟩
    obtain ⟨num, h1, h2, h3, h4, h5⟩ := mem_group_plus.1 hm
    obtain ⟨m', hm', ht⟩ := mem_seq.1 ht
    obtain ⟨post, g1, g2, g3, g4⟩ := mem_star.1 hm'
    obtain ⟨rfl, he⟩ := mem_eos.1 ht
    refine ⟨num, post, h1, by rw [h2, g1, List.append_assoc], h3, fun c hc => noneOf_iff.1 (g2 c hc), he, ?_, g4.trans h5⟩
    rw [g3, h4]; rfl
  · rintro ⟨num, post, h1, h2, h3, h4, h5, h6, h7⟩
    refine ⟨⟨false, post ++ t.rest, ("case".toList, num) :: s.groups⟩,
      mem_group_plus.2 ⟨num, h1, by rw [h2, List.append_assoc], h3, rfl, rfl⟩, mem_seq.2 ⟨t, mem_star.2
        ⟨post, rfl, fun c hc => noneOf_iff.2 (h4 c hc), by rw [h6]; rfl, h7⟩, mem_eos.2 ⟨rfl, h5⟩⟩⟩

/-- What the optional part matches. -/
theorem mem_batch {s t : At} : t ∈ run u batchRe s ↔
    ∃ w num sep, s.rest = w ++ num ++ sep ++ t.rest ∧
      ((w = [] ∧ s.first = true) ∨ ∃ c, w = [c] ∧ u.word c = false) ∧
      num ≠ [] ∧ (∀ c ∈ num, u.digit c = true) ∧ sep ≠ [] ∧ (∀ c ∈ sep, u.digit c = false ∧ u.space c = false) ∧
      t.first = false ∧ t.groups = ("batch".toList, num) :: s.groups := by
  rw [batchRe, mem_seq]
  have halt : ∀ m, m ∈ run u (.alt .start (.one .nonword)) s ↔ ∃ w, s.rest = w ++ m.rest ∧
      ((w = [] ∧ s.first = true ∧ m.first = true) ∨ (m.first = false ∧ ∃ c, w = [c] ∧ u.word c = false)) ∧
      m.groups = s.groups := by
    intro m
    rw [run, List.mem_append, mem_one]
    constructor
    · rintro (h | ⟨c, h1, h2, h3, h4⟩)
      · rw [run] at h
        split at h
        · rename_i hf
          simp only [List.mem_singleton] at h
          subst h
          exact ⟨[], rfl, .inl ⟨rfl, hf, hf⟩, rfl⟩
        · simp at h
      · exact ⟨[c], h1, .inr ⟨h3, c, rfl, by simpa [One.has] using h2⟩, h4⟩
    · rintro ⟨w, h1, ⟨rfl, h2, h3⟩ | ⟨h2, c, rfl, h3⟩, h4⟩
      · left
        rw [run, if_pos h2]
        obtain ⟨sf, sr, sg⟩ := s
        obtain ⟨mf, mr, mg⟩ := m
        simp_all
      · exact .inr ⟨c, h1, by simpa [One.has] using h3, h2, h4⟩
  constructor
  · rintro ⟨m, hm, ht⟩
    obtain ⟨w, h1, h2, h3⟩ := (halt m).1 hm
    obtain ⟨m', hm', ht⟩ := mem_seq.1 ht
    obtain ⟨num, g1, g2, g3, g4, g5⟩ := mem_group_plus.1 hm'
    obtain ⟨sep, k1, k2, k3, k4, k5⟩ := mem_plus.1 ht
    refine ⟨w, num, sep, by rw [h1, g2, k2]; simp, ?_, g1, g3, k1, fun c hc => noneOf_iff.1 (k3 c hc), k4, ?_⟩
    · rcases h2 with h | h
      · exact .inl ⟨h.1, h.2.1⟩
      · exact .inr h.2
    · rw [k5, g5, h3]
  · rintro ⟨w, num, sep, h1, h2, h3, h4, h5, h6, h7, h8⟩
    refine ⟨⟨w.isEmpty, num ++ sep ++ t.rest, s.groups⟩, (halt _).2 ⟨w, by rw [h1]; simp, ?_, rfl⟩, mem_seq.2
      ⟨⟨false, sep ++ t.rest, ("batch".toList, num) :: s.groups⟩, mem_group_plus.2 ⟨num, h3, by simp, h4, rfl, rfl⟩,
        mem_plus.2 ⟨sep, h5, rfl, fun c hc => noneOf_iff.2 (h6 c hc), h7, h8⟩⟩⟩
    rcases h2 with ⟨rfl, h⟩ | ⟨c, rfl, h⟩
    · exact .inl ⟨rfl, h, rfl⟩
    · exact .inr ⟨rfl, c, rfl, h⟩

theorem mem_lits {l : Str} {s t : At} (hl : l ≠ []) : t ∈ run u (litsRe l) s ↔
    ∃ a, Spec.Same u l a ∧ s.rest = a ++ t.rest ∧ t.first = false ∧ t.groups = s.groups := by
  induction l generalizing s with
  | nil => exact absurd rfl hl
  | cons c l ih =>
    cases l with
    | nil =>
      rw [litsRe, mem_one]
      constructor
      · rintro ⟨x, h1, h2, h3, h4⟩; exact ⟨[x], .cons h2 .nil, h1, h3, h4⟩
      · rintro ⟨a, h1, h2, h3, h4⟩
        cases h1 with
        | cons hx hn => cases hn; exact ⟨_, h2, hx, h3, h4⟩
    | cons d l =>
      rw [litsRe, mem_seq]
      · constructor
        · rintro ⟨m, hm, ht⟩
          obtain ⟨x, h1, h2, h3, h4⟩ := mem_one.1 hm
          obtain ⟨a, g1, g2, g3, g4⟩ := (ih (by simp)).1 ht
          exact ⟨x :: a, .cons h2 g1, by rw [h1, g2]; rfl, g3, g4.trans h4⟩
        · rintro ⟨a, h1, h2, h3, h4⟩
          cases h1 with
          | @cons _ x _ a hx hn =>
            exact ⟨⟨false, a ++ t.rest, s.groups⟩, mem_one.2 ⟨x, h2, hx, rfl, rfl⟩, (ih (by simp)).2 ⟨a, hn, rfl, h3, h4⟩⟩
      · simp

end Verif.Names
