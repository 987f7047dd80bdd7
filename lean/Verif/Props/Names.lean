import Verif.Lemmas.Names
import Verif.Props.Discovery

/-!
# The files of an archive that are taken as test cases (C102)

Without `test_cases` in the configuration the judge guesses from the names of the archive's members. Proved here: which
names are taken as input and as output, which number of the name is the case and which the batch, and what follows for
the list of cases (with C26). The description of names is in `Spec/Names.lean`.
-/

namespace Verif.Names

open Spec

variable {u : Chars}

/-- The name has no line break. -/
def OneLine (s : Str) : Prop := '\n' ∉ s

instance (s : Str) : Decidable (OneLine s) := by unfold OneLine; infer_instance

theorem any_has {s : Str} (h : OneLine s) : ∀ c ∈ s, One.any.has u c = true := by
  intro c hc
  simp only [One.has, bne_iff_ne, ne_eq]
  rintro rfl
  exact h hc

theorem look_nonempty {m s : Str} (hm : m ≠ []) (hs : OneLine s) :
    (∃ t, t ∈ run u (.alt (.seq (.star true .any) (litsRe ('.' :: m))) (litsRe m)) ⟨true, s, []⟩) ↔ Marked u m s := by
  constructor
  · rintro ⟨t, ht⟩
    rw [run, List.mem_append, mem_seq, mem_lits hm] at ht
    rcases ht with ⟨p, hp, ht⟩ | ⟨a, h1, h2, -, -⟩
    · obtain ⟨x, g1, -⟩ := mem_star.1 hp
      obtain ⟨a, k1, k2, -⟩ := (mem_lits (by simp)).1 ht
      exact .inr ⟨x, a, t.rest, by simp only at g1; rw [g1, k2, List.append_assoc], k1⟩
    · exact .inl ⟨a, t.rest, h2, h1⟩
  · rintro (⟨a, b, rfl, h⟩ | ⟨p, a, b, rfl, h⟩)
    · refine ⟨⟨false, b, []⟩, ?_⟩
      rw [run, List.mem_append]
      exact .inr ((mem_lits hm).2 ⟨a, h, rfl, rfl, rfl⟩)
    · refine ⟨⟨false, b, []⟩, ?_⟩
      rw [run, List.mem_append, mem_seq]
      refine .inl ⟨⟨true && p.isEmpty, a ++ b, []⟩, mem_star.2 ⟨p, by simp, ?_, rfl, rfl⟩,
        (mem_lits (by simp)).2 ⟨a, h, rfl, rfl, rfl⟩⟩
      intro c hc
      exact any_has hs c (by simp [hc])

theorem look_groups {m : Str} (hm : m ≠ []) {s t : At}
    (ht : t ∈ run u (.alt (.seq (.star true .any) (litsRe ('.' :: m))) (litsRe m)) s) : t.groups = s.groups := by
  rw [run, List.mem_append, mem_seq, mem_lits hm] at ht
  rcases ht with ⟨p, hp, ht⟩ | ⟨a, h1, h2, -, h⟩
  · obtain ⟨x, -, -, -, g⟩ := mem_star.1 hp
    obtain ⟨a, -, -, -, k⟩ := (mem_lits (by simp)).1 ht
    exact k.trans g
  · exact h

/-- `.*?(?:...)?(?P<case>\d+)[^\d\s]*$` -/
def tailRe : Re := .seq (.star true .any) (.seq (.opt batchRe) caseRe)

theorem run_whole {m s : Str} (hm : m ≠ []) (hs : OneLine s) [Decidable (Marked u m s)] :
    run u (wholeRe m) ⟨true, s, []⟩ = if Marked u m s then run u tailRe ⟨true, s, []⟩ else [] := by
  have hl : run u (.look (.alt (.seq (.star true .any) (litsRe ('.' :: m))) (litsRe m))) ⟨true, s, []⟩ =
      if Marked u m s then [⟨true, s, []⟩] else [] := by
    have h1 := look_nonempty (u := u) hm hs
    rw [run]
    cases hr : run u (.alt (.seq (.star true .any) (litsRe ('.' :: m))) (litsRe m)) ⟨true, s, []⟩ with
    | nil =>
      rw [if_neg]
      intro h
      obtain ⟨t, ht⟩ := h1.2 h
      rw [hr] at ht
      simp at ht
    | cons t l =>
      have ht : t ∈ run u (.alt (.seq (.star true .any) (litsRe ('.' :: m))) (litsRe m)) ⟨true, s, []⟩ := by
        rw [hr]; simp
      rw [if_pos (h1.1 ⟨t, ht⟩)]
      simp only [look_groups hm ht]
  rw [wholeRe, run, run, if_pos rfl]
  simp only [List.flatMap_cons, List.flatMap_nil, List.append_nil]
  rw [run, hl]
  split <;> simp [tailRe]

/-- The whole matching, at one place. -/
theorem head_opt (s : At) : (run u (.seq (.opt batchRe) caseRe) s).head? =
    (((run u batchRe s).flatMap (run u caseRe)).head?).or (run u caseRe s).head? := by
  rw [run, run, List.flatMap_append, List.head?_append]
  simp

theorem head_none {α : Type} {l : List α} : l.head? = none ↔ ∀ x, x ∉ l := by
  cases l with
  | nil => simp
  | cons a l => simp only [List.head?_cons, reduceCtorEq, false_iff]; exact fun h => h a (by simp)

/-- The first place that works. -/
theorem tail_some {s : Str} {t : At} (h : (run u tailRe ⟨true, s, []⟩).head? = some t) :
    ∃ p r, s = p ++ r ∧ (run u (.seq (.opt batchRe) caseRe) ⟨p.isEmpty, r, []⟩).head? = some t ∧
      ∀ q r', s = q ++ r' → OneLine q → q.length < p.length →
        (run u (.seq (.opt batchRe) caseRe) ⟨q.isEmpty, r', []⟩).head? = none := by
  rw [tailRe, run, List.head?_flatMap, List.findSome?_eq_some_iff] at h
  obtain ⟨l₁, a, l₂, hl, ha, hn⟩ := h
  have hrun : run u (.star true .any) ⟨true, s, []⟩ =
      (takes (One.any.has u) true s).map fun x => ⟨x.1, x.2, []⟩ := by
    simp [run]
  have hsort : (run u (.star true .any) ⟨true, s, []⟩).Pairwise fun x y => y.rest.length < x.rest.length := by
    rw [hrun, List.pairwise_map]
    exact takes_sorted _ _ _
  have hmem : a ∈ run u (.star true .any) ⟨true, s, []⟩ := by rw [hl]; simp
  obtain ⟨p, h1, h2, h3, h4⟩ := mem_star.1 hmem
  obtain ⟨af, ar, ag⟩ := a
  simp only [Bool.true_and] at h1 h3 h4
  subst h3 h4
  refine ⟨p, ar, h1, ha, ?_⟩
  intro q r' hq ho hlt
  apply hn
  have hx : (⟨q.isEmpty, r', []⟩ : At) ∈ run u (.star true .any) ⟨true, s, []⟩ :=
    mem_star.2 ⟨q, hq, any_has ho, rfl, rfl⟩
  have hlen : ar.length < r'.length := by
    have e1 : s.length = p.length + ar.length := by rw [h1]; simp
    have e2 : s.length = q.length + r'.length := by rw [hq]; simp
    omega
  rw [hl] at hx hsort
  rcases List.mem_append.1 hx with hx | hx
  · exact hx
  · exfalso
    rw [List.pairwise_append, List.pairwise_cons] at hsort
    rcases List.mem_cons.1 hx with hx | hx
    · simp only [At.mk.injEq] at hx
      rw [hx.2.1] at hlen; omega
    · have := hsort.2.1.1 _ hx
      simp only at this
      omega

theorem sub_oneLine {s p r : Str} (h : OneLine s) (e : s = p ++ r) : OneLine p ∧ OneLine r := by
  subst e
  simp only [OneLine, List.mem_append, not_or] at h
  exact h

/-- The number at the end of the pattern, when there is no line break. -/
theorem case_at {s t : At} (hs : OneLine s.rest) (h : t ∈ run u caseRe s) :
    ∃ num post, num ≠ [] ∧ s.rest = num ++ post ∧ (∀ c ∈ num, u.digit c = true) ∧
      (∀ c ∈ post, u.digit c = false ∧ u.space c = false) ∧ t.groups = ("case".toList, num) :: s.groups := by
  obtain ⟨num, post, h1, h2, h3, h4, h5, h6, h7⟩ := mem_case.1 h
  rcases h5 with h5 | h5
  · exact ⟨num, post, h1, by rw [h2, h5, List.append_nil], h3, h4, h7⟩
  · exfalso
    rw [h2, h5] at hs
    exact hs (by simp)

theorem case_there {s : At} {num post : Str} (h1 : num ≠ []) (h2 : s.rest = num ++ post)
    (h3 : ∀ c ∈ num, u.digit c = true) (h4 : ∀ c ∈ post, u.digit c = false ∧ u.space c = false) :
    (⟨false, [], ("case".toList, num) :: s.groups⟩ : At) ∈ run u caseRe s :=
  mem_case.2 ⟨num, post, h1, by simpa using h2, h3, h4, .inl rfl, rfl, rfl⟩

theorem opt_of_case {s : At} (h : ∃ t, t ∈ run u caseRe s) : (run u (.seq (.opt batchRe) caseRe) s).head? ≠ none := by
  rw [head_opt]
  obtain ⟨t, ht⟩ := h
  intro hn
  rw [Option.or_eq_none_iff] at hn
  exact head_none.1 hn.2 t ht

theorem opt_of_batch {s : At} (h : ∃ m ∈ run u batchRe s, ∃ t, t ∈ run u caseRe m) :
    (run u (.seq (.opt batchRe) caseRe) s).head? ≠ none := by
  rw [head_opt]
  obtain ⟨m, hm, t, ht⟩ := h
  intro hn
  rw [Option.or_eq_none_iff] at hn
  exact head_none.1 hn.1 t (List.mem_flatMap.2 ⟨m, hm, ht⟩)

/-- What the groups are when the pattern matches. -/
theorem tail_spec {s : Str} (hs : OneLine s) {t : At} (h : (run u tailRe ⟨true, s, []⟩).head? = some t) :
    ∃ pre num post, Last u s pre num post ∧ (∀ c ∈ post, u.space c = false) ∧
      ((∃ b, Before u pre b ∧ t.groups = [("case".toList, num), ("batch".toList, b)]) ∨
        ((¬ ∃ b, Before u pre b) ∧ t.groups = [("case".toList, num)])) := by
  obtain ⟨p, r, e, ht, hmin⟩ := tail_some h
  have hr := (sub_oneLine hs e).2
  have hp := (sub_oneLine hs e).1
  rw [head_opt, Option.or_eq_some_iff] at ht
  rcases ht with ht | ⟨hno, ht⟩
  · obtain ⟨m, hm, ht⟩ := List.mem_flatMap.1 (List.mem_of_head? ht)
    obtain ⟨w, b, sep, g1, g2, g3, g4, g5, g6, g7, g8⟩ := mem_batch.1 hm
    change r = _ at g1
    change (w = [] ∧ p.isEmpty = true) ∨ _ at g2
    change _ = ("batch".toList, b) :: [] at g8
    have hmr : OneLine m.rest := (sub_oneLine hr g1).2
    obtain ⟨num, post, k1, k2, k3, k4, k5⟩ := case_at hmr ht
    refine ⟨p ++ w ++ b ++ sep, num, post, ⟨?_, k1, k3, ?_, fun c hc => (k4 c hc).1⟩, fun c hc => (k4 c hc).2, .inl
      ⟨b, ⟨p ++ w, sep, rfl, g3, g4, ?_, g5, g6⟩, by rw [k5, g8]⟩⟩
    · rw [e, g1, k2]; simp
    · intro c hc
      rw [List.getLast?_append] at hc
      cases hl : sep.getLast? with
      | none => exact absurd (List.getLast?_eq_none_iff.1 hl) g5
      | some d =>
        rw [hl] at hc
        simp only [Option.some_or, Option.some.injEq] at hc
        subst hc
        exact (g6 _ (List.mem_of_getLast? hl)).1
    · intro c hc
      rcases g2 with ⟨rfl, hf⟩ | ⟨d, rfl, hd⟩
      · have : p = [] := by simpa using hf
        subst this
        simp at hc
      · simp at hc; subst hc; exact hd
  · obtain ⟨num, post, k1, k2, k3, k4, k5⟩ := case_at hr (List.mem_of_head? ht)
    change r = _ at k2
    refine ⟨p, num, post, ⟨by rw [e, k2, List.append_assoc], k1, k3, ?_, fun c hc => (k4 c hc).1⟩,
      fun c hc => (k4 c hc).2, .inr ⟨?_, by rw [k5]⟩⟩
    · intro c hc
      by_contra hd
      rw [Bool.not_eq_false] at hd
      obtain ⟨p', rfl⟩ : ∃ p', p = p' ++ [c] := by
        rw [List.getLast?_eq_some_iff] at hc; exact hc
      refine opt_of_case (s := ⟨p'.isEmpty, c :: r, []⟩) ?_ (hmin p' (c :: r) (by rw [e]; simp) ?_ (by simp))
      · refine ⟨_, case_there (num := c :: num) (post := post) (by simp) (by simp [k2]) ?_ k4⟩
        intro x hx
        rcases List.mem_cons.1 hx with rfl | hx
        · exact hd
        · exact k3 x hx
      · exact (sub_oneLine hp rfl).1
    · rintro ⟨b, q, sep, e', b1, b2, b3, b4, b5⟩
      have hb0 : 0 < b.length := List.length_pos_iff.2 b1
      cases hq : q.getLast? with
      | none =>
        have : q = [] := List.getLast?_eq_none_iff.1 hq
        subst this
        refine opt_of_batch (s := ⟨true, s, []⟩) ?_ (hmin [] s rfl (by simp [OneLine]) (by rw [e']; simp only [List.length_append, List.length_nil]; omega))
        refine ⟨⟨false, num ++ post, [("batch".toList, b)]⟩, mem_batch.2 ⟨[], b, sep, ?_, .inl ⟨rfl, rfl⟩, b1, b2, b4, b5, rfl,
          rfl⟩, _, case_there k1 rfl k3 k4⟩
        rw [e, e', k2]
      | some c =>
        obtain ⟨q', rfl⟩ : ∃ q', q = q' ++ [c] := by
          rw [List.getLast?_eq_some_iff] at hq; exact hq
        refine opt_of_batch (s := ⟨q'.isEmpty, c :: b ++ sep ++ r, []⟩) ?_
          (hmin q' (c :: b ++ sep ++ r) (by rw [e, e']; simp) ?_ (by rw [e']; simp only [List.length_append, List.length_cons, List.length_nil]; omega))
        · refine ⟨⟨false, num ++ post, [("batch".toList, b)]⟩, mem_batch.2 ⟨[c], b, sep, ?_, .inr ⟨c, rfl, b3 c hq⟩, b1, b2, b4,
            b5, rfl, rfl⟩, _, case_there k1 rfl k3 k4⟩
          simp [k2]
        · rw [e'] at hp
          exact (sub_oneLine hp (r := c :: b ++ sep) (by simp)).1

/-- When the pattern matches. -/
theorem tail_isSome {s pre num post : Str} (hs : OneLine s) (hl : Last u s pre num post)
    (hp : ∀ c ∈ post, u.space c = false) : (run u tailRe ⟨true, s, []⟩).head? ≠ none := by
  intro h
  rw [tailRe, run, List.head?_flatMap, List.findSome?_eq_none_iff] at h
  have e : s = pre ++ (num ++ post) := by rw [hl.name, List.append_assoc]
  have := h ⟨pre.isEmpty, num ++ post, []⟩
    (mem_star.2 ⟨pre, e, any_has (sub_oneLine hs e).1, rfl, rfl⟩)
  exact opt_of_case ⟨_, case_there hl.nonempty rfl hl.digits fun c hc => ⟨hl.last c hc, hp c hc⟩⟩ this

/-- A pattern of the repository, as a function of the name; no name matches a text that is no pattern. -/
def default (u : Chars) (text : Str) : Problem.Pattern := fun f =>
  match parse text with
  | some r => matches? u r f
  | none => none

theorem split_unique {P : Char → Prop} {a b a' b' : Str} (h : a ++ b = a' ++ b') (ha : ∀ c ∈ a, P c) (ha' : ∀ c ∈ a', P c)
    (hb : ∀ c, b.head? = some c → ¬ P c) (hb' : ∀ c, b'.head? = some c → ¬ P c) : a = a' ∧ b = b' := by
  induction a generalizing a' with
  | nil =>
    cases a' with
    | nil => exact ⟨rfl, by simpa using h⟩
    | cons c a' =>
      simp only [List.nil_append] at h
      exact absurd (ha' c (by simp)) (hb c (by rw [h]; rfl))
  | cons c a ih =>
    cases a' with
    | nil =>
      simp only [List.nil_append] at h
      exact absurd (ha c (by simp)) (hb' c (by rw [← h]; rfl))
    | cons d a' =>
      simp only [List.cons_append, List.cons.injEq] at h
      obtain ⟨rfl, h⟩ := h
      have := ih h (fun c hc => ha c (by simp [hc])) (fun c hc => ha' c (by simp [hc]))
      exact ⟨by rw [this.1], this.2⟩

/-- A number with something after it that has none, from the end. -/
theorem number_unique {pre num post pre' num' post' : Str} (h : pre ++ num ++ post = pre' ++ num' ++ post')
    (h1 : num ≠ []) (h2 : ∀ c ∈ num, u.digit c = true) (h3 : ∀ c, pre.getLast? = some c → u.digit c = false)
    (h4 : ∀ c ∈ post, u.digit c = false)
    (h1' : num' ≠ []) (h2' : ∀ c ∈ num', u.digit c = true) (h3' : ∀ c, pre'.getLast? = some c → u.digit c = false)
    (h4' : ∀ c ∈ post', u.digit c = false) : pre = pre' ∧ num = num' ∧ post = post' := by
  have e := congrArg List.reverse h
  simp only [List.reverse_append] at e
  have hd : ∀ {x y : Str}, x ≠ [] → (∀ c ∈ x, u.digit c = true) → ∀ c, (x.reverse ++ y).head? = some c →
      ¬ u.digit c = false := by
    intro x y hx hx' c hc
    rw [List.head?_append, List.head?_reverse] at hc
    cases hl : x.getLast? with
    | none => exact absurd (List.getLast?_eq_none_iff.1 hl) hx
    | some d =>
      rw [hl] at hc
      simp only [Option.some_or, Option.some.injEq] at hc
      subst hc
      rw [hx' _ (List.mem_of_getLast? hl)]; simp
  obtain ⟨e1, e2⟩ := split_unique (P := fun c => u.digit c = false) e (by simpa using h4) (by simpa using h4')
    (hd h1 h2) (hd h1' h2')
  obtain ⟨e3, e4⟩ := split_unique (P := fun c => u.digit c = true) e2 (by simpa using h2) (by simpa using h2')
    (by intro c hc; rw [List.head?_reverse] at hc; simp [h3 c hc])
    (by intro c hc; rw [List.head?_reverse] at hc; simp [h3' c hc])
  exact ⟨List.reverse_injective e4, List.reverse_injective e3, List.reverse_injective e1⟩

theorem last_unique {s pre num post pre' num' post' : Str} (h : Last u s pre num post) (h' : Last u s pre' num' post') :
    pre = pre' ∧ num = num' ∧ post = post' :=
  number_unique (h.name.symm.trans h'.name) h.nonempty h.digits h.whole h.last h'.nonempty h'.digits h'.whole h'.last

/-- **C102**: a name has at most one case number and at most one batch number. -/
theorem C102_numbers_unique (hu : Sane u) {s n n' : Str} :
    (CaseNo u s n → CaseNo u s n' → n = n') ∧ (BatchNo u s n → BatchNo u s n' → n = n') := by
  constructor
  · rintro ⟨_, _, h⟩ ⟨_, _, h'⟩
    exact (last_unique h h').2.1
  · rintro ⟨pre, _, _, h, q, sep, e, h1, h2, h3, -, h4⟩ ⟨pre', _, _, h', q', sep', e', h1', h2', h3', -, h4'⟩
    have := (last_unique h h').1
    subst this
    have key : ∀ c, u.word c = false → u.digit c = false := by
      intro c hc
      by_contra hd
      rw [Bool.not_eq_false] at hd
      rw [hu.digit_word c hd] at hc
      cases hc
    exact (number_unique (e.symm.trans e') h1 h2 (fun c hc => key c (h3 c hc)) (fun c hc => (h4 c hc).1)
      h1' h2' (fun c hc => key c (h3' c hc)) (fun c hc => (h4' c hc).1)).2.1

theorem default_spec {text m : Str} (hm : m ≠ []) (hp : parse text = some (wholeRe m)) {f : String}
    (hs : OneLine f.toList) :
    ((default u text f).isSome = true ↔ Taken u m f.toList) ∧
    ∀ b c, default u text f = some (b, c) → (∃ n, CaseNo u f.toList n ∧ c = some (String.ofList n)) ∧
      ((∃ n, BatchNo u f.toList n ∧ b = some (String.ofList n)) ∨ ((¬ ∃ n, BatchNo u f.toList n) ∧ b = none)) := by
  classical
  have hd : default u text f = matches? u (wholeRe m) f := by rw [default, hp]
  rw [hd]
  simp only [matches?, run_whole hm hs]
  by_cases hmk : Marked u m f.toList
  · rw [if_pos hmk]
    constructor
    · rw [Option.isSome_map, Option.isSome_iff_ne_none]
      constructor
      · intro h
        obtain ⟨t, ht⟩ := Option.ne_none_iff_exists'.1 h
        obtain ⟨pre, num, post, h1, h2, -⟩ := tail_spec hs ht
        exact ⟨hmk, pre, num, post, h1, h2⟩
      · rintro ⟨-, pre, num, post, h1, h2⟩
        exact tail_isSome hs h1 h2
    · intro b c h
      obtain ⟨t, ht, h⟩ := Option.map_eq_some_iff.1 h
      obtain ⟨pre, num, post, h1, h2, h3⟩ := tail_spec hs ht
      simp only [Prod.mk.injEq] at h
      refine ⟨⟨num, ⟨pre, post, h1⟩, ?_⟩, ?_⟩
      · rw [← h.2]
        rcases h3 with ⟨n, -, hg⟩ | ⟨-, hg⟩ <;> rw [groupOf, hg] <;> simp
      · rcases h3 with ⟨n, hn, hg⟩ | ⟨hn, hg⟩
        · refine .inl ⟨n, ⟨pre, num, post, h1, hn⟩, ?_⟩
          rw [← h.1, groupOf, hg]; simp [List.lookup]
        · refine .inr ⟨?_, ?_⟩
          · rintro ⟨n, pre', num', post', h', hb⟩
            rw [← (last_unique h1 h').1] at hb
            exact hn ⟨n, hb⟩
          · rw [← h.1, groupOf, hg]; simp [List.lookup]
  · rw [if_neg hmk]
    refine ⟨?_, by simp⟩
    simp only [List.head?_nil, Option.map_none, Option.isSome_none, Bool.false_eq_true, false_iff]
    exact fun h => hmk h.1

/-- **C102**: a member of the archive is taken as an input file exactly if its name begins with `in` or has `.in` in it,
ignoring case, and has a number after whose last occurrence there is no whitespace; and as an output file likewise with
`out`. -/
theorem C102_taken {f : String} (hs : OneLine f.toList) :
    ((default u inputPattern f).isSome = true ↔ Taken u "in".toList f.toList) ∧
    ((default u outputPattern f).isSome = true ↔ Taken u "out".toList f.toList) :=
  ⟨(default_spec (by simp) parse_input hs).1, (default_spec (by simp) parse_output hs).1⟩

/-- **C102**: the case is the last number of the name; the batch is the number before it, if that stands at the
beginning or after something that is neither letter, digit nor underscore and there is no whitespace between; there is
no batch otherwise. -/
theorem C102_numbers {f : String} (hs : OneLine f.toList) {b c : Option String}
    (h : default u inputPattern f = some (b, c) ∨ default u outputPattern f = some (b, c)) :
    (∃ n, CaseNo u f.toList n ∧ c = some (String.ofList n)) ∧
      ((∃ n, BatchNo u f.toList n ∧ b = some (String.ofList n)) ∨ ((¬ ∃ n, BatchNo u f.toList n) ∧ b = none)) := by
  rcases h with h | h
  · exact (default_spec (by simp) parse_input hs).2 b c h
  · exact (default_spec (by simp) parse_output hs).2 b c h

/-! ## From names to cases -/

open Problem (Rec Id Entry Files)

/-- `int()` accepts every sequence of decimal digits. -/
def ReadsDigits (u : Chars) (int : String → Option Int) : Prop :=
  ∀ n : Str, n ≠ [] → (∀ c ∈ n, u.digit c = true) → ∃ k, int (String.ofList n) = some k

variable {P : Type} {int : String → Option Int} {files : List String} {points : P}

theorem guess_eq : guess u int (some files) points =
    some (Problem.matchTestCases int files (default u inputPattern) (default u outputPattern) fun _ => some points) := by
  have h1 : default u inputPattern = matches? u (wholeRe ['i', 'n']) := by funext f; rw [default, parse_input]
  have h2 : default u outputPattern = matches? u (wholeRe ['o', 'u', 't']) := by funext f; rw [default, parse_output]
  simp only [guess, parse_input, parse_output, h1, h2]

/-- The records of an archive under the default patterns. -/
def recs (u : Chars) (int : String → Option Int) (files : List String) : List Rec :=
  Problem.records int files (default u inputPattern) (default u outputPattern)

/-- The number as an id, for a test file with the marker. -/
theorem parse_spec (hr : ReadsDigits u int) {text m : Str} (hm : m ≠ []) (hp : parse text = some (wholeRe m)) {f : String}
    (hs : OneLine f.toList) {g : Option Id × Option Id} (h : Problem.parsePosition int (default u text) f = some g) :
    Taken u m f.toList ∧ (∃ n k, CaseNo u f.toList n ∧ int (String.ofList n) = some k ∧ g.2 = some (.int k)) ∧
      ((∃ n k, BatchNo u f.toList n ∧ int (String.ofList n) = some k ∧ g.1 = some (.int k)) ∨ g.1 = none) := by
  obtain ⟨⟨b, c⟩, hx, rfl⟩ := Option.map_eq_some_iff.1 h
  obtain ⟨hT, hN⟩ := default_spec (u := u) hm hp hs
  obtain ⟨⟨n, hn, rfl⟩, hb⟩ := hN b c hx
  refine ⟨hT.1 (by rw [hx]; rfl), ?_, ?_⟩
  · obtain ⟨pre, post, hl⟩ := id hn
    obtain ⟨k, hk⟩ := hr n hl.nonempty hl.digits
    exact ⟨n, k, hn, hk, by simp [Problem.tryMatchInt, hk]⟩
  · rcases hb with ⟨n, hn, rfl⟩ | ⟨-, rfl⟩
    · obtain ⟨pre, _, post, -, q, sep, -, h1, h2, -⟩ := id hn
      obtain ⟨k, hk⟩ := hr n h1 h2
      exact .inl ⟨n, k, hn, hk, by simp [Problem.tryMatchInt, hk]⟩
    · exact .inr rfl

theorem parse_of_taken {text m : Str} (hm : m ≠ []) (hp : parse text = some (wholeRe m)) {f : String}
    (hs : OneLine f.toList) (h : Taken u m f.toList) : ∃ g, Problem.parsePosition int (default u text) f = some g := by
  obtain ⟨x, hx⟩ := Option.isSome_iff_exists.1 ((default_spec (u := u) hm hp hs).1.2 h)
  exact ⟨_, by rw [Problem.parsePosition, hx]; rfl⟩

/-- The marker of a kind of file. -/
def marker : Problem.FileType → Str
  | .input => ['i', 'n']
  | .output => ['o', 'u', 't']

theorem mem_recs (hr : ReadsDigits u int) (hs : ∀ f ∈ files, OneLine f.toList) {r : Rec} (h : r ∈ recs u int files) :
    r.file ∈ files ∧ Taken u (marker r.type) r.file.toList ∧
      (∃ n k, CaseNo u r.file.toList n ∧ int (String.ofList n) = some k ∧ r.case = .int k) ∧
      (∀ b, r.batch = some b → ∃ k, b = .int k) := by
  have key : ∀ {t : Problem.FileType} {text : Str}, parse text = some (wholeRe (marker t)) →
      r ∈ Problem.recordsOf (Problem.parsePosition int (default u text)) t files → r.type = t ∧ r.file ∈ files ∧
      Taken u (marker t) r.file.toList ∧
      (∃ n k, CaseNo u r.file.toList n ∧ int (String.ofList n) = some k ∧ r.case = .int k) ∧
      (∀ b, r.batch = some b → ∃ k, b = .int k) := by
    intro t text hp h
    obtain ⟨f, hf, hx⟩ := List.mem_filterMap.1 h
    cases hg : Problem.parsePosition int (default u text) f with
    | none => rw [hg] at hx; cases hx
    | some g =>
      obtain ⟨h1, ⟨n, k, h2, h3, h4⟩, h5⟩ := parse_spec hr (by cases t <;> simp [marker]) hp (hs f hf) hg
      obtain ⟨b, c⟩ := g
      simp only at h4 h5
      subst h4
      rw [hg] at hx
      simp only [Option.some.injEq] at hx
      subst hx
      refine ⟨rfl, hf, h1, ⟨n, k, h2, h3, rfl⟩, ?_⟩
      intro b' hb'
      rcases h5 with ⟨_, k', -, -, h5⟩ | h5
      · simp only at hb'
        rw [h5] at hb'
        exact ⟨k', by simpa using hb'.symm⟩
      · simp only at hb'
        rw [h5] at hb'; cases hb'
  rcases List.mem_append.1 h with h | h
  · obtain ⟨h1, h2⟩ := key (t := .input) parse_input h
    rw [h1]; exact h2
  · obtain ⟨h1, h2⟩ := key (t := .output) parse_output h
    rw [h1]; exact h2

/-- **C102**: the judge rejects a problem with neither test cases nor an archive, and accepts every archive. -/
theorem C102_accepted (hr : ReadsDigits u int) (files : Option (List String))
    (hs : ∀ l, files = some l → ∀ f ∈ l, OneLine f.toList) :
    (guess u int files points = none ↔ files = none) ∧
    ∀ l, files = some l → ∃ es, guess u int files points = some (.ok es) := by
  constructor
  · cases files with
    | none => simp [guess]
    | some l => rw [guess_eq]; simp
  · rintro l rfl
    rw [guess_eq]
    have hs := hs l rfl
    obtain ⟨es, h⟩ := Problem.C26_accepted (points := fun _ => some points) (int := int) (files := l)
      (inPat := default u inputPattern) (outPat := default u outputPattern)
      (by
        intro f hf b
        constructor
        · intro h
          obtain ⟨-, ⟨n, k, -, -, h⟩, -⟩ := parse_spec hr (by simp) parse_input (hs f hf) h
          cases h
        · intro h
          obtain ⟨-, ⟨n, k, -, -, h⟩, -⟩ := parse_spec hr (by simp) parse_output (hs f hf) h
          cases h)
      (by
        left
        intro r h
        obtain ⟨-, -, ⟨n, k, -, -, h3⟩, h4⟩ := mem_recs hr hs h
        exact ⟨⟨k, h3⟩, h4⟩)
      (by simp)
    exact ⟨es, by rw [h]⟩

theorem lastFile_mem {rs : List Rec} {t : Problem.FileType} {p : Rec → Bool} {f : String}
    (h : Problem.lastFile rs t p = some f) : ∃ r ∈ rs, r.type = t ∧ p r = true ∧ r.file = f := by
  obtain ⟨r, hr, rfl⟩ := Option.map_eq_some_iff.1 h
  have := List.mem_filter.1 (List.mem_of_getLast? hr)
  simp only [Bool.and_eq_true, decide_eq_true_eq] at this
  exact ⟨r, this.1, this.2.1, this.2.2, rfl⟩

theorem lastFile_some {rs : List Rec} {t : Problem.FileType} {p : Rec → Bool} {r : Rec} (h1 : r ∈ rs) (h2 : r.type = t)
    (h3 : p r = true) : ∃ f, Problem.lastFile rs t p = some f := by
  unfold Problem.lastFile
  cases hl : (rs.filter fun r => decide (r.type = t) && p r).getLast? with
  | none =>
    have := List.getLast?_eq_none_iff.1 hl
    have hm : r ∈ rs.filter fun r => decide (r.type = t) && p r := List.mem_filter.2 ⟨h1, by simp [h2, h3]⟩
    rw [this] at hm
    simp at hm
  | some x => exact ⟨x.file, rfl⟩

theorem files_cell {es : List (Entry P)} (h : guess u int (some files) points = some (.ok es)) :
    (∀ e ∈ es, ∀ fs ∈ filesIn e, ∃ id c, fs = Problem.cell (recs u int files) id c) ∧
    ∀ r ∈ recs u int files, ∃ e ∈ es, Problem.cell (recs u int files) r.key r.case ∈ filesIn e := by
  rw [guess_eq, Option.some.injEq] at h
  obtain ⟨ids, -, h2, h3, h4⟩ := Problem.match_groups h
  constructor
  · intro e he fs hfs
    obtain ⟨k, hk, rfl⟩ := List.mem_iff_getElem.1 he
    obtain ⟨p, -, ⟨-, cs, -, -, h5⟩ | ⟨-, h5⟩⟩ := h4 k (by omega) hk
    · rw [h5, filesIn, List.mem_map] at hfs
      obtain ⟨c, -, rfl⟩ := hfs
      exact ⟨_, c, rfl⟩
    · rw [h5, filesIn, List.mem_singleton] at hfs
      exact ⟨_, _, hfs⟩
  · intro r hr
    obtain ⟨k, hk, hid⟩ := List.mem_iff_getElem.1 ((h2 r.key).2 ⟨r, hr, rfl⟩)
    refine ⟨es[k], List.getElem_mem (by omega), ?_⟩
    obtain ⟨p, -, ⟨hb, cs, -, hc, h5⟩ | ⟨hb, h5⟩⟩ := h4 k hk (by omega)
    · rw [h5, filesIn, List.mem_map]
      exact ⟨r.case, (hc _).2 ⟨r, hr, hid.symm, rfl⟩, by rw [hid]; rfl⟩
    · rw [h5, filesIn, List.mem_singleton]
      have : r.case = ids[k] := Problem.plain_group hb hr hid.symm
      rw [this, hid]; rfl

/-- **C102**: in every case that results, the input is a member of the archive named like an input file, the output a
member named like an output file, and the two have the same case number. -/
theorem C102_pairs (hr : ReadsDigits u int) (hs : ∀ f ∈ files, OneLine f.toList) {es : List (Entry P)}
    (h : guess u int (some files) points = some (.ok es)) {e : Entry P} (he : e ∈ es) {fs : Files} (hf : fs ∈ filesIn e) :
    (∀ f, fs.inp = some f → f ∈ files ∧ Taken u "in".toList f.toList) ∧
    (∀ g, fs.out = some g → g ∈ files ∧ Taken u "out".toList g.toList) ∧
    ∀ f g, fs.inp = some f → fs.out = some g → ∃ n m k, CaseNo u f.toList n ∧ CaseNo u g.toList m ∧
      int (String.ofList n) = some k ∧ int (String.ofList m) = some k := by
  obtain ⟨id, c, rfl⟩ := (files_cell h).1 e he fs hf
  have key : ∀ {t : Problem.FileType} {f : String},
      Problem.lastFile (recs u int files) t (fun r => decide (r.key = id) && decide (r.case = c)) = some f →
      f ∈ files ∧ Taken u (marker t) f.toList ∧
        ∃ n k, CaseNo u f.toList n ∧ int (String.ofList n) = some k ∧ c = .int k := by
    intro t f hl
    obtain ⟨r, h1, rfl, h3, rfl⟩ := lastFile_mem hl
    obtain ⟨g1, g2, ⟨n, k, g3, g4, g5⟩, -⟩ := mem_recs hr hs h1
    simp only [Bool.and_eq_true, decide_eq_true_eq] at h3
    exact ⟨g1, g2, n, k, g3, g4, by rw [← h3.2, g5]⟩
  refine ⟨fun f hf => ?_, fun f hf => ?_, fun f g hf hg => ?_⟩
  · exact ⟨(key (t := .input) hf).1, (key (t := .input) hf).2.1⟩
  · exact ⟨(key (t := .output) hf).1, (key (t := .output) hf).2.1⟩
  · obtain ⟨-, -, n, k, h1, h2, h3⟩ := key (t := .input) hf
    obtain ⟨-, -, m, k', g1, g2, g3⟩ := key (t := .output) hg
    rw [h3] at g3
    simp only [Problem.Id.int.injEq] at g3
    subst g3
    exact ⟨n, m, k, h1, g1, h2, g2⟩

/-- **C102**: for every member named like an input file there is a case with an input of that case number (the file
itself, or one with the same numbers later in the archive); likewise for outputs. -/
theorem C102_none_lost (hr : ReadsDigits u int) (hs : ∀ f ∈ files, OneLine f.toList) {es : List (Entry P)}
    (h : guess u int (some files) points = some (.ok es)) {f : String} (hf : f ∈ files) :
    (Taken u "in".toList f.toList → ∃ e ∈ es, ∃ fs ∈ filesIn e, ∃ g n m k, fs.inp = some g ∧
      CaseNo u f.toList n ∧ CaseNo u g.toList m ∧ int (String.ofList n) = some k ∧ int (String.ofList m) = some k) ∧
    (Taken u "out".toList f.toList → ∃ e ∈ es, ∃ fs ∈ filesIn e, ∃ g n m k, fs.out = some g ∧
      CaseNo u f.toList n ∧ CaseNo u g.toList m ∧ int (String.ofList n) = some k ∧ int (String.ofList m) = some k) := by
  have key : ∀ {t : Problem.FileType} {text : Str}, parse text = some (wholeRe (marker t)) →
      (∀ r, r ∈ Problem.recordsOf (Problem.parsePosition int (default u text)) t files → r ∈ recs u int files) →
      Taken u (marker t) f.toList → ∃ e ∈ es, ∃ fs ∈ filesIn e, ∃ g n m k,
      (match t with | .input => fs.inp | .output => fs.out) = some g ∧
      CaseNo u f.toList n ∧ CaseNo u g.toList m ∧ int (String.ofList n) = some k ∧ int (String.ofList m) = some k := by
    intro t text hp hsub hT
    have hm : marker t ≠ [] := by cases t <;> simp [marker]
    obtain ⟨⟨b, c⟩, hg⟩ := parse_of_taken (int := int) hm hp (hs f hf) hT
    obtain ⟨-, ⟨n, k, h1, h2, h3⟩, -⟩ := parse_spec hr hm hp (hs f hf) hg
    simp only at h3
    subst h3
    have hmem : (⟨t, f, b, .int k⟩ : Rec) ∈ recs u int files :=
      hsub _ (List.mem_filterMap.2 ⟨f, hf, by rw [hg]⟩)
    obtain ⟨e, he, hcell⟩ := (files_cell h).2 _ hmem
    obtain ⟨g, hl⟩ := lastFile_some (t := t)
      (p := fun r => decide (r.key = (⟨t, f, b, .int k⟩ : Rec).key) && decide (r.case = .int k)) hmem rfl (by simp)
    obtain ⟨r, r1, r2, r3, rfl⟩ := lastFile_mem hl
    obtain ⟨-, -, ⟨m, k', g1, g2, g3⟩, -⟩ := mem_recs hr hs r1
    simp only [Bool.and_eq_true, decide_eq_true_eq] at r3
    rw [r3.2] at g3
    simp only [Problem.Id.int.injEq] at g3
    subst g3
    refine ⟨e, he, _, hcell, r.file, n, m, k, ?_, h1, g1, h2, g2⟩
    cases t <;> exact hl
  exact ⟨key (t := .input) parse_input fun r h => List.mem_append.2 (.inl h),
    key (t := .output) parse_output fun r h => List.mem_append.2 (.inr h)⟩

/-- **C102 (partial)**: if no name has both markers, no input of a case is named like an output file, nor an output like an
input file. Missing for the full claim: names with both (`C102_both_fails`). -/
theorem C102_apart_partial (hr : ReadsDigits u int) (hs : ∀ f ∈ files, OneLine f.toList)
    (hb : ∀ f ∈ files, ¬ (Marked u "in".toList f.toList ∧ Marked u "out".toList f.toList)) {es : List (Entry P)}
    (h : guess u int (some files) points = some (.ok es)) {e : Entry P} (he : e ∈ es) {fs : Files} (hf : fs ∈ filesIn e) :
    (∀ f, fs.inp = some f → ¬ Marked u "out".toList f.toList) ∧ ∀ g, fs.out = some g → ¬ Marked u "in".toList g.toList := by
  obtain ⟨h1, h2, -⟩ := C102_pairs hr hs h he hf
  exact ⟨fun f hf ho => hb f (h1 f hf).1 ⟨(h1 f hf).2.1, ho⟩, fun g hg hi => hb g (h2 g hg).1 ⟨hi, (h2 g hg).2.1⟩⟩

/-! ## Names made by a scheme -/

/-- A marker at the end, after a dot. -/
theorem same_refl (hu : Sane u) : ∀ s : Str, Same u s s
  | [] => .nil
  | c :: s => .cons (hu.refl c) (same_refl hu s)

theorem marker_plain (hu : Sane u) {m : Str} (hm : m = ['i', 'n'] ∨ m = ['o', 'u', 't']) :
    ∀ c ∈ '.' :: m, u.digit c = false ∧ u.space c = false ∧ c ≠ '\n' := by
  intro c hc
  have h : c ∈ ['.', 'i', 'n', 'o', 'u', 't'] := by rcases hm with rfl | rfl <;> simp_all <;> grind
  refine ⟨(hu.plain c h).1, (hu.plain c h).2, ?_⟩
  rintro rfl
  simp at h

theorem oneLine_digits (hu : Sane u) {n : Str} (h : ∀ c ∈ n, u.digit c = true) : OneLine n := by
  intro hn
  have := h _ hn
  rw [hu.newline] at this
  cases this

/-- **C102**: files named `prefix.B.C.in` and `prefix.B.C.out`, whatever the prefix, are the input and the output of case
`C` of batch `B`; also without prefix, `B.C.in`. -/
theorem C102_scheme (hu : Sane u) {p b c : Str} (hp : OneLine p)
    (hq : p = [] ∨ p.getLast? = some '.') (hb : b ≠ []) (hbd : ∀ x ∈ b, u.digit x = true)
    (hc : c ≠ []) (hcd : ∀ x ∈ c, u.digit x = true) :
    default u inputPattern (String.ofList (p ++ b ++ '.' :: c ++ ".in".toList)) =
      some (some (String.ofList b), some (String.ofList c)) ∧
    default u outputPattern (String.ofList (p ++ b ++ '.' :: c ++ ".out".toList)) =
      some (some (String.ofList b), some (String.ofList c)) := by
  have key : ∀ {text m : Str}, (m = ['i', 'n'] ∨ m = ['o', 'u', 't']) → parse text = some (wholeRe m) →
      default u text (String.ofList (p ++ b ++ '.' :: c ++ '.' :: m)) =
      some (some (String.ofList b), some (String.ofList c)) := by
    intro text m hm ht
    have hm0 : m ≠ [] := by rcases hm with rfl | rfl <;> simp
    have hmp := marker_plain hu hm
    have hdot := hu.plain '.' (by simp)
    have hL : Last u (p ++ b ++ '.' :: c ++ '.' :: m) (p ++ b ++ ['.']) c ('.' :: m) :=
      ⟨by simp, hc, hcd, by intro x hx; simp at hx; subst hx; exact hdot.1, fun x hx => (hmp x hx).1⟩
    have hB : Before u (p ++ b ++ ['.']) b := by
      refine ⟨p, ['.'], rfl, hb, hbd, ?_, by simp, ?_⟩
      · intro x hx
        rcases hq with rfl | hq
        · simp at hx
        · rw [hq] at hx; cases hx; exact hu.dot
      · intro x hx; simp at hx; subst hx; exact hdot
    have ho : OneLine (String.ofList (p ++ b ++ '.' :: c ++ '.' :: m)).toList := by
      rw [String.toList_ofList]
      have h1 := oneLine_digits hu hbd
      have h2 := oneLine_digits hu hcd
      have h3 : '\n' ∉ m := fun h => (hmp '\n' (by simp [h])).2.2 rfl
      simp only [OneLine, List.mem_append, List.mem_cons, not_or] at *
      exact ⟨⟨⟨hp, h1⟩, by decide, h2⟩, by decide, h3⟩
    obtain ⟨hT, hN⟩ := default_spec (u := u) hm0 ht ho
    rw [String.toList_ofList] at hT hN
    have hs := hT.2 ⟨.inr ⟨p ++ b ++ '.' :: c, '.' :: m, [], by simp, same_refl hu _⟩, _, _, _, hL,
      fun x hx => (hmp x hx).2.1⟩
    obtain ⟨⟨b', c'⟩, hg⟩ := Option.isSome_iff_exists.1 hs
    obtain ⟨⟨n, hn, rfl⟩, h⟩ := hN b' c' hg
    have e1 : n = c := (C102_numbers_unique hu).1 hn ⟨_, _, hL⟩
    have hBN : BatchNo u (p ++ b ++ '.' :: c ++ '.' :: m) b := ⟨_, _, _, hL, hB⟩
    rcases h with ⟨n', hn', rfl⟩ | ⟨hno, -⟩
    · have e2 : n' = b := (C102_numbers_unique hu).2 hn' hBN
      rw [hg, e1, e2]
    · exact absurd ⟨b, hBN⟩ hno
  exact ⟨key (.inl rfl) parse_input, key (.inr rfl) parse_output⟩

/-- **C102**: files named `prefix.C.in` and `prefix.C.out`, or `prefixC.in` and `prefixC.out`, with no digit in the prefix, are
the input and the output of case `C`, in no batch. -/
theorem C102_scheme_plain (hu : Sane u) {p c : Str} (hp : OneLine p) (hpd : ∀ x ∈ p, u.digit x = false)
    (hc : c ≠ []) (hcd : ∀ x ∈ c, u.digit x = true) :
    default u inputPattern (String.ofList (p ++ c ++ ".in".toList)) = some (none, some (String.ofList c)) ∧
    default u outputPattern (String.ofList (p ++ c ++ ".out".toList)) = some (none, some (String.ofList c)) := by
  have key : ∀ {text m : Str}, (m = ['i', 'n'] ∨ m = ['o', 'u', 't']) → parse text = some (wholeRe m) →
      default u text (String.ofList (p ++ c ++ '.' :: m)) = some (none, some (String.ofList c)) := by
    intro text m hm ht
    have hm0 : m ≠ [] := by rcases hm with rfl | rfl <;> simp
    have hmp := marker_plain hu hm
    have hL : Last u (p ++ c ++ '.' :: m) p c ('.' :: m) :=
      ⟨rfl, hc, hcd, fun x hx => hpd x (List.mem_of_getLast? hx), fun x hx => (hmp x hx).1⟩
    have ho : OneLine (String.ofList (p ++ c ++ '.' :: m)).toList := by
      rw [String.toList_ofList]
      have h2 := oneLine_digits hu hcd
      have h3 : '\n' ∉ m := fun h => (hmp '\n' (by simp [h])).2.2 rfl
      simp only [OneLine, List.mem_append, List.mem_cons, not_or] at *
      exact ⟨⟨hp, h2⟩, by decide, h3⟩
    obtain ⟨hT, hN⟩ := default_spec (u := u) hm0 ht ho
    rw [String.toList_ofList] at hT hN
    have hs := hT.2 ⟨.inr ⟨p ++ c, '.' :: m, [], by simp, same_refl hu _⟩, _, _, _, hL, fun x hx => (hmp x hx).2.1⟩
    obtain ⟨⟨b', c'⟩, hg⟩ := Option.isSome_iff_exists.1 hs
    obtain ⟨⟨n, hn, rfl⟩, h⟩ := hN b' c' hg
    have e1 : n = c := (C102_numbers_unique hu).1 hn ⟨_, _, hL⟩
    rcases h with ⟨n', ⟨pre, _, post, hL', q, sep, e, h1, h2, -⟩, rfl⟩ | ⟨-, rfl⟩
    · exfalso
      rw [← (last_unique hL hL').1] at e
      obtain ⟨x, hx⟩ := List.exists_mem_of_ne_nil _ h1
      have := hpd x (by rw [e]; simp [hx])
      rw [h2 x hx] at this
      cases this
    · rw [hg, e1]
  exact ⟨key (.inl rfl) parse_input, key (.inr rfl) parse_output⟩

/-! ## Concrete archives -/

/-- ASCII. -/
def ascii : Chars where
  digit := Char.isDigit
  space := Char.isWhitespace
  word c := c.isAlphanum || c == '_'
  same a b := a.toLower == b.toLower

theorem ascii_sane : Sane ascii where
  digit_word c h := by
    simp only [ascii, Char.isAlphanum, Bool.or_eq_true] at *
    exact .inl (.inr h)
  dot := by decide
  refl c := by simp [ascii]
  plain := by decide
  newline := by decide

/-- Decimal numbers. -/
def readDec (s : String) : Option Int := some (s.toList.foldl (fun n c => 10 * n + (c.toNat - 48)) 0)

theorem readDec_reads : ReadsDigits ascii readDec := fun _ _ _ => ⟨_, rfl⟩

/-- Names of the usual kinds, and one that is taken for nothing. -/
example : ["aplusb.1.in", "aplusb.2.3.IN", "input/07.txt", "1/2.in", "sub1/2.in", "a.1 (old).in", "notes.1"].map
      (default ascii inputPattern) =
    [some (none, some "1"), some (some "2", some "3"), some (none, some "07"), some (some "1", some "2"),
      some (none, some "2"), none, none] := by decide +kernel

/-- A batch and a plain case. -/
example : guess ascii readDec (some ["a.2.in", "a.2.out", "a.10.2.in", "a.10.1.in", "a.10.1.out", "a.10.2.out"]) 5 =
    some (.ok [.single ⟨some "a.2.in", some "a.2.out"⟩ 5,
      .batched [⟨some "a.10.1.in", some "a.10.1.out"⟩, ⟨some "a.10.2.in", some "a.10.2.out"⟩] 5]) := by
  rw [guess_eq]; decide +kernel

/-- The archive of the repository's own test (dmoj/tests/test_problem.py:15-60), with the result expected there. -/
example : guess ascii readDec (some ["s2.1-1.in", "s2.1-1.out", "s2.1.2.in", "s2.1.2.out", "s3.4.in", "s3.4.out", "5.in", "5.OUT",
      "6-1.in", "6-1.OUT", "6.2.in", "6.2.OUT", "foo/a.b.c.6.3.in", "foo/a.b.c.6.3.OUT", "bar.in.7", "bar.out.7",
      "INPUT8.txt", "OUTPUT8.txt", ".DS_Store"]) 1 =
    some (.ok [.batched [⟨some "s2.1-1.in", some "s2.1-1.out"⟩, ⟨some "s2.1.2.in", some "s2.1.2.out"⟩] 1,
      .single ⟨some "s3.4.in", some "s3.4.out"⟩ 1,
      .single ⟨some "5.in", some "5.OUT"⟩ 1,
      .batched [⟨some "6-1.in", some "6-1.OUT"⟩, ⟨some "6.2.in", some "6.2.OUT"⟩,
        ⟨some "foo/a.b.c.6.3.in", some "foo/a.b.c.6.3.OUT"⟩] 1,
      .single ⟨some "bar.in.7", some "bar.out.7"⟩ 1,
      .single ⟨some "INPUT8.txt", some "OUTPUT8.txt"⟩ 1]) := by
  rw [guess_eq]; decide +kernel

/-- The hypotheses of `C102_scheme` are met. -/
example : default ascii inputPattern "aplusb.12.3.in" = some (some "12", some "3") :=
  (C102_scheme (u := ascii) (p := "aplusb.".toList) (b := "12".toList) (c := "3".toList) ascii_sane (by decide)
    (.inr (by decide)) (by decide) (by decide) (by decide) (by decide)).1

/-- **C102 fails** for problems whose name begins with `in`: of `intervals.1.in` and `intervals.1.out` both count as input,
the later one is taken, and submissions are given the expected output to read. -/
theorem C102_both_fails : ∃ (u : Chars) (int : String → Option Int) (files : List String) (es : List (Entry Nat)),
    Sane u ∧ ReadsDigits u int ∧ (∀ f ∈ files, OneLine f.toList) ∧
    files = ["intervals.1.in", "intervals.1.out"] ∧ guess u int (some files) 1 = some (.ok es) ∧
    es = [.single ⟨some "intervals.1.out", some "intervals.1.out"⟩ 1] :=
  ⟨ascii, readDec, _, _, ascii_sane, readDec_reads, by decide, rfl, by rw [guess_eq]; decide +kernel, rfl⟩

/-- **C102 fails** for batches in directories whose names end in a number after a letter: both files of the first directory
are dropped without a complaint, and its batch is not tested. -/
theorem C102_folders_fails : ∃ (u : Chars) (int : String → Option Int) (files : List String) (es : List (Entry Nat)),
    Sane u ∧ ReadsDigits u int ∧ (∀ f ∈ files, OneLine f.toList) ∧
    files = ["batch1/1.in", "batch1/1.out", "batch2/1.in", "batch2/1.out"] ∧ guess u int (some files) 1 = some (.ok es) ∧
    es = [.single ⟨some "batch2/1.in", some "batch2/1.out"⟩ 1] :=
  ⟨ascii, readDec, _, _, ascii_sane, readDec_reads, by decide, rfl, by rw [guess_eq]; decide +kernel, rfl⟩

/-- The hypotheses of the theorems about archives are met. -/
example : ∃ es, guess ascii readDec (some ["a.2.in", "a.2.out"]) 5 = some (.ok es) :=
  (C102_accepted readDec_reads (some ["a.2.in", "a.2.out"]) (by rintro l ⟨⟩; decide)).2 _ rfl

end Verif.Names
