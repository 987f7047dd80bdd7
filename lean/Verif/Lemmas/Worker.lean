import Verif.Spec.Worker
import Mathlib.Data.List.Basic
import Mathlib.Tactic.ByContra

/-! # Lemmas about the grading loop -/

namespace Verif.Worker
open Verif Verif.Spec Verif.Result

/-! ## Grouping -/

theorem groupBy_cons_none (c : TestCase) (L) :
    (∃ cs gs, groupBy L = (none, cs) :: gs ∧ groupBy ((none, c) :: L) = (none, c :: cs) :: gs) ∨
    ((∀ cs gs, groupBy L ≠ (none, cs) :: gs) ∧ groupBy ((none, c) :: L) = (none, [c]) :: groupBy L) := by
  rw [groupBy]
  cases h : groupBy L with
  | nil => right; simp
  | cons g gs =>
    obtain ⟨k, cs⟩ := g
    cases k with
    | none => left; exact ⟨cs, gs, rfl, by simp⟩
    | some m => right; simp

theorem groupBy_head_key {L : List (Option Nat × TestCase)} {k cs gs}
    (h : groupBy L = (k, cs) :: gs) : ∃ c L', L = (k, c) :: L' := by
  cases L with
  | nil => simp [groupBy] at h
  | cons x L =>
    obtain ⟨k', c⟩ := x
    rw [groupBy] at h
    cases hg : groupBy L with
    | nil => rw [hg] at h; simp at h; exact ⟨c, L, by rw [h.1.1]⟩
    | cons g gs' =>
      obtain ⟨k2, cs2⟩ := g
      rw [hg] at h
      dsimp only at h
      split at h <;> (simp at h; exact ⟨c, L, by rw [h.1.1]⟩)

theorem groupBy_block (k : Option Nat) (cs : List TestCase) (L : List (Option Nat × TestCase))
    (hne : cs ≠ []) (hL : ∀ c L', L ≠ (k, c) :: L') :
    groupBy (cs.map (fun c => (k, c)) ++ L) = (k, cs) :: groupBy L := by
  induction cs with
  | nil => exact absurd rfl hne
  | cons c cs ih =>
    cases cs with
    | nil =>
      simp only [List.map_cons, List.map_nil, List.cons_append, List.nil_append]
      rw [groupBy]
      cases hg : groupBy L with
      | nil => rfl
      | cons g gs =>
        obtain ⟨k2, cs2⟩ := g
        have : k ≠ k2 := by
          intro h; subst h
          obtain ⟨c', L', hl⟩ := groupBy_head_key hg
          exact hL c' L' hl
        simp [this]
    | cons c' cs =>
      rw [List.map_cons, List.cons_append, groupBy, ih (by simp)]
      simp

theorem flatten_keys {n : Nat} {items : List Item} {k : Nat} {c : TestCase}
    (h : (some k, c) ∈ flatten n items) : n < k := by
  induction items generalizing n with
  | nil => simp [flatten] at h
  | cons it items ih =>
    cases it with
    | one c' => simp only [flatten, List.mem_cons, Prod.mk.injEq, reduceCtorEq, false_and, false_or] at h; exact ih h
    | batch m cs =>
      simp only [flatten, List.mem_append, List.mem_map, Prod.mk.injEq, Option.some.injEq] at h
      rcases h with ⟨_, _, h, _⟩ | h
      · omega
      · have := ih h; omega

theorem groupBy_flatten_batch (n m : Nat) (cs : List TestCase) (items : List Item) (hne : cs ≠ []) :
    groupBy (flatten n (.batch m cs :: items)) =
      (some (n + 1), cs) :: groupBy (flatten (n + 1) items) := by
  rw [flatten]
  apply groupBy_block _ _ _ hne
  intro c L' h
  have : (some (n + 1), c) ∈ flatten (n + 1) items := by rw [h]; simp
  have := flatten_keys this
  omega

theorem flatten_batch_nil (n m : Nat) (items : List Item) :
    flatten n (.batch m [] :: items) = flatten (n + 1) items := by simp [flatten]

/-- The flat list of cases of groups. -/
def ungroup (gs : List (Option Nat × List TestCase)) : List (Option Nat × TestCase) :=
  gs.flatMap (fun g => g.2.map (fun c => (g.1, c)))

theorem ungroup_groupBy (L) : ungroup (groupBy L) = L := by
  induction L with
  | nil => rfl
  | cons x L ih =>
    obtain ⟨k, c⟩ := x
    rw [groupBy]
    cases hg : groupBy L with
    | nil => rw [hg] at ih; simp [ungroup] at ih ⊢; exact ih
    | cons g gs =>
      obtain ⟨k2, cs2⟩ := g
      rw [hg] at ih
      dsimp only
      split
      · rename_i h; subst h
        simp [ungroup] at ih ⊢; exact ih
      · simp [ungroup] at ih ⊢; exact ih

/-- Groups as produced by the flattening: batch keys are fresh and positive. -/
def GoodGroups (n : Nat) (gs : List (Option Nat × List TestCase)) : Prop :=
  gs.Pairwise (fun x y => y.1 = none ∨ x.1 ≠ y.1) ∧ ∀ g ∈ gs, ∀ k, g.1 = some k → n < k

theorem goodGroups (n : Nat) (items : List Item) : GoodGroups n (groupBy (flatten n items)) := by
  induction items generalizing n with
  | nil => simp [flatten, groupBy, GoodGroups]
  | cons it items ih =>
    cases it with
    | one c =>
      rw [flatten]
      obtain ⟨ih1, ih2⟩ := ih n
      rcases groupBy_cons_none c (flatten n items) with ⟨cs, gs, h1, h2⟩ | ⟨_, h2⟩
      · rw [h1] at ih1 ih2
        rw [h2]
        refine ⟨?_, ?_⟩
        · rw [List.pairwise_cons] at ih1 ⊢; exact ih1
        · intro g hg k hk
          rcases List.mem_cons.1 hg with rfl | hg
          · simp at hk
          · exact ih2 g (List.mem_cons_of_mem _ hg) k hk
      · rw [h2]
        refine ⟨?_, ?_⟩
        · rw [List.pairwise_cons]
          refine ⟨?_, ih1⟩
          intro g _
          cases g.1 <;> simp
        · intro g hg k hk
          rcases List.mem_cons.1 hg with rfl | hg
          · simp at hk
          · exact ih2 g hg k hk
    | batch m cs =>
      obtain ⟨ih1, ih2⟩ := ih (n + 1)
      by_cases hcs : cs = []
      · subst hcs
        rw [flatten_batch_nil]
        exact ⟨ih1, fun g hg k hk => by have := ih2 g hg k hk; omega⟩
      · rw [groupBy_flatten_batch n m cs items hcs]
        refine ⟨?_, ?_⟩
        · rw [List.pairwise_cons]
          refine ⟨?_, ih1⟩
          intro g hg
          right
          intro heq
          have := ih2 g hg (n + 1) heq.symm
          omega
        · intro g hg k hk
          rcases List.mem_cons.1 hg with rfl | hg
          · simp at hk; omega
          · have := ih2 g hg k hk; omega

/-! ## Layout -/

/-- Marks of groups. -/
def groupMarks : Nat → List (Option Nat × List TestCase) → List Mark
  | _, [] => []
  | i, (none, cs) :: gs => caseMarks none i cs.length ++ groupMarks (i + cs.length) gs
  | i, (some n, cs) :: gs =>
    .batchBegin n :: (caseMarks (some n) i cs.length ++ .batchEnd n :: groupMarks (i + cs.length) gs)

theorem caseMarks_succ (bn : Option Nat) (i k : Nat) :
    caseMarks bn i (k + 1) = .case bn (i + 1) :: caseMarks bn (i + 1) k := by
  unfold caseMarks
  rw [List.range_succ_eq_map]
  simp only [List.map_cons, List.map_map, Nat.add_zero]
  congr 1
  apply List.map_congr_left
  intro d _
  simp only [Function.comp]
  congr 1
  omega

theorem groupMarks_layout (n i : Nat) (items : List Item) :
    groupMarks i (groupBy (flatten n items)) = layout n i items := by
  induction items generalizing n i with
  | nil => rfl
  | cons it items ih =>
    cases it with
    | one c =>
      rw [flatten, layout, ← ih]
      rcases groupBy_cons_none c (flatten n items) with ⟨cs, gs, h1, h2⟩ | ⟨_, h2⟩
      · rw [h1, h2, groupMarks, groupMarks, List.length_cons, caseMarks_succ, List.cons_append]
        congr 3; omega
      · rw [h2, groupMarks]
        simp [caseMarks]
    | batch m cs =>
      rw [layout, ← ih]
      by_cases hcs : cs = []
      · subst hcs; rw [flatten_batch_nil]; simp
      · rw [groupBy_flatten_batch n m cs items hcs, groupMarks]
        simp [hcs]

/-- How the loops change the marks. -/
def CtlMarks (full : List Mark) (acts0 : List Act) (k : Nat) : Ctl → Prop
  | .next s => marks s.acts = marks acts0 ++ full ∧ s.caseNo = k
  | .stop a => ∃ p, p <+: full ∧ p ≠ full ∧
      (marks a = marks acts0 ++ p ∨ marks a = marks acts0 ++ p ++ [.abort])

theorem marks_append (a c : List Act) : marks (a ++ c) = marks a ++ marks c := by
  simp [marks, List.filterMap_append]

theorem caseLoop_marks (w : World) (bn : Option Nat) (cs : List TestCase) (s : St) :
    CtlMarks (caseMarks bn s.caseNo cs.length) s.acts (s.caseNo + cs.length) (caseLoop w bn cs s) := by
  induction cs generalizing s with
  | nil => simp [caseLoop, CtlMarks, caseMarks]
  | cons c cs ih =>
    rw [caseLoop, List.length_cons, caseMarks_succ]
    dsimp only
    have step : ∀ (s' : St) (r : Res) (l : List Act), s'.caseNo = s.caseNo + 1 →
        s'.acts = s.acts ++ l → marks l = [.case bn (s.caseNo + 1)] →
        CtlMarks (.case bn (s.caseNo + 1) :: caseMarks bn (s.caseNo + 1) cs.length) s.acts
          (s.caseNo + (cs.length + 1)) (caseLoop w bn cs s') := by
      intro s' r l h1 h2 h3
      have := ih s'
      rw [h1] at this
      cases hc : caseLoop w bn cs s' with
      | next s2 =>
        rw [hc] at this
        obtain ⟨ha, hb⟩ := this
        refine ⟨?_, by omega⟩
        rw [ha, h2, marks_append, h3]; simp
      | stop a =>
        rw [hc] at this
        obtain ⟨p, hp, hne, hor⟩ := this
        refine ⟨.case bn (s.caseNo + 1) :: p, by simpa using hp, by simpa using hne, ?_⟩
        rw [h2, marks_append, h3] at hor
        simpa using hor
    split
    · exact step _ ⟨0, 0⟩ _ rfl rfl rfl
    · split
      · refine ⟨[], by simp, by simp, Or.inl ?_⟩
        rw [marks_append]; simp [marks, mark]
      · rename_i r _
        split
        · refine ⟨[], by simp, by simp, Or.inr ?_⟩
          rw [marks_append]; simp only [List.append_nil]; rfl
        · exact step _ r _ rfl rfl rfl

theorem groupLoop_marks (w : World) (gs : List (Option Nat × List TestCase)) (s : St)
    (hpos : ∀ g ∈ gs, ∀ k, g.1 = some k → 0 < k) :
    CtlMarks (groupMarks s.caseNo gs) s.acts (s.caseNo + (ungroup gs).length) (groupLoop w gs s) := by
  induction gs generalizing s with
  | nil => simp [groupLoop, CtlMarks, groupMarks, ungroup]
  | cons g gs ih =>
    obtain ⟨bn, cs⟩ := g
    have ih := fun s => ih s (fun g hg => hpos g (List.mem_cons_of_mem _ hg))
    have hlen : (ungroup ((bn, cs) :: gs)).length = cs.length + (ungroup gs).length := by
      simp [ungroup]
    rw [hlen, groupLoop]
    cases bn with
    | none =>
      simp only [truthy, Bool.false_eq_true, if_false, groupMarks]
      have h1 := caseLoop_marks w none cs s
      cases hc : caseLoop w none cs s with
      | stop a =>
        rw [hc] at h1
        obtain ⟨p, hp, hne, hor⟩ := h1
        refine ⟨p, hp.trans (List.prefix_append _ _), ?_, hor⟩
        intro h
        have : p = caseMarks none s.caseNo cs.length := by
          apply hp.eq_of_length
          have h2 := congrArg List.length h
          have h3 := hp.length_le
          simp at h2; omega
        exact hne this
      | next s2 =>
        rw [hc] at h1
        obtain ⟨ha, hb⟩ := h1
        dsimp only
        have h2 := ih s2
        rw [hb] at h2
        cases hg : groupLoop w gs s2 with
        | next s3 =>
          rw [hg] at h2
          refine ⟨?_, by rw [h2.2]; omega⟩
          rw [h2.1, ha, List.append_assoc]
        | stop a =>
          rw [hg] at h2
          obtain ⟨p, hp, hne, hor⟩ := h2
          refine ⟨_ ++ p, (List.prefix_append_right_inj _).2 hp, by simpa using hne, ?_⟩
          rw [ha] at hor
          simpa [List.append_assoc] using hor
    | some n =>
      have hn : 0 < n := hpos (some n, cs) (by simp) n rfl
      have ht : truthy (some n) = true := by simp [truthy]; omega
      simp only [ht, if_true, groupMarks, Option.getD_some]
      have h1 := caseLoop_marks w (some n) cs
        { s with acts := s.acts ++ [.send (.batchBegin n)] }
      cases hc : caseLoop w (some n) cs { s with acts := s.acts ++ [.send (.batchBegin n)] } with
      | stop a =>
        rw [hc] at h1
        obtain ⟨p, hp, hne, hor⟩ := h1
        refine ⟨.batchBegin n :: p, ?_, ?_, ?_⟩
        · rw [List.cons_prefix_cons]
          exact ⟨rfl, hp.trans (List.prefix_append _ _)⟩
        · intro h
          have h2 := congrArg List.length h
          have h3 := hp.length_le
          simp at h2 h3; omega
        · rw [marks_append] at hor
          simpa [marks, mark] using hor
      | next s2 =>
        rw [hc] at h1
        obtain ⟨ha, hb⟩ := h1
        dsimp only
        dsimp only at ha hb
        have h2 := ih { s2 with acts := s2.acts ++ [.send (.batchEnd n)], sc := s2.sc && s2.enabled }
        dsimp only at h2
        generalize groupLoop w gs { s2 with acts := s2.acts ++ [.send (.batchEnd n)], sc := s2.sc && s2.enabled } = R at h2 ⊢
        rw [hb] at h2
        cases R with
        | next s3 =>
          refine ⟨?_, by rw [h2.2]; omega⟩
          rw [h2.1, marks_append, ha, marks_append]
          simp [marks, mark]
        | stop a =>
          obtain ⟨p, hp, hne, hor⟩ := h2
          refine ⟨.batchBegin n :: (caseMarks (some n) s.caseNo cs.length ++ .batchEnd n :: p), ?_, ?_, ?_⟩
          · rw [List.cons_prefix_cons]
            refine ⟨rfl, (List.prefix_append_right_inj _).2 ?_⟩
            rw [List.cons_prefix_cons]; exact ⟨rfl, hp⟩
          · simpa using hne
          · rw [marks_append, ha, marks_append] at hor
            simpa [List.append_assoc, marks, mark] using hor

theorem flatten_caseList (n : Nat) (items : List Item) :
    (flatten n items).map (fun x => (x.1, x.2.points)) = caseList n items := by
  induction items generalizing n with
  | nil => rfl
  | cons it items ih =>
    cases it with
    | one c => simp [flatten, caseList, ih]
    | batch m cs => simp [flatten, caseList, ih, Function.comp_def]

/-! ## Short-circuiting -/

/-- A failing result. -/
def WrongAt (w : World) (j : Nat) : Prop := ∃ r, w.grade j = some r ∧ r.flag.testBit 0 = true

/-- Case `j`, if it fails, cuts a case of batch `bn`. -/
def CutsBatch (req : Bool) (F : List (Option Nat × TestCase)) (j : Nat) (bn : Option Nat) : Prop :=
  req = true ∨ (∃ x, F[j - 1]? = some x ∧ x.2.points = 0) ∨
  (∃ x, F[j - 1]? = some x ∧ x.1 = bn ∧ bn ≠ none)

/-- Invariant about everything done up to case `k`. -/
structure Inv (w : World) (req : Bool) (F : List (Option Nat × TestCase)) (k : Nat) (acts : List Act) :
    Prop where
  range : ∀ n, Act.exec n ∈ acts → 1 ≤ n ∧ n ≤ k
  skip : ∀ n x, 1 ≤ n → n ≤ k → F[n - 1]? = some x →
    (Act.exec n ∈ acts ↔ ¬ ∃ j, j < n ∧ Act.exec j ∈ acts ∧ WrongAt w j ∧ CutsBatch req F j x.1)
  results : ∀ bn n r, Act.send (.result bn n r) ∈ acts →
    1 ≤ n ∧ n ≤ k ∧ (∃ x, F[n - 1]? = some x ∧ x.1 = bn) ∧
    ((Act.exec n ∈ acts ∧ w.grade n = some r ∧ w.aborted n = false) ∨ (Act.exec n ∉ acts ∧ r = ⟨SC, 0⟩))

/-- Invariant about the loop variables inside batch `cur`. -/
structure Vars (w : World) (req : Bool) (F : List (Option Nat × TestCase)) (cur : Option Nat) (s : St) :
    Prop where
  enabled : s.enabled = true ↔ req = true ∨
    ∃ j x, Act.exec j ∈ s.acts ∧ WrongAt w j ∧ F[j - 1]? = some x ∧ x.2.points = 0
  sc : s.sc = true ↔ ∃ j, Act.exec j ∈ s.acts ∧ WrongAt w j ∧ CutsBatch req F j cur

theorem wa_iff (f : Nat) : f &&& WA ≠ 0 ↔ f.testBit 0 = true := by
  rw [show WA = 1 from rfl, Nat.and_one_is_mod, Nat.testBit_zero]
  simp only [decide_eq_true_eq]
  omega

theorem Inv.extend_skip {w : World} {req : Bool} {F} {k : Nat} {acts l : List Act} {x}
    (h : Inv w req F k acts) (hx : F[k]? = some x)
    (hsc : ∃ j, Act.exec j ∈ acts ∧ WrongAt w j ∧ CutsBatch req F j x.1)
    (hl : l = [.send (.result x.1 (k + 1) ⟨SC, 0⟩)]) : Inv w req F (k + 1) (acts ++ l) := by
  subst hl
  have hex : ∀ n, Act.exec n ∈ acts ++ [.send (.result x.1 (k + 1) ⟨SC, 0⟩)] ↔ Act.exec n ∈ acts := by
    intro n; simp
  refine ⟨?_, ?_, ?_⟩
  · intro n hn
    rw [hex] at hn
    have := h.range n hn; omega
  · intro n y h1 h2 hy
    simp only [hex]
    by_cases hn : n = k + 1
    · subst hn
      simp only [Nat.add_sub_cancel] at hy
      rw [hx] at hy; cases hy
      constructor
      · intro he; have := h.range _ he; omega
      · intro hno
        exfalso; apply hno
        obtain ⟨j, hj, hw, hc⟩ := hsc
        exact ⟨j, by have := h.range j hj; omega, hj, hw, hc⟩
    · exact h.skip n y h1 (by omega) hy
  · intro bn n r hr
    simp only [List.mem_append, List.mem_cons, List.not_mem_nil, or_false] at hr
    rcases hr with hr | hr
    · obtain ⟨a, c, d, e⟩ := h.results bn n r hr
      refine ⟨a, by omega, d, ?_⟩
      rw [hex]; exact e
    · simp only [Act.send.injEq, Event.result.injEq] at hr
      obtain ⟨rfl, rfl, rfl⟩ := hr
      refine ⟨by omega, le_refl _, ⟨x, by simpa using hx, rfl⟩, Or.inr ⟨?_, rfl⟩⟩
      rw [hex]
      intro he; have := h.range _ he; omega

theorem Inv.extend_exec {w : World} {req : Bool} {F} {k : Nat} {acts l : List Act} {x}
    (h : Inv w req F k acts) (hx : F[k]? = some x)
    (hsc : ¬ ∃ j, Act.exec j ∈ acts ∧ WrongAt w j ∧ CutsBatch req F j x.1)
    (hl1 : ∀ n, Act.exec n ∈ l ↔ n = k + 1)
    (hl2 : ∀ bn n r, Act.send (.result bn n r) ∈ l →
      bn = x.1 ∧ n = k + 1 ∧ w.grade n = some r ∧ w.aborted n = false) :
    Inv w req F (k + 1) (acts ++ l) := by
  have hex : ∀ n, Act.exec n ∈ acts ++ l ↔ Act.exec n ∈ acts ∨ n = k + 1 := by
    intro n; rw [List.mem_append, hl1]
  refine ⟨?_, ?_, ?_⟩
  · intro n hn
    rw [hex] at hn
    rcases hn with hn | hn
    · have := h.range n hn; omega
    · omega
  · intro n y h1 h2 hy
    by_cases hn : n = k + 1
    · subst hn
      simp only [Nat.add_sub_cancel] at hy
      rw [hx] at hy; cases hy
      constructor
      · rintro _ ⟨j, hj, hje, hw, hc⟩
        rw [hex] at hje
        rcases hje with hje | hje
        · exact hsc ⟨j, hje, hw, hc⟩
        · omega
      · intro _; rw [hex]; right; rfl
    · rw [hex]
      have h3 := h.skip n y h1 (by omega) hy
      simp only [hn, or_false]
      rw [h3]
      apply not_congr
      constructor
      · rintro ⟨j, hj, hje, r⟩; exact ⟨j, hj, (hex j).2 (Or.inl hje), r⟩
      · rintro ⟨j, hj, hje, r⟩
        refine ⟨j, hj, ?_, r⟩
        rcases (hex j).1 hje with h | h
        · exact h
        · omega
  · intro bn n r hr
    rw [List.mem_append] at hr
    rcases hr with hr | hr
    · obtain ⟨a, c, d, e⟩ := h.results bn n r hr
      refine ⟨a, by omega, d, ?_⟩
      have hn : n ≠ k + 1 := by omega
      rw [hex]; simpa [hn] using e
    · obtain ⟨rfl, rfl, hg, ha⟩ := hl2 bn n r hr
      refine ⟨by omega, le_refl _, ⟨x, by simpa using hx, rfl⟩, Or.inl ⟨?_, hg, ha⟩⟩
      rw [hex]; right; rfl

/-- No execution so far was aborted or raised, and no abort event was sent. -/
def Quiet (w : World) (acts : List Act) : Prop :=
  (∀ n, Act.exec n ∈ acts → w.aborted n = false ∧ ∃ r, w.grade n = some r) ∧
  Act.send .gradingAborted ∉ acts

/-- Outcome of a loop in terms of the invariants; when it stops it does so by executing one more
case. -/
def CtlInv (w : World) (req : Bool) (F : List (Option Nat × TestCase)) (cur : Option Nat) (k : Nat) :
    Ctl → Prop
  | .next s => s.caseNo = k ∧ Inv w req F k s.acts ∧ Vars w req F cur s ∧ Quiet w s.acts
  | .stop a => ∃ k', k' ≤ k ∧ Inv w req F k' a ∧ ∃ a0,
      Quiet w a0 ∧
      (∀ n, Act.exec n ∈ a0 → n < k') ∧
      ((a = a0 ++ [.exec k'] ∧ w.grade k' = none) ∨
       (a = a0 ++ [.exec k', .send .gradingAborted] ∧ w.aborted k' = true ∧ ∃ r, w.grade k' = some r))

theorem caseLoop_inv (w : World) (req : Bool) (F : List (Option Nat × TestCase)) (bn : Option Nat)
    (cs : List TestCase) (s : St)
    (hF : ∀ i (h : i < cs.length), F[s.caseNo + i]? = some (bn, cs[i]))
    (hI : Inv w req F s.caseNo s.acts) (hV : Vars w req F bn s)
    (hex : Quiet w s.acts) :
    CtlInv w req F bn (s.caseNo + cs.length) (caseLoop w bn cs s) := by
  induction cs generalizing s with
  | nil => exact ⟨by simp, by simpa using hI, hV, hex⟩
  | cons c cs ih =>
    have hx : F[s.caseNo]? = some (bn, c) := hF 0 (by simp)
    have hF' : ∀ i (h : i < cs.length), F[s.caseNo + 1 + i]? = some (bn, cs[i]) := by
      intro i hi
      have := hF (i + 1) (by simp; omega)
      rw [show s.caseNo + 1 + i = s.caseNo + (i + 1) by omega]
      simpa using this
    have hlen : s.caseNo + (c :: cs).length = s.caseNo + 1 + cs.length := by simp; omega
    rw [caseLoop, hlen]
    dsimp only
    by_cases hsc : s.sc = true
    · rw [if_pos hsc]
      have hmem : ∀ n, Act.exec n ∈ s.acts ++ [.send (.result bn (s.caseNo + 1) ⟨SC, 0⟩)] ↔
          Act.exec n ∈ s.acts := by intro n; simp
      apply ih { s with acts := s.acts ++ [.send (.result bn (s.caseNo + 1) ⟨SC, 0⟩)],
                        caseNo := s.caseNo + 1 } hF'
      · exact hI.extend_skip hx (hV.sc.1 hsc) rfl
      · refine ⟨?_, ?_⟩
        · simp only [hmem]; exact hV.enabled
        · simp only [hmem]; exact hV.sc
      · refine ⟨fun n hn => ?_, by simpa using hex.2⟩
        rw [hmem] at hn; exact hex.1 n hn
    · rw [if_neg hsc]
      have hns := fun h => hsc (hV.sc.2 h)
      have hlt : ∀ n, Act.exec n ∈ s.acts → n < s.caseNo + 1 := fun n hn => by
        have := hI.range n hn; omega
      cases hg : w.grade (s.caseNo + 1) with
      | none =>
        refine ⟨s.caseNo + 1, by omega, ?_, s.acts, hex, hlt, Or.inl ⟨rfl, hg⟩⟩
        refine hI.extend_exec hx hns ?_ ?_ <;> simp
      | some r =>
        dsimp only
        by_cases hab : w.aborted (s.caseNo + 1) = true
        · rw [if_pos hab]
          refine ⟨s.caseNo + 1, by omega, ?_, s.acts, hex, hlt, Or.inr ⟨rfl, hab, r, hg⟩⟩
          refine hI.extend_exec hx hns ?_ ?_ <;> simp
        · rw [if_neg hab]
          have hab' : w.aborted (s.caseNo + 1) = false := by simpa using hab
          have hmem : ∀ n, Act.exec n ∈ s.acts ++ [.exec (s.caseNo + 1), .send (.result bn (s.caseNo + 1) r)] ↔
              Act.exec n ∈ s.acts ∨ n = s.caseNo + 1 := by intro n; simp
          have hw : WrongAt w (s.caseNo + 1) ↔ r.flag &&& WA ≠ 0 := by
            rw [wa_iff, WrongAt, hg]; simp
          apply ih { acts := s.acts ++ [.exec (s.caseNo + 1), .send (.result bn (s.caseNo + 1) r)],
                     caseNo := s.caseNo + 1,
                     sc := _, enabled := _ } hF'
          · refine hI.extend_exec hx hns ?_ ?_
            · intro n; simp
            · intro bn' n r' h
              simp at h
              obtain ⟨rfl, rfl, rfl⟩ := h
              exact ⟨rfl, rfl, hg, hab'⟩
          · have hen : (if decide (r.flag &&& WA ≠ 0) = true then s.enabled || decide (c.points = 0)
                else s.enabled) = true ↔ req = true ∨
                ∃ j x, (Act.exec j ∈ s.acts ∨ j = s.caseNo + 1) ∧ WrongAt w j ∧ F[j - 1]? = some x ∧
                  x.2.points = 0 := by
              have e1 : (∃ j x, (Act.exec j ∈ s.acts ∨ j = s.caseNo + 1) ∧ WrongAt w j ∧
                  F[j - 1]? = some x ∧ x.2.points = 0) ↔
                  (∃ j x, Act.exec j ∈ s.acts ∧ WrongAt w j ∧ F[j - 1]? = some x ∧ x.2.points = 0) ∨
                  (r.flag &&& WA ≠ 0 ∧ c.points = 0) := by
                constructor
                · rintro ⟨j, x, hj | rfl, h1, h2, h3⟩
                  · exact Or.inl ⟨j, x, hj, h1, h2, h3⟩
                  · right
                    simp only [Nat.add_sub_cancel] at h2
                    rw [hx] at h2; cases h2
                    exact ⟨hw.1 h1, h3⟩
                · rintro (⟨j, x, hj, h⟩ | ⟨h1, h2⟩)
                  · exact ⟨j, x, Or.inl hj, h⟩
                  · exact ⟨s.caseNo + 1, (bn, c), Or.inr rfl, hw.2 h1, by simpa using hx, h2⟩
              rw [e1, ← or_assoc, ← hV.enabled]
              by_cases hwa : r.flag &&& WA ≠ 0
              · simp [hwa]
              · simp [hwa]
            refine ⟨?_, ?_⟩
            · simp only [hmem]; exact hen
            · simp only [hmem]
              have hscf : s.sc = false := by simpa using hsc
              by_cases hwa : r.flag &&& WA ≠ 0
              · simp only [hwa, ne_eq, not_false_eq_true, decide_true, if_true] at hen ⊢
                rw [hscf, Bool.false_or, Bool.or_eq_true]
                constructor
                · rintro (h | h)
                  · refine ⟨s.caseNo + 1, Or.inr rfl, hw.2 hwa, Or.inr (Or.inr ⟨(bn, c), by simpa using hx, rfl, ?_⟩)⟩
                    intro hb; rw [hb] at h; simp at h
                  · rcases hen.1 h with h | ⟨j, x, hj, h1, h2, h3⟩
                    · exact ⟨s.caseNo + 1, Or.inr rfl, hw.2 hwa, Or.inl h⟩
                    · exact ⟨j, hj, h1, Or.inr (Or.inl ⟨x, h2, h3⟩)⟩
                · rintro ⟨j, hj | rfl, h1, h2⟩
                  · exact absurd ⟨j, hj, h1, h2⟩ hns
                  · rcases h2 with h2 | ⟨x, h2, h3⟩ | ⟨x, h2, h3, h4⟩
                    · right; exact hen.2 (Or.inl h2)
                    · right; exact hen.2 (Or.inr ⟨_, x, Or.inr rfl, h1, h2, h3⟩)
                    · left; cases bn <;> simp_all
              · simp only [hwa, decide_false, Bool.false_eq_true, if_false, hscf, false_iff]
                rintro ⟨j, hj | rfl, h1, h2⟩
                · exact hns ⟨j, hj, h1, h2⟩
                · exact hwa (hw.1 h1)
          · refine ⟨fun n hn => ?_, by simpa using hex.2⟩
            rw [hmem] at hn
            rcases hn with hn | rfl
            · exact hex.1 n hn
            · exact ⟨hab', r, hg⟩

theorem groupLoop_inv (w : World) (req : Bool) (F : List (Option Nat × TestCase))
    (done gs : List (Option Nat × List TestCase)) (s : St) (cur : Option Nat)
    (hF : F = ungroup (done ++ gs)) (hk : s.caseNo = (ungroup done).length)
    (hgood : GoodGroups 0 (done ++ gs))
    (hI : Inv w req F s.caseNo s.acts)
    (hcur : cur = none) (hV : Vars w req F cur s)
    (hex : Quiet w s.acts) :
    CtlInv w req F none F.length (groupLoop w gs s) := by
  induction gs generalizing done s with
  | nil =>
    subst hcur
    simp only [List.append_nil] at hF
    exact ⟨by rw [hF]; exact hk, by rw [hF, ← hk, ← hF]; exact hI, hV, hex⟩
  | cons g gs ih =>
    subst hcur
    obtain ⟨bn, cs⟩ := g
    have hung : ∀ a c, ungroup (a ++ c) = ungroup a ++ ungroup c := by
      intro a c; simp [ungroup]
    have hFsplit : F = ungroup done ++ (cs.map (fun c => (bn, c)) ++ ungroup gs) := by
      rw [hF, hung]; simp [ungroup]
    have hFi : ∀ i (h : i < cs.length), F[s.caseNo + i]? = some (bn, cs[i]) := by
      intro i hi
      rw [hFsplit, hk, List.getElem?_append_right (by omega)]
      rw [List.getElem?_append_left (by simp; omega)]
      simp [hi]
    have hFlen : s.caseNo + cs.length ≤ F.length := by
      rw [hFsplit, hk]; simp
    -- no executed case so far is in batch `bn`
    have hfresh : bn ≠ none → ∀ j x, Act.exec j ∈ s.acts → F[j - 1]? = some x → x.1 ≠ bn := by
      intro hb j x hj hx heq
      have hr := hI.range j hj
      rw [hFsplit, List.getElem?_append_left (by omega)] at hx
      have hmem : x ∈ ungroup done := List.mem_of_getElem? hx
      simp only [ungroup, List.mem_flatMap, List.mem_map] at hmem
      obtain ⟨g, hg, c, _, rfl⟩ := hmem
      have := hgood.1
      rw [List.pairwise_append] at this
      rcases this.2.2 g hg (bn, cs) (by simp) with h | h
      · exact hb h
      · exact h heq
    have hV' : ∀ s' : St, s'.sc = s.sc → s'.enabled = s.enabled →
        (∀ n, Act.exec n ∈ s'.acts ↔ Act.exec n ∈ s.acts) → Vars w req F bn s' := by
      intro s' h1 h2 h3
      refine ⟨by simp only [h2, h3]; exact hV.enabled, ?_⟩
      simp only [h1, h3]
      rw [hV.sc]
      constructor
      · rintro ⟨j, hj, hw, hc⟩
        refine ⟨j, hj, hw, ?_⟩
        rcases hc with hc | hc | ⟨_, _, _, hc⟩
        · exact Or.inl hc
        · exact Or.inr (Or.inl hc)
        · exact absurd rfl hc
      · rintro ⟨j, hj, hw, hc⟩
        refine ⟨j, hj, hw, ?_⟩
        rcases hc with hc | hc | ⟨x, hx, hxb, hb⟩
        · exact Or.inl hc
        · exact Or.inr (Or.inl hc)
        · exact absurd hxb (hfresh hb j x hj hx)
    have hdone : F = ungroup ((done ++ [(bn, cs)]) ++ gs) := by rw [hF]; simp
    have hk' : s.caseNo + cs.length = (ungroup (done ++ [(bn, cs)])).length := by
      rw [hung, hk]; simp [ungroup]
    have hgood' : GoodGroups 0 ((done ++ [(bn, cs)]) ++ gs) := by simpa using hgood
    rw [groupLoop]
    cases bn with
    | none =>
      simp only [truthy, Bool.false_eq_true, if_false]
      have h1 := caseLoop_inv w req F none cs s hFi hI hV hex
      cases hc : caseLoop w none cs s with
      | stop a =>
        rw [hc] at h1
        obtain ⟨k', hk1, h⟩ := h1
        exact ⟨k', by omega, h⟩
      | next s2 =>
        rw [hc] at h1
        obtain ⟨h2, h3, h4, h5⟩ := h1
        dsimp only
        exact ih _ s2 hdone (by omega) hgood' (by rw [h2]; exact h3) h4 h5
    | some n =>
      have hn : 0 < n := hgood.2 (some n, cs) (by simp) n rfl
      have ht : truthy (some n) = true := by simp [truthy]; omega
      simp only [ht, if_true, Option.getD_some]
      have hm1 : ∀ m, Act.exec m ∈ s.acts ++ [.send (.batchBegin n)] ↔ Act.exec m ∈ s.acts := by
        intro m; simp
      have inv_append : ∀ (acts : List Act) (e : Event) (k : Nat), Inv w req F k acts →
          (∀ bn n r, e ≠ .result bn n r) → Inv w req F k (acts ++ [.send e]) := by
        intro acts e k h he
        have hm : ∀ m, Act.exec m ∈ acts ++ [.send e] ↔ Act.exec m ∈ acts := by intro m; simp
        refine ⟨?_, ?_, ?_⟩
        · intro m; rw [hm]; exact h.range m
        · intro m; simp only [hm]; exact h.skip m
        · intro bn m r hr
          rw [hm]
          simp only [List.mem_append, List.mem_cons, List.not_mem_nil, or_false, Act.send.injEq] at hr
          rcases hr with hr | hr
          · exact h.results bn m r hr
          · exact absurd hr.symm (he bn m r)
      have h1 := caseLoop_inv w req F (some n) cs { s with acts := s.acts ++ [.send (.batchBegin n)] } hFi
        (inv_append _ _ _ hI (by simp)) (hV' _ rfl rfl hm1)
        ⟨fun m hm => hex.1 m ((hm1 m).1 hm), by simpa using hex.2⟩
      cases hc : caseLoop w (some n) cs { s with acts := s.acts ++ [.send (.batchBegin n)] } with
      | stop a =>
        rw [hc] at h1
        obtain ⟨k', hk1, h⟩ := h1
        exact ⟨k', by dsimp only at hk1; omega, h⟩
      | next s2 =>
        rw [hc] at h1
        obtain ⟨h2, h3, h4, h5⟩ := h1
        dsimp only at h2 h3 ⊢
        have hm2 : ∀ m, Act.exec m ∈ s2.acts ++ [.send (.batchEnd n)] ↔ Act.exec m ∈ s2.acts := by
          intro m; simp
        apply ih _ { s2 with acts := s2.acts ++ [.send (.batchEnd n)], sc := s2.sc && s2.enabled } hdone
        · dsimp only; omega
        · exact hgood'
        · dsimp only; rw [h2]; exact inv_append _ _ _ h3 (by simp)
        · refine ⟨?_, ?_⟩
          · simp only [hm2]; exact h4.enabled
          · simp only [hm2, Bool.and_eq_true]
            rw [h4.sc, h4.enabled]
            constructor
            · rintro ⟨⟨j, hj, hw, hcut⟩, hen⟩
              rcases hen with hen | ⟨i, x, hi, hwi, hx, hp⟩
              · exact ⟨j, hj, hw, Or.inl hen⟩
              · exact ⟨i, hi, hwi, Or.inr (Or.inl ⟨x, hx, hp⟩)⟩
            · rintro ⟨j, hj, hw, hcut⟩
              rcases hcut with hcut | ⟨x, hx, hp⟩ | ⟨_, _, _, hb⟩
              · exact ⟨⟨j, hj, hw, Or.inl hcut⟩, Or.inl hcut⟩
              · exact ⟨⟨j, hj, hw, Or.inr (Or.inl ⟨x, hx, hp⟩)⟩, Or.inr ⟨j, x, hj, hw, hx, hp⟩⟩
              · exact absurd rfl hb
        · exact ⟨fun m hm => h5.1 m ((hm2 m).1 hm), by simpa using h5.2⟩

theorem start_inv (w : World) (req : Bool) (F) (acts : List Act)
    (h : ∀ n, Act.exec n ∉ acts) (h' : ∀ bn n r, Act.send (.result bn n r) ∉ acts) :
    Inv w req F 0 acts ∧ Vars w req F none ⟨acts, 0, false, req⟩ := by
  refine ⟨⟨fun n hn => absurd hn (h n), fun n _ h1 h2 => by omega, fun bn n r hr => absurd hr (h' bn n r)⟩,
    ⟨?_, ?_⟩⟩
  · simp [h]
  · simp [h]

theorem grade_ctl (w : World) (req warning pretested : Bool) (items : List Item) :
    ∃ (acts0 : List Act) (c : Ctl),
      (∀ n, Act.exec n ∉ acts0) ∧ marks acts0 = [.begin] ∧ (∀ bn n r, Act.send (.result bn n r) ∉ acts0) ∧
      CtlMarks (layout 0 0 items) acts0 (flatten 0 items).length c ∧
      CtlInv w req (flatten 0 items) none (flatten 0 items).length c ∧
      gradeCases w req (.ok warning pretested items) =
        (match c with | .stop a => a | .next s => s.acts ++ [.send .gradingEnd]) := by
  refine ⟨(if warning then [.send .compileMessage] else []) ++ [.send (.gradingBegin pretested)],
    groupLoop w (groupBy (flatten 0 items))
      ⟨(if warning then [.send .compileMessage] else []) ++ [.send (.gradingBegin pretested)], 0, false, req⟩,
    ?_, ?_, ?_, ?_, ?_, rfl⟩
  · intro n; cases warning <;> simp
  · cases warning <;> rfl
  · intro bn n r; cases warning <;> simp
  · have h := groupLoop_marks w (groupBy (flatten 0 items))
      ⟨(if warning then [.send .compileMessage] else []) ++ [.send (.gradingBegin pretested)], 0, false, req⟩
      (goodGroups 0 items).2
    rw [groupMarks_layout, ungroup_groupBy] at h
    simpa using h
  · have hs := start_inv w req (flatten 0 items)
      ((if warning then [.send .compileMessage] else []) ++ [.send (.gradingBegin pretested)])
      (by intro n; cases warning <;> simp) (by intro bn n r; cases warning <;> simp)
    exact groupLoop_inv w req (flatten 0 items) [] (groupBy (flatten 0 items)) _ none
      (by simp [ungroup_groupBy]) rfl (by simpa using goodGroups 0 items) hs.1 rfl hs.2
      ⟨by intro n hn; exfalso; revert hn; cases warning <;> simp, by cases warning <;> simp⟩

end Verif.Worker
