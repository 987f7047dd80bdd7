import Verif.Spec.Cases
import Mathlib.Tactic.Tauto
import Mathlib.Tactic.Push

/-! # Helper lemmas for test case discovery -/

namespace Verif.Problem

/-- Group of a record. -/
def Rec.key (r : Rec) : Id := groupKey r.batch r.case

/-- Adding one record. -/
def addRec (s : Groups × List Id) (r : Rec) : Groups × List Id :=
  (upd [] (upd ⟨none, none⟩ (Files.set r.type r.file) r.case) r.key s.1,
    match r.batch with
    | some b => b :: s.2
    | none => s.2)

theorem pass_err (parse : String → Option (Option Id × Option Id)) (t : FileType) (files : List String)
    (h : ∃ f ∈ files, ∃ b, parse f = some (b, none)) : ∀ s, pass parse t files s = .error .noCase := by
  induction files with
  | nil => simp at h
  | cons f fs ih =>
    rintro ⟨g, bs⟩
    unfold pass
    rcases hp : parse f with _ | ⟨b, _ | c⟩
    · obtain ⟨f', hf', b, hb⟩ := h
      refine ih ⟨f', ?_, b, hb⟩ _
      rcases List.mem_cons.1 hf' with rfl | h
      · rw [hp] at hb; cases hb
      · exact h
    · rfl
    · obtain ⟨f', hf', b, hb⟩ := h
      refine ih ⟨f', ?_, b, hb⟩ _
      rcases List.mem_cons.1 hf' with rfl | h
      · rw [hp] at hb; cases hb
      · exact h

theorem pass_ok (parse : String → Option (Option Id × Option Id)) (t : FileType) (files : List String)
    (h : ∀ f ∈ files, ∀ b, parse f ≠ some (b, none)) :
    ∀ s, pass parse t files s = .ok ((recordsOf parse t files).foldl addRec s) := by
  induction files with
  | nil => intro s; rfl
  | cons f fs ih =>
    rintro ⟨g, bs⟩
    have ih := ih fun f' hf' => h f' (List.mem_cons_of_mem _ hf')
    have hf := h f List.mem_cons_self
    unfold pass
    rcases hp : parse f with _ | ⟨b, _ | c⟩
    · simp only [recordsOf, List.filterMap_cons, hp] at ih ⊢
      exact ih _
    · exact absurd hp (hf b)
    · simp only [recordsOf, List.filterMap_cons, hp, List.foldl_cons] at ih ⊢
      rw [ih]
      rfl

section upd
variable {α : Type} {d : α} {f : α → α} {k : Id}

theorem upd_keys (l : List (Id × α)) : ∀ x, x ∈ (upd d f k l).map (·.1) ↔ x = k ∨ x ∈ l.map (·.1) := by
  induction l with
  | nil => simp [upd]
  | cons y l ih =>
    obtain ⟨k', v⟩ := y
    intro x
    unfold upd
    split
    · rename_i h
      subst h
      simp only [List.map_cons, List.mem_cons]
      tauto
    · simp only [List.map_cons, List.mem_cons, ih]
      tauto

theorem upd_nodup (l : List (Id × α)) (h : (l.map (·.1)).Nodup) : ((upd d f k l).map (·.1)).Nodup := by
  induction l with
  | nil => simp [upd]
  | cons y l ih =>
    obtain ⟨k', v⟩ := y
    simp only [List.map_cons, List.nodup_cons] at h
    unfold upd
    split
    · simpa using h
    · rename_i hne
      simp only [List.map_cons, List.nodup_cons, upd_keys, not_or]
      exact ⟨⟨hne, h.1⟩, ih h.2⟩

theorem upd_mem (l : List (Id × α)) (h : (l.map (·.1)).Nodup) (x : Id) (v : α) :
    (x, v) ∈ upd d f k l ↔
      (x ≠ k ∧ (x, v) ∈ l) ∨ (x = k ∧ ((∃ u, (k, u) ∈ l ∧ v = f u) ∨ (k ∉ l.map (·.1) ∧ v = f d))) := by
  induction l with
  | nil => simp [upd]
  | cons y l ih =>
    obtain ⟨k', u⟩ := y
    simp only [List.map_cons, List.nodup_cons] at h
    have hk : ∀ u, (k', u) ∉ l := fun u hu => h.1 (List.mem_map.2 ⟨_, hu, rfl⟩)
    unfold upd
    by_cases he : k' = k
    · subst he
      simp only [if_true, List.mem_cons, Prod.mk.injEq, List.map_cons, true_and]
      constructor
      · rintro (⟨rfl, rfl⟩ | hm)
        · exact .inr ⟨rfl, .inl ⟨u, .inl rfl, rfl⟩⟩
        · exact .inl ⟨by rintro rfl; exact hk _ hm, .inr hm⟩
      · rintro (⟨hne, ⟨rfl, -⟩ | hm⟩ | ⟨rfl, ⟨u', rfl | hm, rfl⟩ | ⟨hn, -⟩⟩)
        · exact absurd rfl hne
        · exact .inr hm
        · exact .inl ⟨rfl, rfl⟩
        · exact absurd hm (hk _)
        · simp at hn
    · simp only [he, if_false, List.mem_cons, Prod.mk.injEq, List.map_cons, ih h.2]
      have he' : ¬ k = k' := fun e => he e.symm
      constructor
      · rintro (⟨rfl, rfl⟩ | ⟨hne, hm⟩ | ⟨rfl, h'⟩)
        · exact .inl ⟨he, .inl ⟨rfl, rfl⟩⟩
        · exact .inl ⟨hne, .inr hm⟩
        · refine .inr ⟨rfl, ?_⟩
          rcases h' with ⟨u', hm, rfl⟩ | ⟨hn, rfl⟩
          · exact .inl ⟨u', .inr hm, rfl⟩
          · exact .inr ⟨by simp [he', hn], rfl⟩
      · rintro (⟨hne, ⟨rfl, rfl⟩ | hm⟩ | ⟨rfl, h'⟩)
        · exact .inl ⟨rfl, rfl⟩
        · exact .inr (.inl ⟨hne, hm⟩)
        · refine .inr (.inr ⟨rfl, ?_⟩)
          rcases h' with ⟨u', ⟨e, -⟩ | hm, rfl⟩ | ⟨hn, rfl⟩
          · exact absurd e he'
          · exact .inl ⟨u', hm, rfl⟩
          · exact .inr ⟨fun h => hn (.inr h), rfl⟩

end upd

/-- The files of a group and case id. -/
def cell (rs : List Rec) (id c : Id) : Files :=
  ⟨lastFile rs .input (fun r => decide (r.key = id) && decide (r.case = c)),
   lastFile rs .output (fun r => decide (r.key = id) && decide (r.case = c))⟩

theorem lastFile_snoc (rs : List Rec) (t : FileType) (p : Rec → Bool) (r : Rec) :
    lastFile (rs ++ [r]) t p = if r.type = t ∧ p r = true then some r.file else lastFile rs t p := by
  unfold lastFile
  rw [List.filter_append]
  by_cases h : r.type = t ∧ p r = true
  · simp [h]
  · rw [if_neg h]
    have : (decide (r.type = t) && p r) = false := by
      cases hd : decide (r.type = t) <;> simp_all
    simp [this]

theorem cell_snoc (rs : List Rec) (r : Rec) (id c : Id) :
    cell (rs ++ [r]) id c = if r.key = id ∧ r.case = c then (cell rs id c).set r.type r.file else cell rs id c := by
  unfold cell
  simp only [lastFile_snoc, Bool.and_eq_true, decide_eq_true_eq]
  by_cases h : r.key = id ∧ r.case = c
  · simp only [h, and_self, and_true, if_true]
    cases ht : r.type <;> simp [Files.set]
  · simp only [h, and_false, if_false]

theorem cell_empty (rs : List Rec) (id c : Id) (h : ∀ r ∈ rs, ¬ (r.key = id ∧ r.case = c)) :
    cell rs id c = ⟨none, none⟩ := by
  have : ∀ t, lastFile rs t (fun r => decide (r.key = id) && decide (r.case = c)) = none := by
    intro t
    unfold lastFile
    have : rs.filter (fun r => decide (r.type = t) && (decide (r.key = id) && decide (r.case = c))) = [] := by
      rw [List.filter_eq_nil_iff]
      intro r hr
      have := h r hr
      simp only [Bool.and_eq_true, decide_eq_true_eq]
      rintro ⟨-, h'⟩
      exact this h'
    simp [this]
  simp [cell, this]

/-- What the grouping loop has computed after the records `rs`. -/
structure GInv (rs : List Rec) (s : Groups × List Id) : Prop where
  nodup : (s.1.map (·.1)).Nodup
  inner : ∀ id g, (id, g) ∈ s.1 → (g.map (·.1)).Nodup
  keys : ∀ id, id ∈ s.1.map (·.1) ↔ ∃ r ∈ rs, r.key = id
  cells : ∀ id g, (id, g) ∈ s.1 → ∀ c f, (c, f) ∈ g ↔ (∃ r ∈ rs, r.key = id ∧ r.case = c) ∧ f = cell rs id c
  batches : ∀ id, id ∈ s.2 ↔ ∃ r ∈ rs, r.batch = some id

theorem GInv_add (rs : List Rec) (s : Groups × List Id) (r : Rec) (h : GInv rs s) :
    GInv (rs ++ [r]) (addRec s r) := by
  obtain ⟨h1, h2, h3, h4, h5⟩ := h
  refine ⟨upd_nodup _ h1, ?_, ?_, ?_, ?_⟩
  · intro id g hg
    rw [addRec, upd_mem _ h1] at hg
    rcases hg with ⟨-, hm⟩ | ⟨rfl, ⟨u, hu, rfl⟩ | ⟨-, rfl⟩⟩
    · exact h2 id g hm
    · exact upd_nodup _ (h2 _ u hu)
    · exact upd_nodup _ (by simp)
  · intro id
    simp only [addRec, upd_keys, h3, List.mem_append, List.mem_singleton]
    constructor
    · rintro (rfl | ⟨r', hr', he⟩)
      · exact ⟨r, .inr rfl, rfl⟩
      · exact ⟨r', .inl hr', he⟩
    · rintro ⟨r', hr' | rfl, he⟩
      · exact .inr ⟨r', hr', he⟩
      · exact .inl he.symm
  · intro id g hg c f
    rw [addRec, upd_mem _ h1] at hg
    rw [cell_snoc]
    simp only [List.mem_append, List.mem_singleton]
    rcases hg with ⟨hne, hm⟩ | ⟨rfl, hg⟩
    · rw [h4 id g hm, if_neg (fun h => hne h.1.symm)]
      constructor
      · rintro ⟨⟨r', hr', he⟩, rfl⟩; exact ⟨⟨r', .inl hr', he⟩, rfl⟩
      · rintro ⟨⟨r', hr' | rfl, he⟩, rfl⟩
        · exact ⟨⟨r', hr', he⟩, rfl⟩
        · exact absurd he.1.symm hne
    · -- the group of the new record
      obtain ⟨u, hu, hun, rfl⟩ : ∃ u : List (Id × Files), (∀ c f, (c, f) ∈ u ↔
          (∃ r' ∈ rs, r'.key = r.key ∧ r'.case = c) ∧ f = cell rs r.key c) ∧ (u.map (·.1)).Nodup ∧
          g = upd ⟨none, none⟩ (Files.set r.type r.file) r.case u := by
        rcases hg with ⟨u, hu, rfl⟩ | ⟨hn, rfl⟩
        · exact ⟨u, h4 _ u hu, h2 _ u hu, rfl⟩
        · refine ⟨[], ?_, by simp, rfl⟩
          intro c f
          simp only [List.not_mem_nil, false_iff]
          rintro ⟨⟨r', hr', he, -⟩, -⟩
          exact hn ((h3 _).2 ⟨r', hr', he⟩)
      rw [upd_mem _ hun]
      have hkey : r.case ∈ u.map (·.1) ↔ ∃ r' ∈ rs, r'.key = r.key ∧ r'.case = r.case := by
        simp only [List.mem_map, Prod.exists, exists_and_right, exists_eq_right, hu]
      by_cases hc : c = r.case
      · subst hc
        simp only [ne_eq, not_true_eq_false, false_and, true_and, false_or, if_true, and_self]
        constructor
        · rintro (⟨f', hf', rfl⟩ | ⟨hn, rfl⟩)
          · exact ⟨⟨r, .inr rfl, rfl, rfl⟩, by rw [((hu _ _).1 hf').2]⟩
          · refine ⟨⟨r, .inr rfl, rfl, rfl⟩, ?_⟩
            rw [cell_empty rs]
            intro r' hr' he
            exact hn (hkey.2 ⟨r', hr', he⟩)
        · rintro ⟨-, rfl⟩
          by_cases hk : ∃ r' ∈ rs, r'.key = r.key ∧ r'.case = r.case
          · exact .inl ⟨_, (hu _ _).2 ⟨hk, rfl⟩, rfl⟩
          · refine .inr ⟨fun h => hk (hkey.1 h), ?_⟩
            rw [cell_empty rs]
            intro r' hr' he
            exact hk ⟨r', hr', he⟩
      · have hc' : ¬ r.case = c := fun e => hc e.symm
        simp only [ne_eq, hc, not_false_eq_true, true_and, false_and, or_false, hu, hc', and_false, if_false]
        constructor
        · rintro ⟨⟨r', hr', he⟩, rfl⟩; exact ⟨⟨r', .inl hr', he⟩, rfl⟩
        · rintro ⟨⟨r', hr' | rfl, he⟩, rfl⟩
          · exact ⟨⟨r', hr', he⟩, rfl⟩
          · exact absurd he.2 hc'
  · intro id
    simp only [addRec, List.mem_append, List.mem_singleton]
    cases hb : r.batch with
    | none =>
      simp only [h5]
      constructor
      · rintro ⟨r', hr', he⟩; exact ⟨r', .inl hr', he⟩
      · rintro ⟨r', hr' | rfl, he⟩
        · exact ⟨r', hr', he⟩
        · simp [hb] at he
    | some b =>
      simp only [List.mem_cons, h5]
      constructor
      · rintro (rfl | ⟨r', hr', he⟩)
        · exact ⟨r, .inr rfl, hb⟩
        · exact ⟨r', .inl hr', he⟩
      · rintro ⟨r', hr' | rfl, he⟩
        · exact .inr ⟨r', hr', he⟩
        · rw [hb] at he; cases he; exact .inl rfl

theorem GInv_all (rs : List Rec) : GInv rs (rs.foldl addRec ([], [])) := by
  have key : ∀ (rs rs₀ : List Rec) s, GInv rs₀ s → GInv (rs₀ ++ rs) (rs.foldl addRec s) := by
    intro rs
    induction rs with
    | nil => intro rs₀ s h; simpa using h
    | cons r rs ih =>
      intro rs₀ s h
      have := ih (rs₀ ++ [r]) _ (GInv_add rs₀ s r h)
      simpa using this
  have := key rs [] ([], []) ⟨by simp, by simp, by simp, by simp, by simp⟩
  simpa using this

/-! ## Sorting -/

theorem Id.le_trans' (a b c : Id) : a.le b = true → b.le c = true → a.le c = true := by
  cases a <;> cases b <;> cases c <;> simp only [Id.le, decide_eq_true_eq, Bool.false_eq_true, false_implies,
    implies_true, forall_const]
  · exact Int.le_trans
  · exact String.le_trans

theorem Id.le_total' (a b : Id) : (a.le b || b.le a) = true := by
  cases a <;> cases b <;> simp only [Id.le, Bool.or_eq_true, decide_eq_true_eq, Bool.or_true, Bool.true_or]
  · exact Int.le_total _ _
  · exact String.le_total _ _

theorem Before_of_le {a c : Id} (h : a.le c = true) (hs : a.sameType c = true) (hne : a ≠ c) : Before a c := by
  cases a <;> cases c <;> simp [Id.le, Id.sameType, Before] at h hs hne ⊢
  · omega
  · rename_i s t
    by_cases hlt : s < t
    · exact hlt
    · exact absurd (String.le_antisymm h (String.not_lt.1 hlt)) hne

theorem sortItems_ok {α : Type} {d l : List (Id × α)} (hd : (d.map (·.1)).Nodup) (h : sortItems d = .ok l) :
    (∀ x, x ∈ l ↔ x ∈ d) ∧ (l.map (·.1)).Pairwise Before ∧ l.length = d.length := by
  unfold sortItems at h
  split at h
  · rename_i hs
    simp only [Except.ok.injEq] at h
    subst h
    have hperm := List.perm_insertionSort (fun x y : Id × α => x.1.le y.1 = true) d
    refine ⟨fun x => hperm.mem_iff, ?_, hperm.length_eq⟩
    have : Std.Total (fun x y : Id × α => x.1.le y.1 = true) :=
      ⟨fun a b => by simpa using Id.le_total' a.1 b.1⟩
    have : IsTrans (Id × α) (fun x y : Id × α => x.1.le y.1 = true) :=
      ⟨fun a b c => Id.le_trans' a.1 b.1 c.1⟩
    have hsorted := List.pairwise_insertionSort (fun x y : Id × α => x.1.le y.1 = true) d
    have hnd : ((d.insertionSort fun x y : Id × α => x.1.le y.1 = true).map (·.1)).Nodup :=
      (hperm.map _).nodup_iff.2 hd
    rw [List.pairwise_map]
    have hnd' := List.pairwise_map.1 hnd
    refine (hsorted.and hnd').imp_of_mem ?_
    rintro x y hx hy ⟨h1, h2⟩
    refine Before_of_le h1 ?_ h2
    simp only [List.all_eq_true] at hs
    exact hs x (hperm.mem_iff.1 hx) y (hperm.mem_iff.1 hy)
  · cases h

theorem sortItems_err {α : Type} {d : List (Id × α)} {e : MatchErr} (h : sortItems d = .error e) :
    e = .typeError ∧ ∃ x ∈ d, ∃ y ∈ d, x.1.sameType y.1 = false := by
  unfold sortItems at h
  split at h
  · cases h
  · rename_i hs
    simp only [Except.error.injEq] at h
    refine ⟨h.symm, ?_⟩
    simp only [List.all_eq_true] at hs
    push Not at hs
    obtain ⟨x, hx, y, hy, hxy⟩ := hs
    exact ⟨x, hx, y, hy, by simpa using hxy⟩

/-! ## Emission -/

/-- What `emit` produces for a group. -/
def EmitFor {P : Type} (batchIds : List Id) (g : Id × List (Id × Files)) (e : Entry P) (p : P) : Prop :=
  (g.1 ∈ batchIds ∧ ∃ cs, sortItems g.2 = .ok cs ∧ e = .batched (cs.map (·.2)) p) ∨
  (g.1 ∉ batchIds ∧ ∃ c f, g.2 = [(c, f)] ∧ e = .single f p)

theorem emit_ok {P : Type} (points : Nat → Option P) (batchIds : List Id) :
    ∀ (gs : List (Id × List (Id × Files))) (i : Nat) (es : List (Entry P)), emit points batchIds i gs = .ok es →
      es.length = gs.length ∧ ∀ k (h : k < gs.length) (h' : k < es.length),
        ∃ p, points (i + k) = some p ∧ EmitFor batchIds gs[k] es[k] p := by
  intro gs
  induction gs with
  | nil =>
    intro i es h
    simp only [emit, Except.ok.injEq] at h
    subst h
    simp
  | cons g gs ih =>
    obtain ⟨id, cases⟩ := g
    intro i es h
    have fin : ∀ (e : Entry P) (p : P) es', points i = some p → EmitFor batchIds (id, cases) e p →
        emit points batchIds (i + 1) gs = .ok es' → (e :: es').length = ((id, cases) :: gs).length ∧
        ∀ k (h : k < ((id, cases) :: gs).length) (h' : k < (e :: es').length),
          ∃ p, points (i + k) = some p ∧ EmitFor batchIds ((id, cases) :: gs)[k] (e :: es')[k] p := by
      intro e p es' hp he hr
      obtain ⟨hl, hk⟩ := ih _ _ hr
      refine ⟨by simp [hl], ?_⟩
      intro k h1 h2
      cases k with
      | zero => exact ⟨p, hp, he⟩
      | succ k =>
        have := hk k (by simpa using h1) (by simpa using h2)
        simpa [Nat.add_assoc, Nat.add_comm 1 k] using this
    unfold emit at h
    split at h
    · rename_i hb
      split at h
      · cases h
      · rename_i cs hcs
        split at h
        · cases h
        · rename_i p hp
          split at h
          · cases h
          · rename_i es' hr
            cases h
            exact fin _ p es' hp (.inl ⟨hb, cs, hcs, rfl⟩) hr
    · rename_i hb
      split at h
      · rename_i c f
        split at h
        · cases h
        · rename_i p hp
          split at h
          · cases h
          · rename_i es' hr
            cases h
            exact fin _ p es' hp (.inr ⟨hb, c, f, rfl, rfl⟩) hr
      · cases h

theorem emit_err {P : Type} (points : Nat → Option P) (batchIds : List Id) :
    ∀ (gs : List (Id × List (Id × Files))) (i : Nat) (e : MatchErr), emit points batchIds i gs = .error e →
      (e = .stopIteration ∧ ∃ k < gs.length, points (i + k) = none) ∨
      (∃ g ∈ gs, g.1 ∈ batchIds ∧ sortItems g.2 = .error e) ∨
      (e = .conflict ∧ ∃ g ∈ gs, g.1 ∉ batchIds ∧ ∀ c f, g.2 ≠ [(c, f)]) := by
  intro gs
  induction gs with
  | nil => intro i e h; cases h
  | cons g gs ih =>
    obtain ⟨id, cases⟩ := g
    intro i e h
    have rec' : ∀ e, emit points batchIds (i + 1) gs = .error e →
        (e = .stopIteration ∧ ∃ k < ((id, cases) :: gs).length, points (i + k) = none) ∨
        (∃ g ∈ (id, cases) :: gs, g.1 ∈ batchIds ∧ sortItems g.2 = .error e) ∨
        (e = .conflict ∧ ∃ g ∈ (id, cases) :: gs, g.1 ∉ batchIds ∧ ∀ c f, g.2 ≠ [(c, f)]) := by
      intro e he
      rcases ih _ _ he with ⟨h1, k, hk, hp⟩ | ⟨g, hg, h1⟩ | ⟨h1, g, hg, h2⟩
      · exact .inl ⟨h1, k + 1, by simpa using hk, by rw [← hp]; congr 1; omega⟩
      · exact .inr (.inl ⟨g, List.mem_cons_of_mem _ hg, h1⟩)
      · exact .inr (.inr ⟨h1, g, List.mem_cons_of_mem _ hg, h2⟩)
    unfold emit at h
    split at h
    · rename_i hb
      split at h
      · rename_i e' he'
        cases h
        exact .inr (.inl ⟨_, List.mem_cons_self, hb, he'⟩)
      · split at h
        · rename_i hp
          cases h
          exact .inl ⟨rfl, 0, by simp, hp⟩
        · split at h
          · rename_i e' he'
            cases h
            exact rec' _ he'
          · cases h
    · rename_i hb
      split at h
      · split at h
        · rename_i hp
          cases h
          exact .inl ⟨rfl, 0, by simp, hp⟩
        · split at h
          · rename_i e' he'
            cases h
            exact rec' _ he'
          · cases h
      · rename_i hne
        cases h
        exact .inr (.inr ⟨rfl, _, List.mem_cons_self, hb, fun c f he => hne c f he⟩)

/-- In a group whose id is not a batch id every record has the group id as case id. -/
theorem plain_group {rs : List Rec} {id : Id} (hb : ¬ ∃ r ∈ rs, r.batch = some id) {r : Rec} (hr : r ∈ rs)
    (hk : r.key = id) : r.case = id := by
  unfold Rec.key groupKey at hk
  split at hk
  · exact hk
  · rename_i b hb'
    split at hk
    · exact absurd ⟨r, hr, hb'.trans (by rw [hk])⟩ hb
    · exact hk

end Verif.Problem
