import Verif.Model.Syscalls
import Verif.Spec.Syscalls
import Mathlib.Tactic.ByContra

/-!
# Lemmas about the syscall translation table
-/

namespace Verif.Syscalls

theorem find_cons (name n : String) (k : Nat) (b : List (String × Nat)) :
    ((n, k) :: b).lookup name = if name = n then some k else b.lookup name := by
  rw [List.lookup_cons]
  by_cases h : name = n
  · simp [h]
  · have : (name == n) = false := by simpa using h
    rw [this, if_neg h]

theorem find_foldl (i : Nat) (names : List String) : ∀ (b : List (String × Nat)) (name : String),
    (names.foldl (fun b c => (c, i) :: b) b).lookup name = if name ∈ names then some i else b.lookup name := by
  induction names with
  | nil => intro b name; simp
  | cons n ns ih =>
    intro b name
    rw [List.foldl_cons, ih, find_cons]
    by_cases h1 : name ∈ ns
    · simp [h1]
    · by_cases h2 : name = n
      · simp [h2]
      · simp [h1, h2]

theorem addLine_find (size i : Nat) (m : Maps) (names : List String) (name : String) :
    (addLine size m i names).find name = if name ∈ names then some i else m.find name :=
  find_foldl i names m.byName name

/-- What the alias stage establishes. -/
structure AliasInv (size : Nat) (done : List (List String)) (m : Maps) : Prop where
  iidLen : m.iid.length = done.length
  idLen : m.byId.length = done.length
  find : ∀ name i, m.find name = some i ↔ InClass done i name
  rows : ∀ row ∈ m.iid, row = List.replicate size []
  names : ∀ (i : Nat) (l : List String), done[i]? = some l → ∀ n ns, l = n :: ns → m.byId[i]? = some ("sys_" ++ n)
  vals : ∀ p ∈ m.byName, p.2 < done.length
  last : ∀ l, done.getLast? = some l → l ≠ [] → done.length - 1 ∈ m.byName.map (·.2)

theorem foldl_vals (i : Nat) (names : List String) : ∀ (b : List (String × Nat)) (p : String × Nat),
    p ∈ names.foldl (fun b c => (c, i) :: b) b ↔ p ∈ b ∨ (p.2 = i ∧ p.1 ∈ names) := by
  induction names with
  | nil => intro b p; simp
  | cons n ns ih =>
    intro b p
    rw [List.foldl_cons, ih]
    simp only [List.mem_cons, Prod.ext_iff]
    constructor
    · rintro ((⟨h1, h2⟩ | h) | ⟨h1, h2⟩)
      · exact .inr ⟨h2, .inl h1⟩
      · exact .inl h
      · exact .inr ⟨h1, .inr h2⟩
    · rintro (h | ⟨h1, h2 | h2⟩)
      · exact .inl (.inr h)
      · exact .inl (.inl ⟨h2, h1⟩)
      · exact .inr ⟨h1, h2⟩

theorem inClass_lt {aliases : List (List String)} {i : Nat} {name : String} (h : InClass aliases i name) : i < aliases.length := by
  obtain ⟨⟨l, hl, _⟩, _⟩ := h
  exact (List.getElem?_eq_some_iff.1 hl).1

theorem inClass_unique {aliases : List (List String)} {i j : Nat} {name : String} (hi : InClass aliases i name) (hj : InClass aliases j name) : i = j := by
  obtain ⟨⟨l, hl, hml⟩, h1⟩ := hi
  obtain ⟨⟨k, hk, hmk⟩, h2⟩ := hj
  rcases Nat.lt_trichotomy i j with h | h | h
  · exact absurd hmk (h1 j k h hk)
  · exact h
  · exact absurd hml (h2 i l h hl)

theorem inClass_snoc (done : List (List String)) (l : List String) (i : Nat) (name : String) :
    InClass (done ++ [l]) i name ↔ (if name ∈ l then i = done.length else InClass done i name) := by
  unfold InClass
  constructor
  · rintro ⟨⟨k, hk, hmk⟩, h⟩
    have hi : i < done.length + 1 := by simpa using (List.getElem?_eq_some_iff.1 hk).1
    split
    · rename_i hl
      by_contra hne
      exact h done.length l (by omega) (by simp) hl
    · rename_i hl
      have hlt : i < done.length := by
        rcases Nat.lt_or_ge i done.length with h' | h'
        · exact h'
        · have : i = done.length := by omega
          subst this
          simp only [List.getElem?_append_right (Nat.le_refl _), Nat.sub_self, List.getElem?_cons_zero, Option.some.injEq] at hk
          subst hk
          exact absurd hmk hl
      refine ⟨⟨k, by rwa [List.getElem?_append_left hlt] at hk, hmk⟩, ?_⟩
      intro j k' hij hk'
      have hjl := (List.getElem?_eq_some_iff.1 hk').1
      exact h j k' hij (by rw [List.getElem?_append_left hjl]; exact hk')
  · intro h
    split at h
    · rename_i hl
      subst h
      refine ⟨⟨l, by simp, hl⟩, ?_⟩
      intro j k hj hk
      have := (List.getElem?_eq_some_iff.1 hk).1
      simp at this
      omega
    · rename_i hl
      obtain ⟨⟨k, hk, hmk⟩, h⟩ := h
      have hlt := (List.getElem?_eq_some_iff.1 hk).1
      refine ⟨⟨k, by rw [List.getElem?_append_left hlt]; exact hk, hmk⟩, ?_⟩
      intro j k' hij hk'
      rcases Nat.lt_or_ge j done.length with h' | h'
      · rw [List.getElem?_append_left h'] at hk'
        exact h j k' hij hk'
      · have hj := (List.getElem?_eq_some_iff.1 hk').1
        simp at hj
        have : j = done.length := by omega
        subst this
        simp only [List.getElem?_append_right (Nat.le_refl _), Nat.sub_self, List.getElem?_cons_zero, Option.some.injEq] at hk'
        subst hk'
        exact hl

theorem addLine_inv (size : Nat) (done : List (List String)) (m : Maps) (l : List String) (h : AliasInv size done m) :
    AliasInv size (done ++ [l]) (addLine size m done.length l) := by
  refine ⟨?_, ?_, ?_, ?_, ?_, ?_, ?_⟩
  · simp [addLine, h.iidLen]
  · simp [addLine, h.idLen]
  · intro name i
    rw [addLine_find, inClass_snoc]
    split
    · simp only [Option.some.injEq]; exact eq_comm
    · exact h.find name i
  · intro row hr
    simp only [addLine, List.mem_append, List.mem_singleton] at hr
    rcases hr with hr | hr
    · exact h.rows row hr
    · exact hr
  · intro i k hk n ns hn
    simp only [addLine]
    rcases Nat.lt_or_ge i done.length with hlt | hge
    · rw [List.getElem?_append_left hlt] at hk
      rw [List.getElem?_append_left (by rw [h.idLen]; exact hlt)]
      exact h.names i k hk n ns hn
    · have hj := (List.getElem?_eq_some_iff.1 hk).1
      simp at hj
      have : i = done.length := by omega
      subst this
      simp only [List.getElem?_append_right (Nat.le_refl _), Nat.sub_self, List.getElem?_cons_zero, Option.some.injEq] at hk
      rw [List.getElem?_append_right (by rw [h.idLen]; exact Nat.le_refl _), h.idLen, Nat.sub_self]
      subst hk hn
      rfl
  · intro p hp
    simp only [addLine] at hp
    rw [foldl_vals] at hp
    simp only [List.length_append, List.length_cons, List.length_nil]
    rcases hp with hp | ⟨hp, _⟩
    · have := h.vals p hp; omega
    · omega
  · intro k hk hne
    simp only [List.getLast?_append, List.getLast?_singleton, Option.some_or, Option.some.injEq] at hk
    subst hk
    obtain ⟨n, ns, rfl⟩ : ∃ n ns, l = n :: ns := by
      cases l with
      | nil => exact absurd rfl hne
      | cons n ns => exact ⟨n, ns, rfl⟩
    rw [List.mem_map]
    refine ⟨(n, done.length), ?_, by simp⟩
    simp only [addLine]
    rw [foldl_vals]
    exact .inr ⟨rfl, by simp⟩

theorem addLines_inv (size : Nat) : ∀ (ls done : List (List String)) (m : Maps), AliasInv size done m →
    AliasInv size (done ++ ls) (addLines size m done.length ls) := by
  intro ls
  induction ls with
  | nil => intro done m h; simpa [addLines] using h
  | cons l ls ih =>
    intro done m h
    have := ih (done ++ [l]) _ (addLine_inv size done m l h)
    simp only [List.length_append, List.length_cons, List.length_nil] at this
    rw [List.append_assoc] at this
    exact this

theorem aliasInv_nil (size : Nat) : AliasInv size [] ⟨[], [], []⟩ := by
  refine ⟨rfl, rfl, ?_, by simp, by simp, by simp, by simp⟩
  intro name i
  constructor
  · intro h; cases h
  · rintro ⟨⟨l, hl, _⟩, _⟩; simp at hl

theorem foldl_max_ge (l : List Nat) : ∀ (a : Nat), a ≤ l.foldl max a ∧ ∀ x ∈ l, x ≤ l.foldl max a := by
  induction l with
  | nil => intro a; simp
  | cons y l ih =>
    intro a
    rw [List.foldl_cons]
    obtain ⟨h1, h2⟩ := ih (max a y)
    refine ⟨by omega, ?_⟩
    intro x hx
    rcases List.mem_cons.1 hx with rfl | hx
    · omega
    · exact h2 x hx

theorem foldl_max_le (l : List Nat) (b : Nat) : ∀ (a : Nat), a ≤ b → (∀ x ∈ l, x ≤ b) → l.foldl max a ≤ b := by
  induction l with
  | nil => intro a h _; exact h
  | cons y l ih =>
    intro a ha h
    rw [List.foldl_cons]
    have := h y (by simp)
    exact ih _ (by omega) fun x hx => h x (List.mem_cons_of_mem _ hx)

theorem maxId_eq (size : Nat) (done : List (List String)) (m : Maps) (h : AliasInv size done m) (hne : done ≠ [])
    (hl : ∀ l ∈ done, l ≠ []) : maxId m = done.length - 1 := by
  unfold maxId
  have hpos : 0 < done.length := List.length_pos_iff.2 hne
  apply Nat.le_antisymm
  · apply foldl_max_le
    · omega
    · intro x hx
      obtain ⟨p, hp, rfl⟩ := List.mem_map.1 hx
      have := h.vals p hp
      omega
  · have hlast := List.getLast?_eq_some_getLast hne
    exact (foldl_max_ge _ 0).2 _ (h.last _ hlast (hl _ (List.getLast_mem hne)))

/-! ## The table stage -/

/-- What holds after some entries have been processed. -/
structure TableInv (size : Nat) (aliases : List (List String)) (done : List (Nat × Nat × String)) (m : Maps) (top : Nat) : Prop where
  iidLen : m.iid.length = top + 1
  idLen : m.byId.length = top + 1
  base : aliases.length ≤ top + 1
  rowLen : ∀ row ∈ m.iid, row.length = size
  bound : ∀ name k, m.find name = some k → k ≤ top
  aliased : ∀ name i, i < aliases.length → (m.find name = some i ↔ InClass aliases i name)
  inj : ∀ a b k, aliases.length ≤ k → m.find a = some k → m.find b = some k → a = b
  known : ∀ e ∈ done, ∃ k, m.find e.2.2 = some k
  origin : ∀ name k, aliases.length ≤ k → m.find name = some k → (∃ e ∈ done, e.2.2 = name) ∧ m.byId[k]? = some ("sys_" ++ name)
  calls : ∀ k t num, num ∈ m.calls k t ↔ ∃ name, (t, num, name) ∈ done ∧ m.find name = some k
  names : ∀ (i : Nat) (l : List String), aliases[i]? = some l → ∀ n ns, l = n :: ns → m.byId[i]? = some ("sys_" ++ n)

theorem calls_modify (m : Maps) (k t num k' t' : Nat) (size : Nat) (hk : k < m.iid.length) (ht : t < size)
    (hrow : ∀ row ∈ m.iid, row.length = size) :
    ({ m with iid := m.iid.modify k fun row => row.modify t fun l => l ++ [num] } : Maps).calls k' t' =
      if k' = k ∧ t' = t then m.calls k' t' ++ [num] else m.calls k' t' := by
  unfold Maps.calls
  simp only [List.getD_eq_getElem?_getD, List.getElem?_modify]
  by_cases h1 : k = k'
  · subst h1
    have hrl := hrow _ (List.getElem_mem hk)
    rw [List.getElem?_eq_getElem hk]
    simp only [if_true, Option.map_eq_map, Option.map_some, Option.getD_some, List.getElem?_modify, true_and]
    by_cases h2 : t = t'
    · subst h2
      rw [List.getElem?_eq_getElem (by rw [hrl]; exact ht)]
      simp
    · have : ¬ t' = t := fun h => h2 h.symm
      simp [this, h2]
  · have : ¬ k' = k := fun h => h1 h.symm
    simp [h1, this]

theorem calls_append (m : Maps) (b : List (String × Nat)) (ids : List String) (size k t : Nat) :
    (⟨b, ids, m.iid ++ [List.replicate size []]⟩ : Maps).calls k t = m.calls k t := by
  unfold Maps.calls
  simp only [List.getD_eq_getElem?_getD, List.getElem?_append]
  by_cases h : k < m.iid.length
  · simp [h]
  · rw [if_neg h]
    rw [List.getElem?_eq_none (by omega : m.iid.length ≤ k)]
    by_cases h0 : k - m.iid.length = 0
    · rw [h0]
      simp only [List.getElem?_cons_zero, Option.getD_some, Option.getD_none, List.getElem?_nil, List.getElem?_replicate]
      split <;> rfl
    · obtain ⟨j, hj⟩ : ∃ j, k - m.iid.length = j + 1 := ⟨k - m.iid.length - 1, by omega⟩
      rw [hj]
      simp

theorem addEntry_inv (size : Nat) (aliases : List (List String)) (done : List (Nat × Nat × String)) (m : Maps) (top : Nat)
    (e : Nat × Nat × String) (ht : e.1 < size) (h : TableInv size aliases done m top) :
    TableInv size aliases (done ++ [e]) (addEntry size (m, top) e).1 (addEntry size (m, top) e).2 := by
  obtain ⟨t, num, name⟩ := e
  unfold addEntry alloc
  cases hf : m.find name with
  | some k =>
    simp only
    have hkb := h.bound name k hf
    have hk : k < m.iid.length := by rw [h.iidLen]; omega
    have hfind : ∀ n, ({ m with iid := m.iid.modify k fun row => row.modify t fun l => l ++ [num] } : Maps).find n = m.find n := fun _ => rfl
    refine ⟨?_, h.idLen, h.base, ?_, h.bound, h.aliased, h.inj, ?_, ?_, ?_, h.names⟩
    · simpa using h.iidLen
    · intro row hr
      obtain ⟨i, hi, rfl⟩ := List.getElem_of_mem hr
      simp only [List.getElem_modify]
      have hi' : i < m.iid.length := by simpa using hi
      split
      · simp only [List.length_modify]; exact h.rowLen _ (List.getElem_mem hi')
      · exact h.rowLen _ (List.getElem_mem hi')
    · intro e he
      rcases List.mem_append.1 he with he | he
      · exact h.known e he
      · simp only [List.mem_singleton] at he
        subst he
        exact ⟨k, hf⟩
    · intro n k' hk' hn
      obtain ⟨⟨e, he, hen⟩, hid⟩ := h.origin n k' hk' hn
      exact ⟨⟨e, List.mem_append_left _ he, hen⟩, hid⟩
    · intro k' t' num'
      rw [calls_modify m k t num k' t' size hk ht h.rowLen]
      simp only [hfind]
      by_cases hc : k' = k ∧ t' = t
      · obtain ⟨rfl, rfl⟩ := hc
        simp only [and_self, if_true, List.mem_append, List.mem_singleton, h.calls]
        constructor
        · rintro (⟨n, hn, hfn⟩ | rfl)
          · exact ⟨n, .inl hn, hfn⟩
          · exact ⟨name, .inr rfl, hf⟩
        · rintro ⟨n, hn | hn, hfn⟩
          · exact .inl ⟨n, hn, hfn⟩
          · simp only [Prod.mk.injEq] at hn
            exact .inr hn.2.1
      · rw [if_neg hc, h.calls]
        constructor
        · rintro ⟨n, hn, hfn⟩
          exact ⟨n, List.mem_append_left _ hn, hfn⟩
        · rintro ⟨n, hn, hfn⟩
          rcases List.mem_append.1 hn with hn | hn
          · exact ⟨n, hn, hfn⟩
          · simp only [List.mem_singleton, Prod.mk.injEq] at hn
            obtain ⟨rfl, rfl, rfl⟩ := hn
            rw [hf] at hfn
            cases hfn
            exact absurd ⟨rfl, rfl⟩ hc
  | none =>
    simp only
    have hfind : ∀ n, (⟨(name, top + 1) :: m.byName, m.byId ++ ["sys_" ++ name], (m.iid ++ [List.replicate size []]).modify (top + 1) fun row => row.modify t fun l => l ++ [num]⟩ : Maps).find n
        = if n = name then some (top + 1) else m.find n := fun n => find_cons n name (top + 1) m.byName
    have hrows : ∀ row ∈ m.iid ++ [List.replicate size []], row.length = size := by
      intro row hr
      rcases List.mem_append.1 hr with hr | hr
      · exact h.rowLen row hr
      · simp only [List.mem_singleton] at hr
        subst hr
        simp
    have hcalls := fun k' t' => calls_modify ⟨(name, top + 1) :: m.byName, m.byId ++ ["sys_" ++ name], m.iid ++ [List.replicate size []]⟩
      (top + 1) t num k' t' size (by simp [h.iidLen]) ht hrows
    have hbase := h.base
    refine ⟨?_, ?_, by omega, ?_, ?_, ?_, ?_, ?_, ?_, ?_, ?_⟩
    · simp [h.iidLen]
    · simp [h.idLen]
    · intro row hr
      simp only at hr
      obtain ⟨i, hi, rfl⟩ := List.getElem_of_mem hr
      simp only [List.getElem_modify]
      have hi' : i < (m.iid ++ [List.replicate size []]).length := by simpa using hi
      split
      · simp only [List.length_modify]; exact hrows _ (List.getElem_mem hi')
      · exact hrows _ (List.getElem_mem hi')
    · intro n k hn
      rw [hfind] at hn
      split at hn
      · cases hn; exact Nat.le_refl _
      · have := h.bound n k hn; omega
    · intro n i hi
      rw [hfind]
      split
      · rename_i hnn
        subst hnn
        constructor
        · intro hs; cases hs; omega
        · intro hc
          have := (h.aliased n i hi).2 hc
          rw [hf] at this; cases this
      · exact h.aliased n i hi
    · intro a b k hk ha hb
      rw [hfind] at ha hb
      split at ha
      · rename_i haa
        split at hb
        · rename_i hbb; rw [haa, hbb]
        · cases ha
          have := h.bound b _ hb
          omega
      · split at hb
        · cases hb
          have := h.bound a _ ha
          omega
        · exact h.inj a b k hk ha hb
    · intro e he
      rcases List.mem_append.1 he with he | he
      · obtain ⟨k, hk⟩ := h.known e he
        rw [hfind]
        split
        · exact ⟨_, rfl⟩
        · exact ⟨k, hk⟩
      · simp only [List.mem_singleton] at he
        subst he
        rw [hfind]
        exact ⟨top + 1, by simp⟩
    · intro n k hk hn
      rw [hfind] at hn
      split at hn
      · rename_i hnn
        cases hn
        subst hnn
        refine ⟨⟨_, List.mem_append_right _ (List.mem_singleton.2 rfl), rfl⟩, ?_⟩
        rw [List.getElem?_append_right (by rw [h.idLen]; exact Nat.le_refl _), h.idLen]
        simp
      · obtain ⟨⟨e, he, hen⟩, hid⟩ := h.origin n k hk hn
        refine ⟨⟨e, List.mem_append_left _ he, hen⟩, ?_⟩
        have := (List.getElem?_eq_some_iff.1 hid).1
        rw [List.getElem?_append_left this]
        exact hid
    · intro k' t' num'
      have hc := hcalls k' t'
      simp only at hc
      rw [hc, calls_append m]
      simp only [hfind]
      by_cases hcond : k' = top + 1 ∧ t' = t
      · obtain ⟨rfl, rfl⟩ := hcond
        have hnone : ∀ x, x ∉ m.calls (top + 1) t' := by
          intro x hx
          obtain ⟨n, _, hn⟩ := (h.calls _ _ _).1 hx
          have := h.bound n _ hn
          omega
        simp only [and_self, if_true, List.mem_append, List.mem_singleton]
        constructor
        · rintro (hx | rfl)
          · exact absurd hx (hnone _)
          · exact ⟨name, .inr rfl, by simp⟩
        · rintro ⟨n, hn | hn, hfn⟩
          · split at hfn
            · rename_i hnn
              subst hnn
              obtain ⟨k, hk⟩ := h.known _ hn
              simp only at hk
              rw [hf] at hk; cases hk
            · have := h.bound n _ hfn; omega
          · simp only [Prod.mk.injEq] at hn
            exact .inr hn.2.1
      · rw [if_neg hcond, h.calls]
        constructor
        · rintro ⟨n, hn, hfn⟩
          refine ⟨n, List.mem_append_left _ hn, ?_⟩
          split
          · rename_i hnn
            subst hnn
            rw [hf] at hfn; cases hfn
          · exact hfn
        · rintro ⟨n, hn0, hfn⟩
          rcases List.mem_append.1 hn0 with hn | hn
          · split at hfn
            · rename_i hnn
              subst hnn
              obtain ⟨k, hk⟩ := h.known _ hn
              simp only at hk
              rw [hf] at hk; cases hk
            · exact ⟨n, hn, hfn⟩
          · simp only [List.mem_singleton, Prod.mk.injEq] at hn
            obtain ⟨rfl, rfl, rfl⟩ := hn
            simp only [if_true, Option.some.injEq] at hfn
            exact absurd ⟨hfn.symm, rfl⟩ hcond
    · intro i l hl n ns hln
      have hx := h.names i l hl n ns hln
      have := (List.getElem?_eq_some_iff.1 hx).1
      rw [List.getElem?_append_left this]
      exact hx

theorem entries_inv (size : Nat) (aliases : List (List String)) : ∀ (es done : List (Nat × Nat × String)) (m : Maps) (top : Nat),
    (∀ e ∈ es, e.1 < size) → TableInv size aliases done m top →
    TableInv size aliases (done ++ es) (es.foldl (addEntry size) (m, top)).1 (es.foldl (addEntry size) (m, top)).2 := by
  intro es
  induction es with
  | nil => intro done m top _ h; simpa using h
  | cons e es ih =>
    intro done m top hb h
    rw [List.foldl_cons]
    have := ih (done ++ [e]) _ _ (fun x hx => hb x (List.mem_cons_of_mem _ hx)) (addEntry_inv size aliases done m top e (hb e (by simp)) h)
    rw [List.append_assoc] at this
    exact this

theorem mem_entries (tables : List (List (Nat × String))) (t num : Nat) (name : String) :
    (t, num, name) ∈ entries tables ↔ ∃ rows, tables[t]? = some rows ∧ (num, name) ∈ rows := by
  unfold entries
  simp only [List.mem_flatMap, List.mem_map, Prod.exists, Prod.mk.injEq]
  constructor
  · rintro ⟨rows, t', hz, n', nm', hm, rfl, rfl, rfl⟩
    exact ⟨rows, List.mem_zipIdx_iff_getElem?.1 hz, hm⟩
  · rintro ⟨rows, ht, hm⟩
    exact ⟨rows, t, List.mem_zipIdx_iff_getElem?.2 ht, num, name, hm, rfl, rfl, rfl⟩

theorem tableInv_init (size : Nat) (aliases : List (List String)) (m : Maps) (h : AliasInv size aliases m) (hne : aliases ≠ []) :
    TableInv size aliases [] m (aliases.length - 1) := by
  have hpos : 0 < aliases.length := List.length_pos_iff.2 hne
  refine ⟨by rw [h.iidLen]; omega, by rw [h.idLen]; omega, by omega, ?_, ?_, ?_, ?_, by simp, ?_, ?_, h.names⟩
  · intro row hr; rw [h.rows row hr]; simp
  · intro name k hk
    have := inClass_lt ((h.find name k).1 hk)
    omega
  · intro name i _; exact h.find name i
  · intro a b k hk ha _
    have := inClass_lt ((h.find a k).1 ha)
    omega
  · intro name k hk hf
    have := inClass_lt ((h.find name k).1 hf)
    omega
  · intro k t num
    constructor
    · intro hx
      exfalso
      unfold Maps.calls at hx
      rw [List.getD_eq_getElem?_getD, List.getD_eq_getElem?_getD] at hx
      cases hr : m.iid[k]? with
      | none => rw [hr] at hx; simp at hx
      | some row =>
        rw [hr] at hx
        have hrow := h.rows row (List.mem_of_getElem? hr)
        subst hrow
        simp only [Option.getD_some, List.getElem?_replicate] at hx
        split at hx <;> simp at hx
    · rintro ⟨n, hn, _⟩; cases hn

/-- The invariant holds of the finished table. -/
theorem create_inv (aliases : List (List String)) (tables : List (List (Nat × String))) (hne : aliases ≠ []) (hl : ∀ l ∈ aliases, l ≠ []) :
    TableInv tables.length aliases (entries tables) (create aliases tables).1 (create aliases tables).2 := by
  unfold create
  have ha := addLines_inv tables.length aliases [] _ (aliasInv_nil tables.length)
  simp only [List.nil_append, List.length_nil] at ha
  have hm := maxId_eq tables.length aliases _ ha hne hl
  have hi := tableInv_init tables.length aliases _ ha hne
  rw [← hm] at hi
  have := entries_inv tables.length aliases (entries tables) [] _ _ ?_ hi
  · simpa using this
  · rintro ⟨t, num, name⟩ he
    obtain ⟨rows, ht, _⟩ := (mem_entries tables t num name).1 he
    exact (List.getElem?_eq_some_iff.1 ht).1

/-! ## Handler tables -/

theorem mem_visits (calls : Nat → List Nat) (count i c : Nat) : (i, c) ∈ visits calls count ↔ i < count ∧ c ∈ calls i := by
  unfold visits
  simp only [List.mem_flatMap, List.mem_range, List.mem_map, Prod.mk.injEq]
  constructor
  · rintro ⟨a, ha, b, hb, rfl, rfl⟩; exact ⟨ha, hb⟩
  · rintro ⟨h1, h2⟩; exact ⟨i, h1, c, h2, rfl, rfl⟩

/-- The handler a policy value stands for. -/
def Pol.codeOf {C : Type} : Option (Pol C) → Int
  | none => 0
  | some (.int h) => h
  | some (.fn _) => 2

/-- After the loop every number has either its initial handler or that of one of its ids; and it has the
latter if it has an id. -/
theorem fold_assign {C : Type} (sec : Nat → Option (Pol C)) (vs : List (Nat × Nat)) : ∀ (t : Table C) (n : Nat),
    ((∀ i, (i, n) ∉ vs) → (vs.foldl (fun t v => assign sec t v.1 v.2) t).code n = t.code n ∧
        (vs.foldl (fun t v => assign sec t v.1 v.2) t).cb n = t.cb n) ∧
      ((∃ i, (i, n) ∈ vs) → n < 568 → ∃ i, (i, n) ∈ vs ∧ (vs.foldl (fun t v => assign sec t v.1 v.2) t).code n = Pol.codeOf (sec i) ∧
        ∀ c, sec i = some (.fn c) → (vs.foldl (fun t v => assign sec t v.1 v.2) t).cb n = some c) := by
  induction vs with
  | nil => intro t n; simp
  | cons v vs ih =>
    obtain ⟨i, call⟩ := v
    intro t n
    rw [List.foldl_cons]
    obtain ⟨ih1, ih2⟩ := ih (assign sec t i call) n
    constructor
    · intro h
      have hne : n ≠ call := by
        intro he
        exact h i (by rw [he]; simp)
      obtain ⟨h1, h2⟩ := ih1 fun j hj => h j (List.mem_cons_of_mem _ hj)
      rw [h1, h2]
      unfold assign
      split
      · split <;> simp [hne]
      · exact ⟨rfl, rfl⟩
    · rintro ⟨j, hj⟩ hlt
      by_cases hex : ∃ i, (i, n) ∈ vs
      · obtain ⟨k, hk, hc⟩ := ih2 hex hlt
        exact ⟨k, List.mem_cons_of_mem _ hk, hc⟩
      · have hno : ∀ i, (i, n) ∉ vs := fun i hi => hex ⟨i, hi⟩
        have hjc : (j, n) = (i, call) := by
          rcases List.mem_cons.1 hj with h | h
          · exact h
          · exact absurd h (hno j)
        cases hjc
        obtain ⟨h1, h2⟩ := ih1 hno
        refine ⟨i, by simp, ?_⟩
        rw [h1, h2]
        unfold assign
        rw [if_pos hlt]
        cases hs : sec i with
        | none => simp [Pol.codeOf]
        | some p => cases p <;> simp [Pol.codeOf]

theorem fold_white {C : Type} (sec : Nat → Option (Pol C)) (exits : List Nat) (vs : List (Nat × Nat)) : ∀ (w : Nat → Bool) (n : Nat),
    (vs.foldl (fun w v => if v.1 ∈ exits then w else match sec v.1 with
        | none => fun n => if n = v.2 then false else w n
        | some (.int h) => fun n => if n = v.2 then h == 1 else w n
        | some (.fn _) => w) w) n = true →
      w n = true ∨ ∃ i, (i, n) ∈ vs ∧ i ∉ exits ∧ sec i = some (.int 1) := by
  induction vs with
  | nil => intro w n h; exact .inl h
  | cons v vs ih =>
    obtain ⟨i, call⟩ := v
    intro w n h
    rw [List.foldl_cons] at h
    rcases ih _ n h with h | ⟨j, hj, hrest⟩
    · simp only at h
      split at h
      · exact .inl h
      · rename_i hne
        split at h
        · simp only at h
          split at h
          · cases h
          · exact .inl h
        · rename_i hp hs
          simp only at h
          split at h
          · rename_i hn
            right
            refine ⟨i, by rw [hn]; simp, hne, ?_⟩
            rw [beq_iff_eq] at h
            rw [hs, h]
          · exact .inl h
        · exact .inl h
    · exact .inr ⟨j, List.mem_cons_of_mem _ hj, hrest⟩

end Verif.Syscalls
