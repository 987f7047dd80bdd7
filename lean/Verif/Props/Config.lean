import Verif.Model.Config
import Mathlib.Tactic.Tauto
import Mathlib.Tactic.ByContra

/-!
# Configuration lookup (C29, C30)
-/

namespace Verif.Config

/-! ## Dictionaries -/

theorem lookup_map_set (l : List (Key × V)) (k k' : Key) (v : V) :
    (l.map fun e => if e.1 = k then (k, v) else e).lookup k' =
      if k' = k then (l.lookup k).map (fun _ => v) else l.lookup k' := by
  induction l with
  | nil => simp
  | cons e l ih =>
    obtain ⟨a, u⟩ := e
    simp only [List.map_cons]
    by_cases ha : a = k
    · subst ha
      simp only [if_true, List.lookup_cons]
      by_cases hk : k' = a
      · subst hk; simp
      · have : (k' == a) = false := by simpa using hk
        simp only [this, ih, hk, if_false]
    · simp only [ha, if_false, List.lookup_cons]
      by_cases hk : k' = a
      · subst hk
        simp [ha]
      · have : (k' == a) = false := by simpa using hk
        simp only [this, ih]
        have hak : (k == a) = false := by simpa using fun e => ha e.symm
        simp [hak]

theorem lookup_append' (l : List (Key × V)) (k k' : Key) (v : V) :
    (l ++ [(k, v)]).lookup k' = match l.lookup k' with | some u => some u | none => if k' = k then some v else none := by
  induction l with
  | nil => simp [List.lookup_cons]; split <;> simp_all
  | cons e l ih =>
    obtain ⟨a, u⟩ := e
    simp only [List.cons_append, List.lookup_cons, ih]
    split <;> simp_all

theorem get?_set (l : List (Key × V)) (k k' : Key) (v : V) :
    get? (set l k v) k' = if k' = k then some v else get? l k' := by
  unfold set get?
  split
  · rename_i h
    rw [lookup_map_set]
    by_cases hk : k' = k
    · subst hk
      obtain ⟨u, hu⟩ := Option.isSome_iff_exists.1 h
      simp [hu]
    · simp [hk]
  · rename_i h
    rw [lookup_append']
    by_cases hk : k' = k
    · subst hk
      have : l.lookup k' = none := Option.not_isSome_iff_eq_none.1 h
      simp only [this, if_true]
    · simp only [hk, if_false]
      split
      · rename_i hu; exact hu.symm
      · rename_i hu; exact hu.symm

theorem get?_del (l : List (Key × V)) (k k' : Key) :
    get? (del l k) k' = if k' = k then none else get? l k' := by
  unfold del get?
  induction l with
  | nil => simp
  | cons e l ih =>
    obtain ⟨a, u⟩ := e
    simp only [List.filter_cons]
    by_cases ha : a = k
    · subst ha
      simp only [ne_eq, not_true_eq_false, decide_false, Bool.false_eq_true, if_false, ih, List.lookup_cons]
      by_cases hk : k' = a
      · simp [hk]
      · have : (k' == a) = false := by simpa using hk
        simp [hk, this]
    · simp only [ne_eq, ha, not_false_eq_true, decide_true, if_true, List.lookup_cons, ih]
      by_cases hk : k' = a
      · subst hk; simp [ha]
      · have : (k' == a) = false := by simpa using hk
        simp [this]

/-! ## Static lookups -/

/-- No dynamic key for `item` in the object. -/
def NoDyn (heap : Heap) (r : Nat) (item : Key) : Prop :=
  ∀ s, item = .str s → ∀ l, heap[r]? = some (.dict l) →
    get? l (.str (s ++ ['+', '+'])) = none ∧ get? l (.str (s ++ ['+'])) = none

/-- The value stored directly in the object under the item.  Dictionaries are indexed by name, lists
by position. -/
def Has (heap : Heap) (r : Nat) (item : Key) (v : V) : Prop :=
  (∃ l s, heap[r]? = some (.dict l) ∧ item = .str s ∧ l.lookup (.str s) = some v) ∨
  (∃ l n, heap[r]? = some (.list l) ∧ item = .int n ∧
    ((∃ i : Nat, n = i ∧ l[i]? = some v) ∨ (∃ i : Nat, n = -(i + 1) ∧ l.reverse[i]? = some v)))

theorem index_iff (l : List V) (n : Int) (v : V) : index l n = some v ↔
    ((∃ i : Nat, n = i ∧ l[i]? = some v) ∨ (∃ i : Nat, n = -(i + 1) ∧ l.reverse[i]? = some v)) := by
  unfold index
  split
  · rename_i h
    constructor
    · intro hv; exact .inl ⟨n.toNat, by omega, hv⟩
    · rintro (⟨i, rfl, hv⟩ | ⟨i, hi, -⟩)
      · simpa using hv
      · omega
  · rename_i h
    split
    · rename_i h'
      constructor
      · intro hv
        refine .inr ⟨(-n - 1).toNat, by omega, ?_⟩
        have hlt : (n + l.length).toNat < l.length := by omega
        rw [List.getElem?_reverse (by omega)]
        rw [← hv]
        congr 1
        omega
      · rintro (⟨i, rfl, -⟩ | ⟨i, hi, hv⟩)
        · omega
        · have hlt : i < l.length := by omega
          rw [List.getElem?_reverse hlt] at hv
          rw [← hv]
          congr 1
          omega
    · rename_i h'
      constructor
      · intro hv; cases hv
      · rintro (⟨i, rfl, -⟩ | ⟨i, hi, hv⟩)
        · omega
        · have hlt : ¬ i < l.length := by omega
          rw [List.getElem?_eq_none (by simpa using hlt)] at hv
          cases hv

theorem ownDyn_static (ev : Ev) {st : St} {r : Nat} {chain : Chain} {item : Key} (hd : NoDyn st.heap r item) :
    ∃ o, ownDyn ev true st r chain item = (st, .ok o) ∧ ∀ v, o = some v ↔ Has st.heap r item v := by
  unfold ownDyn
  split
  · rename_i l _ heq
    split
    · rename_i n
      refine ⟨none, rfl, ?_⟩
      intro v
      simp only [reduceCtorEq, false_iff]
      rintro (⟨l', s, -, h, -⟩ | ⟨l', n', h, -⟩)
      · cases h
      · rw [heq] at h; cases h
    · rename_i s
      obtain ⟨h1, h2⟩ := hd s rfl l heq
      have : dynamics ev st r chain l s = .ok st := by
        unfold dynamics
        simp only [h1, h2]
      simp only [this]
      refine ⟨_, rfl, ?_⟩
      intro v
      simp only [own, heq, get?]
      constructor
      · intro h; exact .inl ⟨l, s, heq, rfl, h⟩
      · rintro (⟨l', s', h, h', h''⟩ | ⟨l', n', h, -⟩)
        · rw [heq] at h; cases h; cases h'; exact h''
        · rw [heq] at h; cases h
  · rename_i h
    refine ⟨_, rfl, ?_⟩
    intro v
    unfold own
    split
    · rename_i l heq
      exact absurd heq (by simpa using h l)
    · rename_i l heq
      split
      · rename_i n
        rw [index_iff]
        constructor
        · intro hv; exact .inr ⟨l, n, heq, rfl, hv⟩
        · rintro (⟨l', s', h, -⟩ | ⟨l', n', h, h', h''⟩)
          · rw [heq] at h; cases h
          · rw [heq] at h; cases h; cases h'; exact h''
      · simp only [reduceCtorEq, false_iff]
        rintro (⟨l', s', h, -⟩ | ⟨l', n', -, h', -⟩)
        · rw [heq] at h; cases h
        · cases h'
    · rename_i heq
      simp only [reduceCtorEq, false_iff]
      rintro (⟨l', s', h, -⟩ | ⟨l', n', h, -⟩)
      · rw [heq] at h; cases h
      · rw [heq] at h; cases h

theorem Has_nonEmpty {heap : Heap} {r : Nat} {item : Key} {v : V} (h : Has heap r item v) : nonEmpty heap r = true := by
  unfold nonEmpty
  rcases h with ⟨l, s, h, -, hl⟩ | ⟨l, n, h, -, hl⟩
  · rw [h]
    cases l <;> simp_all [Obj.len]
  · rw [h]
    have : l ≠ [] := by
      rintro rfl
      rcases hl with ⟨i, -, h⟩ | ⟨i, -, h⟩ <;> simp at h
    cases l <;> simp_all [Obj.len]

/-- **C29**: a node's own value is used; otherwise that of the nearest enclosing node that has one
(`pre` are the nodes in between, which have none and of which the enclosing ones are not empty).  The
result's parent is the node it was found in. -/
theorem C29_nearest (ev : Ev) (st : St) (pre rest : Chain) (r : Nat) (item : Key) (v : V)
    (hdyn : ∀ p ∈ pre ++ [r], NoDyn st.heap p item)
    (hpre : ∀ p ∈ pre, ∀ u, ¬ Has st.heap p item u)
    (hne : ∀ p ∈ pre.tail, nonEmpty st.heap p = true)
    (hv : Has st.heap r item v) :
    getitem ev true st (pre ++ r :: rest) item = (st, .ok (wrap v (r :: rest))) := by
  induction pre with
  | nil =>
    obtain ⟨o, ho, hh⟩ := ownDyn_static ev (chain := r :: rest) (hdyn r (by simp))
    have : o = some v := (hh v).2 hv
    subst this
    rw [List.nil_append, getitem, ho]
  | cons p pre ih =>
    obtain ⟨o, ho, hh⟩ := ownDyn_static ev (chain := p :: (pre ++ r :: rest)) (hdyn p (by simp))
    have : o = none := by
      cases o with
      | none => rfl
      | some u => exact absurd ((hh u).1 rfl) (hpre p (by simp) u)
    subst this
    have hrec := ih (fun q hq => hdyn q (by simp only [List.cons_append, List.mem_cons]; exact .inr hq))
      (fun q hq => hpre q (List.mem_cons_of_mem _ hq))
      (fun q hq => hne q (List.mem_of_mem_tail hq))
    rw [List.cons_append, getitem, ho]
    cases pre with
    | nil =>
      simp only [List.nil_append] at hrec ⊢
      rw [if_pos (Has_nonEmpty hv)]
      exact hrec
    | cons q pre =>
      simp only [List.cons_append] at hrec ⊢
      rw [if_pos (hne q (by simp))]
      exact hrec

/-- **C29**: nothing is found exactly when neither the node nor an enclosing node has the item. -/
theorem C29_missing (ev : Ev) (st : St) (chain : Chain) (item : Key)
    (hdyn : ∀ p ∈ chain, NoDyn st.heap p item) (hno : ∀ p ∈ chain, ∀ u, ¬ Has st.heap p item u) :
    getitem ev true st chain item = (st, .ok (.value .null)) := by
  induction chain with
  | nil => rfl
  | cons p rest ih =>
    obtain ⟨o, ho, hh⟩ := ownDyn_static ev (chain := p :: rest) (hdyn p (by simp))
    have : o = none := by
      cases o with
      | none => rfl
      | some u => exact absurd ((hh u).1 rfl) (hno p (by simp) u)
    subst this
    have hrec := ih (fun q hq => hdyn q (List.mem_cons_of_mem _ hq)) (fun q hq => hno q (List.mem_cons_of_mem _ hq))
    rw [getitem, ho]
    cases rest with
    | nil => rfl
    | cons q rest =>
      simp only
      split
      · exact hrec
      · rfl

/-- **C29**: an empty enclosing node ends the search. -/
theorem C29_empty_parent (ev : Ev) (st : St) (pre rest : Chain) (e : Nat) (item : Key) (hp : pre ≠ [])
    (hdyn : ∀ p ∈ pre, NoDyn st.heap p item) (hpre : ∀ p ∈ pre, ∀ u, ¬ Has st.heap p item u)
    (he : nonEmpty st.heap e = false) :
    getitem ev true st (pre ++ e :: rest) item = (st, .ok (.value .null)) := by
  induction pre with
  | nil => exact absurd rfl hp
  | cons p pre ih =>
    obtain ⟨o, ho, hh⟩ := ownDyn_static ev (chain := p :: (pre ++ e :: rest)) (hdyn p (by simp))
    have : o = none := by
      cases o with
      | none => rfl
      | some u => exact absurd ((hh u).1 rfl) (hpre p (by simp) u)
    subst this
    rw [List.cons_append, getitem, ho]
    cases pre with
    | nil =>
      simp only [List.nil_append]
      rw [if_neg (by simp [he])]
    | cons q pre =>
      simp only [List.cons_append] at ih ⊢
      split
      · exact ih (by simp) (fun q hq => hdyn q (List.mem_cons_of_mem _ hq)) (fun q hq => hpre q (List.mem_cons_of_mem _ hq))
      · rfl

/-- **C29**: an explicit null hides the value of an enclosing node. -/
theorem C29_null_hides (ev : Ev) (st : St) (r : Nat) (rest : Chain) (item : Key) (hd : NoDyn st.heap r item)
    (hv : Has st.heap r item .null) : getitem ev true st (r :: rest) item = (st, .ok (.value .null)) :=
  C29_nearest ev st [] rest r item .null (by simpa using hd) (by simp) (by simp) hv

theorem foldl_set_lookup (raw : List (Key × V)) (hn : (raw.map (·.1)).Nodup) (k : Key) :
    ∀ acc, get? (raw.foldl (fun acc e => set acc e.1 e.2) acc) k =
      match raw.lookup k with | some v => some v | none => get? acc k := by
  induction raw with
  | nil => intro acc; rfl
  | cons e raw ih =>
    obtain ⟨a, u⟩ := e
    intro acc
    simp only [List.map_cons, List.nodup_cons] at hn
    rw [List.foldl_cons, ih hn.2, get?_set, List.lookup_cons]
    by_cases hk : k = a
    · subst hk
      have : raw.lookup k = none := by
        rw [List.lookup_eq_none_iff]
        intro x hx
        by_contra hne
        have : k = x.1 := by simpa using hne
        exact hn.1 (List.mem_map.2 ⟨x, hx, this.symm⟩)
      simp [this]
    · have : (k == a) = false := by simpa using hk
      simp [this, hk]

/-- **C29**: explicit entries override defaults, and defaults are used for all other keys. -/
theorem C29_defaults (ds raw : List (Key × V)) (hn : (raw.map (·.1)).Nodup) (k : Key) :
    (initial (some ds) (some raw)).lookup k =
      match raw.lookup k with | some v => some v | none => ds.lookup k := by
  unfold initial
  split
  · rename_i d ds' heq
    cases heq
    exact foldl_set_lookup raw hn k _
  · rename_i hne
    have : ds = [] := by
      cases ds with
      | nil => rfl
      | cons d ds => exact absurd rfl (hne d ds)
    subst this
    simp only [Option.getD_some, List.lookup_nil]
    split
    · rename_i hu; exact hu
    · rename_i hu; exact hu

/-- **C29 (partial)**: `get(key, default)` returns the configured value if it counts as true, and the
default when nothing is configured.  Missing: configured values that count as false
(`C29_get_falsy_fails`). -/
theorem C29_get_partial (ev : Ev) (st : St) (pre rest : Chain) (r : Nat) (item : Key) (v : V) (dflt : Res)
    (hdyn : ∀ p ∈ pre ++ [r], NoDyn st.heap p item)
    (hpre : ∀ p ∈ pre, ∀ u, ¬ Has st.heap p item u)
    (hne : ∀ p ∈ pre.tail, nonEmpty st.heap p = true)
    (hv : Has st.heap r item v) (ht : (wrap v (r :: rest)).truthy st.heap = true) :
    get ev true st (pre ++ r :: rest) item dflt = (st, .ok (wrap v (r :: rest))) := by
  rw [get, C29_nearest ev st pre rest r item v hdyn hpre hne hv]
  simp [ht]

/-- **C29**: the default is used when nothing is configured. -/
theorem C29_get_default (ev : Ev) (st : St) (chain : Chain) (item : Key) (dflt : Res)
    (hdyn : ∀ p ∈ chain, NoDyn st.heap p item) (hno : ∀ p ∈ chain, ∀ u, ¬ Has st.heap p item u) :
    get ev true st chain item dflt = (st, .ok dflt) := by
  rw [get, C29_missing ev st chain item hdyn hno]
  rfl

/-- **C29 fails** for `get` with a value that counts as false: `cached: false` reads as the default
`True`. -/
theorem C29_get_falsy_fails (ev : Ev) : ∃ (st : St) (item : Key),
    getitem ev true st [0] item = (st, .ok (.value (.bool false))) ∧
    get ev true st [0] item (.value (.bool true)) = (st, .ok (.value (.bool true))) :=
  ⟨⟨[.dict [(.str "cached".toList, .bool false)]], []⟩, .str "cached".toList, by rfl, by rfl⟩

/-- **C29**: attribute access is lookup of the name when that finds something. -/
theorem C29_attr (ev : Ev) (st : St) (pre rest : Chain) (r : Nat) (s : Name) (v : V)
    (hdyn : ∀ p ∈ pre ++ [r], NoDyn st.heap p (.str s))
    (hpre : ∀ p ∈ pre, ∀ u, ¬ Has st.heap p (.str s) u)
    (hne : ∀ p ∈ pre.tail, nonEmpty st.heap p = true)
    (hv : Has st.heap r (.str s) v) (hnn : v ≠ .null) :
    getattr ev true st (pre ++ r :: rest) s = (st, .ok (wrap v (r :: rest))) := by
  rw [getattr, C29_nearest ev st pre rest r (.str s) v hdyn hpre hne hv]
  have : wrap v (r :: rest) ≠ .value .null := by
    cases v <;> simp_all [wrap]
  simp only [C29_nearest ev st pre rest r (.str s) v hdyn hpre hne hv]

/-- **C29**: and lookup of the dashed name when neither the node nor an enclosing one has the name. -/
theorem C29_attr_dashed (ev : Ev) (st : St) (chain : Chain) (s : Name)
    (hdyn : ∀ p ∈ chain, NoDyn st.heap p (.str s)) (hno : ∀ p ∈ chain, ∀ u, ¬ Has st.heap p (.str s) u) :
    getattr ev true st chain s = getitem ev true st chain (.str (s.map fun c => if c = '_' then '-' else c)) := by
  rw [getattr, C29_missing ev st chain (.str s) hdyn hno]
  rfl

/-- **C29 fails** for the dashed spelling: an own `time-limit` loses against an enclosing
`time_limit`. -/
theorem C29_dashed_own_fails (ev : Ev) : ∃ (st : St) (s : Name),
    getitem ev true st [1, 0] (.str (dashed s)) = (st, .ok (.value (.int 5))) ∧
    getattr ev true st [1, 0] s = (st, .ok (.value (.int 2))) :=
  ⟨⟨[.dict [(.str "time_limit".toList, .int 2), (.str "x".toList, .ref 1)],
     .dict [(.str "time-limit".toList, .int 5)]], []⟩, "time_limit".toList, by rfl, by rfl⟩

/-- The configuration of the docstring of `ConfigNode` (abridged): a case inside a batch inside the
list of test cases. -/
def sample : St :=
  ⟨[.dict [(.str "output_prefix_length".toList, .int 5), (.str "test_cases".toList, .ref 1)],
    .list [.ref 2],
    .dict [(.str "batched".toList, .ref 3), (.str "points".toList, .int 10)],
    .list [.ref 4, .ref 5],
    .dict [(.str "in".toList, .str "ruby.1.in".toList)],
    .dict [(.str "output_prefix_length".toList, .int 0)]], []⟩

/-- The node `node.test_cases[0].batched[0]` is found by lookups, and inherits. -/
example (ev : Ev) : getitem ev true sample [0] (.str "test_cases".toList) = (sample, .ok (.node [1, 0])) ∧
    getitem ev true sample [1, 0] (.int 0) = (sample, .ok (.node [2, 1, 0])) ∧
    getitem ev true sample [2, 1, 0] (.str "batched".toList) = (sample, .ok (.node [3, 2, 1, 0])) ∧
    getitem ev true sample [3, 2, 1, 0] (.int (-2)) = (sample, .ok (.node [4, 3, 2, 1, 0])) ∧
    getitem ev true sample [4, 3, 2, 1, 0] (.str "points".toList) = (sample, .ok (.value (.int 10))) ∧
    getitem ev true sample [4, 3, 2, 1, 0] (.str "output_prefix_length".toList) = (sample, .ok (.value (.int 5))) ∧
    getitem ev true sample [5, 3, 2, 1, 0] (.str "output_prefix_length".toList) = (sample, .ok (.value (.int 0))) := by
  refine ⟨rfl, rfl, rfl, rfl, rfl, rfl, rfl⟩

/-- The hypotheses of `C29_nearest` hold for the inherited `points`. -/
example : (∀ p ∈ [4, 3] ++ [2], NoDyn sample.heap p (.str "points".toList)) ∧
    (∀ p ∈ [4, 3], ∀ u, ¬ Has sample.heap p (.str "points".toList) u) ∧
    (∀ p ∈ [4, 3].tail, nonEmpty sample.heap p = true) ∧ Has sample.heap 2 (.str "points".toList) (.int 10) := by
  refine ⟨?_, ?_, by simp [nonEmpty, sample, Obj.len], .inl ⟨_, _, rfl, rfl, rfl⟩⟩
  · intro p hp s hs l hl
    cases hs
    simp only [List.cons_append, List.nil_append, List.mem_cons, List.not_mem_nil, or_false] at hp
    rcases hp with rfl | rfl | rfl <;> simp only [sample, List.getElem?_cons_succ, List.getElem?_cons_zero,
      Option.some.injEq, Obj.dict.injEq, reduceCtorEq] at hl
    · subst hl; exact ⟨rfl, rfl⟩
    · subst hl; exact ⟨rfl, rfl⟩
  · intro p hp u hu
    simp only [List.mem_cons, List.not_mem_nil, or_false] at hp
    rcases hp with rfl | rfl
    · rcases hu with ⟨l, s, hl, hs, hh⟩ | ⟨l, n, -, hn, -⟩
      · cases hl; cases hs; cases hh
      · cases hn
    · rcases hu with ⟨l, s, hl, -⟩ | ⟨l, n, -, hn, -⟩
      · cases hl
      · cases hn

/-! ## Dynamic keys (C30) -/

/-- The object has the key. -/
def HasKey (heap : Heap) (r : Nat) (k : Name) : Prop :=
  ∃ l, heap[r]? = some (.dict l) ∧ ∃ v, l.lookup (.str k) = some v

/-- What one access to a node's own object can do. -/
theorem ownDyn_cases (ev : Ev) (dynamic : Bool) (st : St) (r : Nat) (chain : Chain) (item : Key) :
    (ownDyn ev dynamic st r chain item).1 = st ∨
    ∃ s l objs v, item = .str s ∧ st.heap[r]? = some (.dict l) ∧
      ∃ k, (k = s ++ ['+', '+'] ∨ (k = s ++ ['+'] ∧ l.lookup (.str (s ++ ['+', '+'])) = none)) ∧
        (∃ code, l.lookup (.str k) = some code) ∧
        ownDyn ev dynamic st r chain item =
          (⟨st.heap.set r (.dict (set (del l (.str k)) (.str s) v)) ++ objs, st.log ++ [(r, k)]⟩, .ok (some v)) := by
  have key : ∀ l s k full code, st.heap[r]? = some (.dict l) → k ≠ s → ∀ st', runDynamic ev st r chain l s k full code = .ok st' →
      ∃ objs v, st' = ⟨st.heap.set r (.dict (set (del l (.str k)) (.str s) v)) ++ objs, st.log ++ [(r, k)]⟩ ∧
        own st'.heap r (.str s) = some v := by
    intro l s k full code hl hks st' h
    unfold runDynamic at h
    split at h
    · cases h
    · rename_i objs v _
      cases h
      refine ⟨objs, v, rfl, ?_⟩
      have hlt : r < st.heap.length := by
        rcases Nat.lt_or_ge r st.heap.length with h | h
        · exact h
        · rw [List.getElem?_eq_none h] at hl; cases hl
      have : (st.heap.set r (.dict (set (del l (.str k)) (.str s) v)) ++ objs)[r]? =
          some (.dict (set (del l (.str k)) (.str s) v)) := by
        rw [List.getElem?_append_left (by simpa using hlt)]
        simp [hlt]
      simp only [own, this, get?_set, if_true]
  unfold ownDyn
  split
  · rename_i _ _ l heq
    split
    · exact .inl rfl
    · rename_i _ s
      have hne1 : s ++ ['+', '+'] ≠ s := by intro h; have := congrArg List.length h; simp at this
      have hne2 : s ++ ['+'] ≠ s := by intro h; have := congrArg List.length h; simp at this
      unfold dynamics
      rcases h1 : get? l (.str (s ++ ['+', '+'])) with _ | code
      · rcases h2 : get? l (.str (s ++ ['+'])) with _ | code
        · exact .inl rfl
        · simp only
          rcases h3 : runDynamic ev st r chain l s (s ++ ['+']) false code with e | st'
          · exact .inl rfl
          · obtain ⟨objs, v, rfl, hown⟩ := key l s _ _ _ heq hne2 st' h3
            exact .inr ⟨s, l, objs, v, rfl, heq, _, .inr ⟨rfl, h1⟩, ⟨code, h2⟩, by simp only [hown]⟩
      · simp only
        rcases h3 : runDynamic ev st r chain l s (s ++ ['+', '+']) true code with e | st'
        · exact .inl rfl
        · obtain ⟨objs, v, rfl, hown⟩ := key l s _ _ _ heq hne1 st' h3
          exact .inr ⟨s, l, objs, v, rfl, heq, _, .inl rfl, ⟨code, h1⟩, by simp only [hown]⟩
  · exact .inl rfl

/-- What one lookup can do to the state. -/
theorem getitem_cases (ev : Ev) (dynamic : Bool) (chain : Chain) (item : Key) : ∀ st,
    (getitem ev dynamic st chain item).1 = st ∨
    ∃ r ∈ chain, ∃ s l objs v, item = .str s ∧ st.heap[r]? = some (.dict l) ∧
      ∃ k, (k = s ++ ['+', '+'] ∨ (k = s ++ ['+'] ∧ l.lookup (.str (s ++ ['+', '+'])) = none)) ∧
        (∃ code, l.lookup (.str k) = some code) ∧
        (getitem ev dynamic st chain item).1 =
          ⟨st.heap.set r (.dict (set (del l (.str k)) (.str s) v)) ++ objs, st.log ++ [(r, k)]⟩ := by
  induction chain with
  | nil => intro st; exact .inl rfl
  | cons r rest ih =>
    intro st
    rw [getitem]
    have h := ownDyn_cases ev dynamic st r (r :: rest) item
    rcases ho : ownDyn ev dynamic st r (r :: rest) item with ⟨st', e | o⟩
    · rw [ho] at h
      rcases h with h | ⟨s, l, objs, v, h1, h2, k, h3, h4, h5⟩
      · exact .inl h
      · cases h5
    · rw [ho] at h
      rcases h with h | ⟨s, l, objs, v, h1, h2, k, h3, h4, h5⟩
      · simp only at h
        subst h
        cases o with
        | some v => exact .inl rfl
        | none =>
          simp only
          cases rest with
          | nil => exact .inl rfl
          | cons p rest =>
            simp only
            split
            · rcases ih st' with h | ⟨r', hr', h⟩
              · exact .inl h
              · exact .inr ⟨r', List.mem_cons_of_mem _ hr', h⟩
            · exact .inl rfl
      · cases h5
        exact .inr ⟨r, by simp, s, l, objs, v, h1, h2, k, h3, h4, rfl⟩

/-- A name that is not the name of a dynamic key. -/
def Plain : Key → Prop
  | .str s => ∀ t, s ≠ t ++ ['+']
  | .int _ => True

/-- Invariant: evaluated keys are dynamic keys and are gone from their object. -/
def LogInv (st : St) : Prop :=
  st.log.Nodup ∧ ∀ e ∈ st.log, e.1 < st.heap.length ∧ (∃ t, e.2 = t ++ ['+']) ∧ ¬ HasKey st.heap e.1 e.2

theorem lt_of_get {heap : Heap} {r : Nat} {o : Obj} (h : heap[r]? = some o) : r < heap.length := by
  rcases Nat.lt_or_ge r heap.length with h' | h'
  · exact h'
  · rw [List.getElem?_eq_none h'] at h; cases h

theorem heap_other {heap objs : Heap} {r r' : Nat} {o : Obj} (hr : r' < heap.length) (hne : r ≠ r') :
    (heap.set r o ++ objs)[r']? = heap[r']? := by
  rw [List.getElem?_append_left (by simpa using hr), List.getElem?_set_ne hne]

theorem heap_same {heap objs : Heap} {r : Nat} {o : Obj} (hr : r < heap.length) :
    (heap.set r o ++ objs)[r]? = some o := by
  rw [List.getElem?_append_left (by simpa using hr)]
  simp [hr]

theorem LogInv_getitem (ev : Ev) (dynamic : Bool) (st : St) (chain : Chain) (item : Key) (hp : Plain item)
    (h : LogInv st) : LogInv (getitem ev dynamic st chain item).1 := by
  rcases getitem_cases ev dynamic chain item st with he | ⟨r, -, s, l, objs, v, rfl, hl, k, hk, ⟨code, hc⟩, he⟩
  · rw [he]; exact h
  rw [he]
  obtain ⟨h1, h2⟩ := h
  have hr := lt_of_get hl
  have hks : ∃ t, k = t ++ ['+'] := by
    rcases hk with rfl | ⟨rfl, -⟩
    · exact ⟨s ++ ['+'], by simp⟩
    · exact ⟨s, rfl⟩
  have hnew : (r, k) ∉ st.log := by
    intro hm
    exact (h2 _ hm).2.2 ⟨l, hl, code, hc⟩
  refine ⟨?_, ?_⟩
  · simp only
    rw [List.nodup_append]
    refine ⟨h1, by simp, ?_⟩
    intro a ha b hb
    simp only [List.mem_singleton] at hb
    subst hb
    rintro rfl
    exact hnew ha
  · intro e he'
    have hlen : st.heap.length ≤ (st.heap.set r (.dict (set (del l (.str k)) (.str s) v)) ++ objs).length := by simp
    simp only [List.mem_append, List.mem_singleton] at he'
    rcases he' with he' | rfl
    · obtain ⟨a1, ⟨t, ht⟩, a3⟩ := h2 e he'
      refine ⟨Nat.lt_of_lt_of_le a1 hlen, ⟨t, ht⟩, ?_⟩
      rintro ⟨l', hl', u, hu⟩
      by_cases hre : r = e.1
      · rw [← hre] at hl'
        rw [heap_same hr] at hl'
        simp only [Option.some.injEq, Obj.dict.injEq] at hl'
        subst hl'
        change get? _ _ = _ at hu
        rw [get?_set, if_neg ?_, get?_del] at hu
        · split at hu
          · cases hu
          · exact a3 ⟨l, by rw [← hre]; exact hl, u, hu⟩
        · intro h
          cases h
          exact hp t ht
      · rw [heap_other a1 hre] at hl'
        exact a3 ⟨l', hl', u, hu⟩
    · refine ⟨Nat.lt_of_lt_of_le hr hlen, hks, ?_⟩
      rintro ⟨l', hl', u, hu⟩
      rw [heap_same hr] at hl'
      simp only [Option.some.injEq, Obj.dict.injEq] at hl'
      subst hl'
      change get? _ _ = _ at hu
      obtain ⟨t, ht⟩ := hks
      rw [get?_set, if_neg ?_, get?_del] at hu
      · simp at hu
      · intro h
        cases h
        exact hp t ht

/-- **C30 (partial)**: over any sequence of lookups of names not ending in `+`, through any nodes,
no dynamic key of an object is evaluated successfully twice.  Missing: lookups whose own name ends in
`+` (`C30_plus_name_fails`). -/
theorem C30_once_partial (ev : Ev) (dynamic : Bool) (ops : List (Chain × Key)) (hp : ∀ op ∈ ops, Plain op.2)
    (heap : Heap) : (lookups ev dynamic ⟨heap, []⟩ ops).log.Nodup := by
  have key : ∀ (ops : List (Chain × Key)) st, (∀ op ∈ ops, Plain op.2) → LogInv st → LogInv (lookups ev dynamic st ops) := by
    intro ops
    induction ops with
    | nil => intro st _ h; exact h
    | cons op ops ih =>
      intro st hp h
      exact ih _ (fun o ho => hp o (List.mem_cons_of_mem _ ho)) (LogInv_getitem ev dynamic st _ _ (hp op (by simp)) h)
  exact (key ops ⟨heap, []⟩ hp ⟨by simp, by simp⟩).1

/-- **C30**: a lookup evaluates nothing, or exactly one dynamic key, which is one for that very name in
the node or an enclosing node; without evaluation the configuration is unchanged. -/
theorem C30_lazy (ev : Ev) (dynamic : Bool) (st : St) (chain : Chain) (item : Key) :
    (getitem ev dynamic st chain item).1 = st ∨
    ∃ r ∈ chain, ∃ s, item = .str s ∧ ∃ k, (k = s ++ ['+'] ∨ k = s ++ ['+', '+']) ∧ HasKey st.heap r k ∧
      (getitem ev dynamic st chain item).1.log = st.log ++ [(r, k)] := by
  rcases getitem_cases ev dynamic chain item st with h | ⟨r, hr, s, l, objs, v, h1, h2, k, h3, ⟨code, h4⟩, h5⟩
  · exact .inl h
  · refine .inr ⟨r, hr, s, h1, k, by tauto, ⟨l, h2, code, h4⟩, by rw [h5]⟩

/-- The entry `s` of the dictionary at `r` is settled: it has the value `v` and no dynamic key. -/
def Settled (heap : Heap) (r : Nat) (s : Name) (v : V) : Prop :=
  ∃ l, heap[r]? = some (.dict l) ∧ l.lookup (.str s) = some v ∧
    l.lookup (.str (s ++ ['+'])) = none ∧ l.lookup (.str (s ++ ['+', '+'])) = none

theorem Settled_getitem (ev : Ev) (dynamic : Bool) (st : St) (r : Nat) (s : Name) (v : V) (chain : Chain)
    (item : Key) (hp : Plain item) (hs : Plain (.str s)) (h : Settled st.heap r s v) :
    Settled (getitem ev dynamic st chain item).1.heap r s v := by
  rcases getitem_cases ev dynamic chain item st with he | ⟨r', -, s', l', objs, v', rfl, hl', k, hk, ⟨code, hc⟩, he⟩
  · rw [he]; exact h
  rw [he]
  obtain ⟨l, hl, h1, h2, h3⟩ := h
  have hr := lt_of_get hl
  by_cases hre : r' = r
  · subst hre
    rw [hl] at hl'
    obtain rfl : l = l' := by simpa using hl'
    have hss : s ≠ s' := by
      rintro rfl
      rcases hk with rfl | ⟨rfl, -⟩
      · rw [h3] at hc; cases hc
      · rw [h2] at hc; cases hc
    have hsk : s ≠ k := by
      rintro rfl
      rcases hk with hk | ⟨hk, -⟩
      · exact hs (s' ++ ['+']) (by simpa using hk)
      · exact hs s' hk
    have e1 : s ++ ['+'] ≠ s' := fun h => hp s h.symm
    have e2 : s ++ ['+', '+'] ≠ s' := fun h => hp (s ++ ['+']) (by rw [← h]; simp)
    have gone : ∀ t : Name, t ≠ s' → l.lookup (.str t) = none →
        (set (del l (.str k)) (.str s') v').lookup (.str t) = none := by
      intro t ht hn
      change get? _ _ = none
      rw [get?_set, if_neg (by simpa using ht), get?_del]
      split
      · rfl
      · exact hn
    refine ⟨_, heap_same hr, ?_, gone _ e1 h2, gone _ e2 h3⟩
    change get? _ _ = _
    rw [get?_set, if_neg (by simpa using hss), get?_del, if_neg (by simpa using hsk)]
    exact h1
  · exact ⟨l, by rw [heap_other hr hre]; exact hl, h1, h2, h3⟩

theorem Settled_lookups (ev : Ev) (dynamic : Bool) (r : Nat) (s : Name) (v : V) (hs : Plain (.str s)) :
    ∀ (ops : List (Chain × Key)) st, (∀ op ∈ ops, Plain op.2) → Settled st.heap r s v →
      Settled (lookups ev dynamic st ops).heap r s v := by
  intro ops
  induction ops with
  | nil => intro st _ h; exact h
  | cons op ops ih =>
    intro st hp h
    exact ih _ (fun o ho => hp o (List.mem_cons_of_mem _ ho)) (Settled_getitem ev dynamic st r s v _ _ (hp op (by simp)) hs h)

theorem Settled_lookup (ev : Ev) (st : St) (r : Nat) (rest : Chain) (s : Name) (v : V) (h : Settled st.heap r s v) :
    getitem ev true st (r :: rest) (.str s) = (st, .ok (wrap v (r :: rest))) := by
  obtain ⟨l, hl, h1, h2, h3⟩ := h
  refine C29_nearest ev st [] rest r (.str s) v ?_ (by simp) (by simp) (.inl ⟨l, s, hl, rfl, h1⟩)
  intro p hp s' hs' l' hl'
  simp only [List.nil_append, List.mem_singleton] at hp
  subst hp
  cases hs'
  rw [hl] at hl'
  cases hl'
  exact ⟨h3, h2⟩

/-- **C30 (partial)**: the first lookup of a name with one dynamic key runs its code once, stores the
result in the node and returns it; after that, whatever other lookups are made, looking the name up
again returns the same value without running anything.  Missing: nodes with both `k+` and `k++`
(`C30_both_fails`) and names ending in `+`. -/
theorem C30_stored_partial (ev : Ev) (st : St) (r : Nat) (rest : Chain) (s : Name) (l : List (Key × V))
    (full : Bool) (code v : V) (objs : List Obj) (hs : Plain (.str s))
    (hl : st.heap[r]? = some (.dict l))
    (hk : l.lookup (.str (s ++ ['+', '+'])) = if full then some code else none)
    (hk' : l.lookup (.str (s ++ ['+'])) = if full then none else some code)
    (hev : ev full code st.heap (r :: rest) (l.lookup (.str s)) = some (objs, v)) :
    ∃ st', getitem ev true st (r :: rest) (.str s) = (st', .ok (wrap v (r :: rest))) ∧
      st'.log = st.log ++ [(r, s ++ (if full then ['+', '+'] else ['+']))] ∧
      ∀ ops : List (Chain × Key), (∀ op ∈ ops, Plain op.2) → ∀ rest',
        getitem ev true (lookups ev true st' ops) (r :: rest') (.str s) =
          (lookups ev true st' ops, .ok (wrap v (r :: rest'))) := by
  have hr := lt_of_get hl
  have main : ∀ k, (k = s ++ (if full then ['+', '+'] else ['+'])) →
      dynamics ev st r (r :: rest) l s =
        .ok ⟨st.heap.set r (.dict (set (del l (.str k)) (.str s) v)) ++ objs, st.log ++ [(r, k)]⟩ := by
    rintro k rfl
    unfold dynamics
    cases full with
    | true =>
      simp only [if_true] at hk hk' ⊢
      simp only [get?, hk, runDynamic, hev]
    | false =>
      simp only [Bool.false_eq_true, if_false] at hk hk' ⊢
      simp only [get?, hk, hk', runDynamic, hev]
  generalize hkk : s ++ (if full then ['+', '+'] else ['+']) = k at main
  have hset : Settled (st.heap.set r (.dict (set (del l (.str k)) (.str s) v)) ++ objs) r s v := by
    refine ⟨_, heap_same hr, ?_, ?_, ?_⟩
    · change get? _ _ = _
      rw [get?_set, if_pos rfl]
    · change get? _ _ = _
      rw [get?_set, if_neg (by simp), get?_del]
      cases full with
      | true =>
        simp only [if_true] at hkk hk'
        split
        · rfl
        · exact hk'
      | false =>
        simp only [Bool.false_eq_true, if_false] at hkk
        rw [if_pos (by rw [hkk])]
    · change get? _ _ = _
      rw [get?_set, if_neg (by simp), get?_del]
      cases full with
      | true =>
        simp only [if_true] at hkk
        rw [if_pos (by rw [hkk])]
      | false =>
        simp only [Bool.false_eq_true, if_false] at hkk hk
        split
        · rfl
        · exact hk
  refine ⟨⟨st.heap.set r (.dict (set (del l (.str k)) (.str s) v)) ++ objs, st.log ++ [(r, k)]⟩, ?_, rfl, ?_⟩
  · rw [getitem]
    have : ownDyn ev true st r (r :: rest) (.str s) =
        (⟨st.heap.set r (.dict (set (del l (.str k)) (.str s) v)) ++ objs, st.log ++ [(r, k)]⟩, .ok (some v)) := by
      unfold ownDyn
      rw [hl]
      simp only [main k rfl]
      have : own (st.heap.set r (.dict (set (del l (.str k)) (.str s) v)) ++ objs) r (.str s) = some v := by
        simp only [own, heap_same hr, get?_set, if_true]
      rw [this]
    rw [this]
  · intro ops hp rest'
    exact Settled_lookup ev _ r rest' s v (Settled_lookups ev true r s v hs ops _ hp hset)

/-- **C30**: code that fails leaves the configuration as it was and the lookup fails. -/
theorem C30_failed (ev : Ev) (st : St) (r : Nat) (rest : Chain) (s : Name) (l : List (Key × V)) (code : V)
    (hl : st.heap[r]? = some (.dict l)) (hk : l.lookup (.str (s ++ ['+', '+'])) = some code)
    (hev : ev true code st.heap (r :: rest) (l.lookup (.str s)) = none) :
    getitem ev true st (r :: rest) (.str s) = (st, .error .invalidInit) := by
  have : ownDyn ev true st r (r :: rest) (.str s) = (st, .error .invalidInit) := by
    unfold ownDyn
    rw [hl]
    simp only [dynamics, get?, hk, runDynamic, hev]
  rw [getitem, this]

/-- Code that always yields 7. -/
def seven : Ev := fun _ _ _ _ _ => some ([], .int 7)

/-- **C30 fails** when a node has both `k++` and `k+`: the second lookup of `k` runs code again. -/
theorem C30_both_fails : ∃ (st : St) (s : Name), Plain (.str s) ∧
    (getitem seven true st [0] (.str s)).1.log = [(0, s ++ ['+', '+'])] ∧
    (getitem seven true (getitem seven true st [0] (.str s)).1 [0] (.str s)).1.log =
      [(0, s ++ ['+', '+']), (0, s ++ ['+'])] :=
  ⟨⟨[.dict [(.str ['k', '+'], .null), (.str ['k', '+', '+'], .null)]], []⟩, ['k'], by
    intro t h
    have := congrArg List.getLast? h
    simp at this, by rfl, by rfl⟩

/-- **C30 fails** when names ending in `+` are themselves looked up: `k+` is evaluated twice. -/
theorem C30_plus_name_fails : ∃ (heap : Heap) (ops : List (Chain × Key)),
    (lookups seven true ⟨heap, []⟩ ops).log = [(0, ['k', '+']), (0, ['k', '+', '+', '+']), (0, ['k', '+'])] :=
  ⟨[.dict [(.str ['k', '+'], .null), (.str ['k', '+', '+', '+'], .null)]],
    [([0], .str ['k']), ([0], .str ['k', '+']), ([0], .str ['k'])], by rfl⟩

/-- The hypotheses of `C30_stored_partial` hold for a node with one dynamic key. -/
example : Plain (.str ['k']) ∧
    ([(Key.str ['k', '+'], V.null)].lookup (.str (['k'] ++ ['+', '+'])) = if false then some V.null else none) ∧
    ([(Key.str ['k', '+'], V.null)].lookup (.str (['k'] ++ ['+'])) = if false then none else some V.null) ∧
    seven false .null [.dict [(.str ['k', '+'], .null)]] [0] none = some ([], .int 7) := by
  refine ⟨?_, rfl, rfl, rfl⟩
  intro t h
  have := congrArg List.getLast? h
  simp at this

/-- A nested case reads a dynamic key of the root through two different nodes: evaluated once. -/
example : (lookups seven true ⟨[.dict [(.str ['k', '+'], .null), (.str ['c'], .ref 1)], .dict [(.str ['x'], .int 1)]], []⟩
    [([1, 0], .str ['k']), ([0], .str ['c']), ([0], .str ['k']), ([1, 0], .str ['k'])]).log = [(0, ['k', '+'])] := by rfl

/-! ## Going through a node -/

/-- **C29**: going through a list gives, in order, what its positions give; nothing is evaluated. -/
theorem C29_iter (ev : Ev) (dynamic : Bool) (st : St) (r : Nat) (rest : Chain) (l : List V) (hl : st.heap[r]? = some (.list l)) :
    (iter st.heap (r :: rest)).length = l.length ∧
    ∀ (i : Nat) x, (iter st.heap (r :: rest))[i]? = some x → getitem ev dynamic st (r :: rest) (.int i) = (st, .ok x) := by
  have hi : iter st.heap (r :: rest) = l.map fun v => wrap v (r :: rest) := by simp only [iter, hl]
  refine ⟨by rw [hi, List.length_map], fun i x hx => ?_⟩
  rw [hi, List.getElem?_map] at hx
  obtain ⟨v, hv, rfl⟩ := Option.map_eq_some_iff.1 hx
  have ho : ownDyn ev dynamic st r (r :: rest) (.int i) = (st, .ok (some v)) := by
    unfold ownDyn
    rw [hl]
    have : own st.heap r (.int i) = some v := by
      simp only [own, hl]
      exact (index_iff l i v).2 (.inl ⟨i, rfl, hv⟩)
    cases dynamic <;> simp only [this]
  rw [getitem, ho]

/-- **C29**: a setting that an element of a list of a node lacks is, when going through the list, that of the node. -/
theorem C29_iter_inherits (ev : Ev) (st : St) (r : Nat) (rest : Chain) (l : List V) (hl : st.heap[r]? = some (.list l)) (c : Chain)
    (hc : Res.node c ∈ iter st.heap (r :: rest)) (s : Name) (hd : ∀ p ∈ c.head?, NoDyn st.heap p (.str s))
    (hn : ∀ p ∈ c.head?, ∀ u, ¬ Has st.heap p (.str s) u) (hr : ∀ p ∈ rest.head?, nonEmpty st.heap p = true) :
    getitem ev true st c (.str s) = getitem ev true st rest (.str s) := by
  have hi : iter st.heap (r :: rest) = l.map fun v => wrap v (r :: rest) := by simp only [iter, hl]
  rw [hi, List.mem_map] at hc
  obtain ⟨v, hv, hw⟩ := hc
  cases v with
  | ref q =>
    simp only [wrap, Res.node.injEq] at hw
    subst hw
    have none_of : ∀ p (chain : Chain), NoDyn st.heap p (.str s) → (∀ u, ¬ Has st.heap p (.str s) u) →
        ownDyn ev true st p chain (.str s) = (st, .ok none) := by
      intro p chain h1 h2
      obtain ⟨o, ho, hh⟩ := ownDyn_static ev (chain := chain) h1
      cases o with
      | none => exact ho
      | some u => exact absurd ((hh u).1 rfl) (h2 u)
    have hlen : nonEmpty st.heap r = true := by
      cases l with
      | nil => cases hv
      | cons => simp [nonEmpty, hl, Obj.len]
    have h1 := none_of q (q :: r :: rest) (hd q rfl) (hn q rfl)
    have h2 := none_of r (r :: rest) (fun _ _ l' h => by rw [hl] at h; cases h) (fun u h => by
      rcases h with ⟨l', s', h, -⟩ | ⟨l', n, -, h, -⟩
      · rw [hl] at h; cases h
      · cases h)
    rw [getitem, h1]
    simp only [hlen, if_true]
    rw [getitem, h2]
    cases rest with
    | nil => rfl
    | cons p rest => simp only [hr p rfl, if_true]
  | _ => cases hw

/-- The two cases of the batch, gone through; the first has the prefix length of the problem. -/
example (ev : Ev) : iter sample.heap [3, 2, 1, 0] = [.node [4, 3, 2, 1, 0], .node [5, 3, 2, 1, 0]] ∧
    getitem ev true sample [4, 3, 2, 1, 0] (.str "output_prefix_length".toList) =
      getitem ev true sample [2, 1, 0] (.str "output_prefix_length".toList) := by
  refine ⟨rfl, C29_iter_inherits ev sample 3 [2, 1, 0] _ rfl _ (by simp [iter, sample, wrap]) _ ?_ ?_ ?_⟩
  · rintro p ⟨⟩ s hs l hl
    cases hs
    cases hl
    exact ⟨rfl, rfl⟩
  · rintro p ⟨⟩ u (⟨l, s, hl, hs, h⟩ | ⟨l, n, hl, -⟩)
    · cases hl
      cases hs
      have h' : (none : Option V) = some u := h
      cases h'
    · cases hl
  · rintro p ⟨⟩
    rfl

/-- **C29**: going through the entries of a dictionary gives what its keys give, where nothing is dynamic; its keys are listed once each, and going through
it without more gives them. For a list, there is an error. -/
theorem C29_items_partial (ev : Ev) (st : St) (r : Nat) (rest : Chain) :
    (∀ l, st.heap[r]? = some (.dict l) → (l.map (·.1)).Nodup → ∃ es, items st.heap (r :: rest) = some es ∧
      keys st.heap (r :: rest) = some (es.map (·.1)) ∧ es.map (·.1) = l.map (·.1) ∧
      iter st.heap (r :: rest) = es.map (fun e => .value e.1.value) ∧
      ∀ s x, (.str s, x) ∈ es → NoDyn st.heap r (.str s) → getitem ev true st (r :: rest) (.str s) = (st, .ok x)) ∧
    (∀ l, st.heap[r]? = some (.list l) → items st.heap (r :: rest) = none ∧ keys st.heap (r :: rest) = none) := by
  refine ⟨fun l hl hn => ?_, fun l hl => by simp [items, keys, hl]⟩
  refine ⟨l.map fun e => (e.1, wrap e.2 (r :: rest)), by simp only [items, hl], by simp [keys, hl], by simp, by simp [iter, hl], ?_⟩
  intro s x hx hd
  rw [List.mem_map] at hx
  obtain ⟨⟨k, v⟩, hm, he⟩ := hx
  simp only [Prod.mk.injEq] at he
  obtain ⟨rfl, rfl⟩ := he
  have hv : l.lookup (.str s) = some v := by
    clear hl hd
    induction l with
    | nil => cases hm
    | cons e l ih =>
      obtain ⟨k', v'⟩ := e
      simp only [List.map_cons, List.nodup_cons, List.mem_map, not_exists, not_and] at hn
      rcases List.mem_cons.1 hm with h | h
      · cases h; simp
      · have : Key.str s ≠ k' := fun e => hn.1 _ h e
        rw [List.lookup_cons]
        simp only [beq_eq_false_iff_ne.2 this]
        exact ih hn.2 h
  exact C29_nearest ev st [] rest r (.str s) v (by simpa using hd) (by simp) (by simp) (.inl ⟨l, s, hl, rfl, hv⟩)

/-- **C29 fails** for entries with a dynamic key: going through them gives the old value, and the code as an entry of its own. -/
theorem C29_items_fails : ∃ (st : St) (s : Name) (x : Res), items st.heap [0] = some [(.str s, x), (.str (s ++ ['+']), .value .null)] ∧
    ∃ st' y, getitem seven true st [0] (.str s) = (st', .ok y) ∧ y ≠ x :=
  ⟨⟨[.dict [(.str ['k'], .int 1), (.str ['k', '+'], .null)]], []⟩, ['k'], .value (.int 1), by rfl, _, _, by rfl, by decide⟩

/-- **C29 fails** for the sum of two lists: it has the elements of both, but these no longer see the settings around them. -/
theorem C29_add_fails (ev : Ev) (st : St) (a b : Nat) (ra rb : Chain) (l m : List V) (ha : st.heap[a]? = some (.list l))
    (hb : st.heap[b]? = some (.list m)) : ∃ heap c, add st.heap (a :: ra) (b :: rb) = some (heap, [c]) ∧
      heap[c]? = some (.list (l ++ m)) ∧ (∀ r, r < st.heap.length → heap[r]? = st.heap[r]?) ∧
      ∀ q, .ref q ∈ l ++ m → q < st.heap.length → Res.node [q, c] ∈ iter heap [c] ∧
        ∀ s, NoDyn st.heap q (.str s) → (∀ u, ¬ Has st.heap q (.str s) u) →
          getitem ev true ⟨heap, st.log⟩ [q, c] (.str s) = (⟨heap, st.log⟩, .ok (.value .null)) := by
  have hold : ∀ r, r < st.heap.length → (st.heap ++ [Obj.list (l ++ m)])[r]? = st.heap[r]? := fun r h => List.getElem?_append_left h
  have hnew : (st.heap ++ [Obj.list (l ++ m)])[st.heap.length]? = some (.list (l ++ m)) := by simp
  refine ⟨st.heap ++ [.list (l ++ m)], st.heap.length, by simp only [add, ha, hb], hnew, hold, ?_⟩
  intro q hq hlt
  refine ⟨?_, fun s hd hn => ?_⟩
  · simp only [iter, hnew]
    exact List.mem_map.2 ⟨.ref q, hq, rfl⟩
  · refine C29_missing ev ⟨_, st.log⟩ [q, st.heap.length] (.str s) ?_ ?_
    · intro p hp
      simp only [List.mem_cons, List.not_mem_nil, or_false] at hp
      rcases hp with rfl | rfl
      · intro t ht l' hl'
        exact hd t ht l' (by rw [← hold p hlt]; exact hl')
      · intro t ht l' hl'
        rw [hnew] at hl'
        cases hl'
    · intro p hp u hu
      simp only [List.mem_cons, List.not_mem_nil, or_false] at hp
      rcases hp with rfl | rfl
      · refine hn u ?_
        unfold Has at hu ⊢
        rw [hold p hlt] at hu
        exact hu
      · rcases hu with ⟨l', s', h, -⟩ | ⟨l', n, -, h, -⟩
        · rw [hnew] at h; cases h
        · cases h

example (ev : Ev) : ∃ heap c, add sample.heap [3, 2, 1, 0] [3, 2, 1, 0] = some (heap, [c]) ∧ Res.node [4, c] ∈ iter heap [c] :=
  have ⟨heap, c, h1, _, _, h4⟩ := C29_add_fails ev sample 3 3 [2, 1, 0] [2, 1, 0] _ _ rfl rfl
  ⟨heap, c, h1, (h4 4 (by simp) (by simp [sample])).1⟩

end Verif.Config
