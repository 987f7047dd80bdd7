import Verif.Model.Cache
import Mathlib.Tactic.Common
import Mathlib.Tactic.SplitIfs
import Mathlib.Data.List.Induction

/-!
# C45 Compiled-binary cache identity; C46 Compiled-binary cache lifetime; C61 Directories are removed
-/

namespace Verif.Cache

/-! ## Keys -/

private theorem append_inj_len {α : Type} {a b c d : List α} (h : a ++ b = c ++ d) (hl : a.length = c.length) :
    a = c ∧ b = d := List.append_inj h hl

/-- For one class of executor and one problem, executors share an entry exactly if their sources are the
same. What is missing: nothing separates the problem from the source, nor the class from the module. -/
theorem C45_base_partial (r s : Request) (hc : r.cls = s.cls) (hm : r.mod = s.mod) (hp : r.problem = s.problem) :
    material r = material s ↔ r = s := by
  constructor
  · intro h
    unfold material at h
    rw [hc, hm, hp] at h
    have := List.append_cancel_left (List.append_cancel_left h)
    cases r; cases s; simp_all
  · rintro rfl; rfl

private theorem flatten_inj : ∀ (a b : List Bytes), a.map List.length = b.map List.length → a.flatten = b.flatten → a = b := by
  intro a
  induction a with
  | nil => intro b h _; cases b <;> simp_all
  | cons x a ih =>
    intro b h hf
    cases b with
    | nil => simp at h
    | cons y b =>
      simp only [List.map_cons, List.cons.injEq, List.flatten_cons] at h hf
      obtain ⟨rfl, h2⟩ := append_inj_len hf h.1
      rw [ih b h.2 h2]

/-- The strings a C or C++ key is made of, one after another, with the list each stands in. -/
private def fields (r : GccRequest) : List Bytes :=
  [r.cls, r.mod] ++ ([r.problem, r.command, r.march] ++ r.defines ++ r.flags ++ r.ldflags ++ r.sources.map (·.2))

private theorem gcc_fields (r : GccRequest) : gccMaterial r = (fields r).flatten := by
  simp [gccMaterial, fields, List.append_assoc]

/-- Two C or C++ requests for the same file names, with as many options, each of the same length, and file
contents of the same lengths, share an entry only if they are the same. What is missing: requests which
differ in the lengths of these, or in the names of the files. -/
theorem C45_gcc_partial (r s : GccRequest)
    (h1 : r.cls.length = s.cls.length) (h2 : r.mod.length = s.mod.length) (h3 : r.problem.length = s.problem.length)
    (h4 : r.command.length = s.command.length) (h5 : r.march.length = s.march.length)
    (h6 : r.defines.map List.length = s.defines.map List.length)
    (h7 : r.flags.map List.length = s.flags.map List.length)
    (h8 : r.ldflags.map List.length = s.ldflags.map List.length)
    (h9 : r.sources.map (·.1) = s.sources.map (·.1))
    (h10 : r.sources.map (·.2.length) = s.sources.map (·.2.length)) :
    gccMaterial r = gccMaterial s ↔ r = s := by
  constructor
  · intro h
    rw [gcc_fields, gcc_fields] at h
    have hf := flatten_inj _ _ (by
      have e : r.sources.map (List.length ∘ fun x => x.2) = s.sources.map (List.length ∘ fun x => x.2) := h10
      simp [fields, h1, h2, h3, h4, h5, h6, h7, h8, e]) h
    have l6 := congrArg List.length h6
    have l7 := congrArg List.length h7
    have l8 := congrArg List.length h8
    simp only [List.length_map] at l6 l7 l8
    unfold fields at hf
    simp only [List.cons_append, List.nil_append, List.append_assoc, List.cons.injEq] at hf
    obtain ⟨e1, e2, e3, e4, e5, hf⟩ := hf
    obtain ⟨e6, hf⟩ := List.append_inj hf l6
    obtain ⟨e7, hf⟩ := List.append_inj hf l7
    obtain ⟨e8, hf⟩ := List.append_inj hf l8
    have e9 : r.sources = s.sources := by
      have : ∀ a b : List (Bytes × Bytes), a.map (·.1) = b.map (·.1) → a.map (·.2) = b.map (·.2) → a = b := by
        intro a
        induction a with
        | nil => intro b h _; cases b <;> simp_all
        | cons x a ih =>
          intro b h h'
          cases b with
          | nil => simp at h
          | cons y b =>
            simp only [List.map_cons, List.cons.injEq] at h h'
            rw [ih b h.2 h'.2, Prod.ext h.1 h'.1]
      exact this _ _ h9 hf
    cases r; cases s
    simp_all
  · rintro rfl; rfl

/-- Different requests for the same executor share an entry: another problem and source. -/
theorem C45_base_fails : ∃ r s : Request, r.cls = s.cls ∧ r.mod = s.mod ∧ r.problem ≠ s.problem ∧ r.source ≠ s.source ∧
    material r = material s :=
  ⟨⟨[1], [2], [3], [4, 5]⟩, ⟨[1], [2], [3, 4], [5]⟩, by decide⟩

/-- Different requests for the same executor, problem and options share an entry: text moved from the end of
one auxiliary file to the beginning of the next, or a file under another name. -/
theorem C45_gcc_fails : ∃ r s t : GccRequest, r ≠ s ∧ r ≠ t ∧ r.sources ≠ s.sources ∧
    { r with sources := [] } = { s with sources := [] } ∧ { r with sources := [] } = { t with sources := [] } ∧
    r.sources.map (·.1) = s.sources.map (·.1) ∧ r.sources.map (·.2) = t.sources.map (·.2) ∧
    gccMaterial r = gccMaterial s ∧ gccMaterial r = gccMaterial t :=
  ⟨⟨[1], [2], [3], [4], [5], [], [], [], [([6], [7, 8]), ([9], [10])]⟩,
    ⟨[1], [2], [3], [4], [5], [], [], [], [([6], [7]), ([9], [8, 10])]⟩,
    ⟨[1], [2], [3], [4], [5], [], [], [], [([6], [7, 8]), ([11], [10])]⟩, by decide⟩

example : gccMaterial ⟨[1], [2], [3], [4], [5], [[6]], [], [], [([6], [7, 8])]⟩ ≠
    gccMaterial ⟨[1], [2], [3], [4], [5], [[6]], [], [], [([6], [7, 9])]⟩ := by decide

/-! ## The cache -/

theorem mem_of_lookup {l : List (Key × Nat)} {k : Key} {e : Nat} (h : l.lookup k = some e) : (k, e) ∈ l := by
  induction l with
  | nil => simp at h
  | cons x l ih =>
    obtain ⟨k', e'⟩ := x
    rw [List.lookup_cons] at h
    by_cases hk : k = k'
    · subst hk; simp at h; simp [h]
    · have : (k == k') = false := by simpa using hk
      rw [this] at h
      exact List.mem_cons_of_mem _ (ih h)

theorem not_mem_of_lookup {l : List (Key × Nat)} {k : Key} (h : l.lookup k = none) : k ∉ l.map (·.1) := by
  intro hm
  obtain ⟨x, hx, rfl⟩ := List.mem_map.1 hm
  have := List.lookup_eq_none_iff.1 h x hx
  simp at this

structure Inv (s : State) : Prop where
  pos : 0 < s.cap
  len : s.cache.length ≤ s.cap
  keys : (s.cache.map (·.1)).Nodup
  ent : ∀ c ∈ s.cache, s.execs c.2 = some ⟨c.1, true, some c.2⟩ ∧ s.disk c.2 = true ∧ s.built c.2 = some c.1
  own : ∀ n x, s.execs n = some x → n < s.next ∧ (x.isCached = false → x.dir = some n ∨ x.dir = none)
  hld : ∀ n ∈ s.held, ∃ x d, s.execs n = some x ∧ x.dir = some d ∧ s.built d = some x.key ∧ d < s.next ∧
    (d = n → s.disk n = true)

private theorem Inv.vals {s : State} (h : Inv s) : (s.cache.map (·.2)).Nodup := by
  have hk := h.keys
  have he := h.ent
  generalize s.cache = l at hk he
  induction l with
  | nil => simp
  | cons c l ih =>
    simp only [List.map_cons, List.nodup_cons] at hk ⊢
    refine ⟨fun hm => ?_, ih hk.2 fun c hc => he c (by simp [hc])⟩
    obtain ⟨c', hc', e⟩ := List.mem_map.1 hm
    have h1 := (he c (by simp)).1
    have h2 := (he c' (by simp [hc'])).1
    rw [e, h1] at h2
    simp only [Option.some.injEq, Exec.mk.injEq] at h2
    exact hk.1 (List.mem_map.2 ⟨c', hc', h2.1.symm⟩)

private theorem Inv.lt {s : State} (h : Inv s) : ∀ c ∈ s.cache, c.2 < s.next :=
  fun c hc => (h.own _ _ (h.ent c hc).1).1

private theorem drop_inv {s : State} (h : Inv s) (n : Nat) : Inv (s.drop n) := by
  unfold State.drop
  split_ifs with hr
  · exact h
  · push Not at hr
    cases hx : s.execs n with
    | none => exact h
    | some x =>
      have hc : ∀ c ∈ s.cache, c.2 ≠ n := fun c hc e => hr.2 (List.mem_map.2 ⟨c, hc, e⟩)
      have base : Inv { s with execs := upd s.execs n none } := by
        refine ⟨h.pos, h.len, h.keys, fun c hcm => ?_, fun m y hy => ?_, fun m hm => ?_⟩
        · exact ⟨(if_neg (hc c hcm)).trans (h.ent c hcm).1, (h.ent c hcm).2⟩
        · simp only [upd] at hy
          split_ifs at hy
          exact h.own m y hy
        · obtain ⟨y, d, h1, h2⟩ := h.hld m hm
          refine ⟨y, d, ?_, h2⟩
          simp only [upd]
          rw [if_neg fun e : m = n => hr.1 (e ▸ hm)]
          exact h1
      simp only
      cases hd : x.dir with
      | none => exact base
      | some d =>
        simp only
        split_ifs with hi
        · exact base
        · have hdn : d = n := by
            rcases (h.own n x hx).2 (by simpa using hi) with h1 | h1
            · rw [hd] at h1; exact Option.some.inj h1
            · rw [hd] at h1; exact nomatch h1
          subst hdn
          refine ⟨base.pos, base.len, base.keys, fun c hcm => ?_, base.own, fun m hm => ?_⟩
          · obtain ⟨h1, h2, h3⟩ := base.ent c hcm
            exact ⟨h1, (if_neg (hc c hcm)).trans h2, h3⟩
          · obtain ⟨y, e, h1, h2, h3, h4, h5⟩ := base.hld m hm
            refine ⟨y, e, h1, h2, h3, h4, fun he => ?_⟩
            simp only [upd]
            rw [if_neg fun e : m = d => hr.1 (e ▸ hm)]
            exact h5 he

private theorem filter_len {l : List (Key × Nat)} {k : Key} {e : Nat} (h : (k, e) ∈ l) :
    (l.filter fun c => c.1 ≠ k).length + 1 ≤ l.length := by
  have : (l.filter fun c => c.1 ≠ k).length < l.length := by
    rw [List.length_filter_lt_length_iff_exists]
    exact ⟨(k, e), h, by simp⟩
  omega

private theorem filter_keys {l : List (Key × Nat)} (k : Key) (h : (l.map (·.1)).Nodup) (e : Nat) :
    (((k, e) :: l.filter fun c => c.1 ≠ k).map (·.1)).Nodup := by
  simp only [List.map_cons, List.nodup_cons]
  refine ⟨fun hm => ?_, h.sublist (List.Sublist.map _ List.filter_sublist)⟩
  obtain ⟨c, hc, e⟩ := List.mem_map.1 hm
  simp only [List.mem_filter] at hc
  simp [e] at hc

private theorem touch_inv {s : State} (h : Inv s) {k : Key} {e : Nat} (hm : (k, e) ∈ s.cache) : Inv (s.touch k e) := by
  refine ⟨h.pos, ?_, filter_keys k h.keys e, fun c hc => ?_, h.own, h.hld⟩
  · exact Nat.le_trans (filter_len hm) h.len
  · rcases List.mem_cons.1 hc with rfl | hc
    · exact h.ent _ hm
    · exact h.ent c (List.mem_filter.1 hc).1

private theorem evict_inv {s : State} (h : Inv s) {k : Key} {n : Nat} (hx : s.execs n = some ⟨k, true, some n⟩)
    (hd : s.disk n = true) (hb : s.built n = some k) (hn : n ∉ s.cache.map (·.2)) (hl : s.cache.lookup k = none)
    {k' : Key} {old : Nat} (hg : s.cache.getLast? = some (k', old)) :
    Inv { s with
      execs := upd s.execs old ((s.execs old).map fun x => { x with isCached := false })
      cache := (k, n) :: s.cache.dropLast } := by
  have hk := not_mem_of_lookup hl
  obtain ⟨pre, hpre⟩ := List.getLast?_eq_some_iff.1 hg
  have hmem : (k', old) ∈ s.cache := by rw [hpre]; simp
  have ho := h.ent _ hmem
  have hno : n ≠ old := fun e => hn (List.mem_map.2 ⟨_, hmem, e.symm⟩)
  have hdl : s.cache.dropLast = pre := by rw [hpre]; simp
  have hv := h.vals
  rw [hpre, List.map_append, List.nodup_append] at hv
  have hpo : ∀ c ∈ pre, c.2 ≠ old := by
    intro c hc e
    exact hv.2.2 c.2 (List.mem_map.2 ⟨c, hc, rfl⟩) old (by simp) e
  have hpm : ∀ c ∈ pre, c ∈ s.cache := fun c hc => by rw [hpre]; simp [hc]
  refine ⟨h.pos, ?_, ?_, fun c hc => ?_, fun m x hm => ?_, fun m hm => ?_⟩
  · have := h.len
    rw [hpre] at this
    simp only [hdl, List.length_cons, List.length_append, List.length_nil] at this ⊢
    omega
  · simp only [hdl, List.map_cons, List.nodup_cons]
    constructor
    · intro hm
      obtain ⟨c, hc, e⟩ := List.mem_map.1 hm
      exact hk (List.mem_map.2 ⟨c, hpm c hc, e⟩)
    · have := h.keys
      rw [hpre, List.map_append, List.nodup_append] at this
      exact this.1
  · simp only [hdl] at hc
    rcases List.mem_cons.1 hc with rfl | hc
    · exact ⟨(if_neg hno).trans hx, hd, hb⟩
    · exact ⟨(if_neg (hpo c hc)).trans (h.ent c (hpm c hc)).1, (h.ent c (hpm c hc)).2⟩
  · simp only [upd] at hm
    split_ifs at hm with he
    · subst he
      rw [ho.1] at hm
      simp only [Option.map_some, Option.some.injEq] at hm
      refine ⟨(h.own _ _ ho.1).1, fun _ => Or.inl ?_⟩
      rw [← hm]
    · exact h.own m x hm
  · obtain ⟨y, e, h1, h2, h3, h4, h5⟩ := h.hld m hm
    by_cases he : m = old
    · subst he
      refine ⟨{ y with isCached := false }, e, ?_, h2, h3, h4, h5⟩
      simp [upd, h1]
    · exact ⟨y, e, (if_neg he).trans h1, h2, h3, h4, h5⟩

private theorem store_inv {s : State} (h : Inv s) {k : Key} {n : Nat} (hx : s.execs n = some ⟨k, true, some n⟩)
    (hd : s.disk n = true) (hb : s.built n = some k) (hn : n ∉ s.cache.map (·.2)) : Inv (s.store k n) := by
  unfold State.store
  cases hl : s.cache.lookup k with
  | some old =>
    have hm := mem_of_lookup hl
    apply drop_inv
    refine ⟨h.pos, ?_, filter_keys k h.keys n, fun c hc => ?_, h.own, h.hld⟩
    · exact Nat.le_trans (filter_len hm) h.len
    · rcases List.mem_cons.1 hc with rfl | hc
      · exact ⟨hx, hd, hb⟩
      · exact h.ent c (List.mem_filter.1 hc).1
  | none =>
    have hk := not_mem_of_lookup hl
    simp only
    split_ifs with hlen
    · refine ⟨h.pos, hlen, ?_, fun c hc => ?_, h.own, h.hld⟩
      · exact List.nodup_cons.2 ⟨hk, h.keys⟩
      · rcases List.mem_cons.1 hc with rfl | hc
        · exact ⟨hx, hd, hb⟩
        · exact h.ent c hc
    · cases hg : s.cache.getLast? with
      | none =>
        rw [List.getLast?_eq_none_iff] at hg
        rw [hg] at hlen
        exact absurd h.pos hlen
      | some q =>
        obtain ⟨k', old⟩ := q
        show Inv (State.drop _ old)
        apply drop_inv
        exact evict_inv h hx hd hb hn hl hg

private theorem fresh_inv {s : State} (h : Inv s) (x : Exec) (hx : x.isCached = false → x.dir = some s.next ∨ x.dir = none) (disk : Nat → Bool)
    (exe : Nat → Bool) (built : Nat → Option Key) (hd : ∀ d, d < s.next → disk d = s.disk d)
    (hb : ∀ d, d < s.next → built d = s.built d) :
    Inv { s with next := s.next + 1, execs := upd s.execs s.next (some x), disk := disk, exe := exe, built := built } := by
  refine ⟨h.pos, h.len, h.keys, fun c hc => ?_, fun m y hy => ?_, fun m hm => ?_⟩
  · have hlt := h.lt c hc
    obtain ⟨h1, h2, h3⟩ := h.ent c hc
    exact ⟨(if_neg (by omega)).trans h1, (hd _ hlt).trans h2, (hb _ hlt).trans h3⟩
  · simp only [upd] at hy
    split_ifs at hy with he
    · cases hy
      rw [he]
      exact ⟨Nat.lt_succ_self _, hx⟩
    · obtain ⟨h1, h2⟩ := h.own m y hy
      exact ⟨Nat.lt_succ_of_lt h1, h2⟩
  · obtain ⟨y, d, h1, h2, h3, h4, h5⟩ := h.hld m hm
    have hlt := (h.own m y h1).1
    exact ⟨y, d, (if_neg (by omega)).trans h1, h2, (hb d h4).trans h3, Nat.lt_succ_of_lt h4, fun e => (hd m hlt).trans (h5 e)⟩

private theorem hold_inv {s : State} (h : Inv s) (n : Nat) (x : Exec) (d : Nat) (h1 : s.execs n = some x) (h2 : x.dir = some d)
    (h3 : s.built d = some x.key) (h4 : d < s.next) (h5 : d = n → s.disk n = true) : Inv { s with held := n :: s.held } := by
  refine ⟨h.pos, h.len, h.keys, h.ent, h.own, fun m hm => ?_⟩
  rcases List.mem_cons.1 hm with rfl | hm
  · exact ⟨x, d, h1, h2, h3, h4, h5⟩
  · exact h.hld m hm

/-- The state after the lookup. -/
def looked (s : State) (k : Key) (cached : Bool) : State :=
  match cached, s.cache.lookup k with
  | true, some e => s.touch k e
  | _, _ => s

private theorem looked_inv {s : State} (h : Inv s) (k : Key) (cached : Bool) : Inv (looked s k cached) := by
  unfold looked
  split
  · rename_i e he; exact touch_inv h (mem_of_lookup he)
  · exact h

theorem call_eq (s : State) (k : Key) (cached : Bool) (c : Compile) : s.call k cached c =
    let t := looked s k cached
    match s.hit k cached with
    | some (_, d) => { t with next := t.next + 1, execs := upd t.execs t.next (some ⟨k, cached, some d⟩), held := t.next :: t.held }
    | none =>
      match c with
      | .early => State.drop { t with next := t.next + 1, execs := upd t.execs t.next (some ⟨k, cached, none⟩) } t.next
      | .late => State.drop { t with next := t.next + 1, execs := upd t.execs t.next (some ⟨k, cached, some t.next⟩), disk := upd t.disk t.next true } t.next
      | .ok =>
        let u : State := { t with
          next := t.next + 1
          execs := upd t.execs t.next (some ⟨k, cached, some t.next⟩)
          disk := upd t.disk t.next true
          exe := upd t.exe t.next true
          built := upd t.built t.next (some k)
          held := t.next :: t.held }
        if cached then u.store k t.next else u := by
  unfold State.call looked
  cases cached with
  | false => rfl
  | true => cases s.cache.lookup k <;> rfl

theorem hit_some {s : State} (h : Inv s) {k : Key} {cached : Bool} {e d : Nat} (hh : s.hit k cached = some (e, d)) :
    cached = true ∧ (k, e) ∈ s.cache ∧ d = e ∧ s.exe e = true := by
  unfold State.hit at hh
  split_ifs at hh with hc
  cases hl : s.cache.lookup k with
  | none => rw [hl] at hh; exact nomatch hh
  | some e' =>
    rw [hl] at hh
    have hm := mem_of_lookup hl
    have := (h.ent _ hm).1
    simp only [this, Option.bind_some] at hh
    split_ifs at hh with hx
    simp only [Option.some.injEq, Prod.mk.injEq] at hh
    obtain ⟨rfl, rfl⟩ := hh
    exact ⟨hc, hm, rfl, hx⟩

theorem looked_next (s : State) (k cached) : (looked s k cached).next = s.next ∧ (looked s k cached).execs = s.execs ∧
    (looked s k cached).held = s.held ∧ (looked s k cached).disk = s.disk ∧ (looked s k cached).built = s.built ∧
    (looked s k cached).exe = s.exe ∧ (looked s k cached).cap = s.cap := by
  unfold looked; split <;> exact ⟨rfl, rfl, rfl, rfl, rfl, rfl, rfl⟩

private theorem call_inv {s : State} (h : Inv s) (k : Key) (cached : Bool) (c : Compile) : Inv (s.call k cached c) := by
  have ht := looked_inv h k cached
  obtain ⟨e1, e2, e3, e4, e5, e6, e7⟩ := looked_next s k cached
  rw [call_eq]
  generalize looked s k cached = t at *
  cases hh : s.hit k cached with
  | some q =>
    obtain ⟨e, d⟩ := q
    obtain ⟨rfl, hm, rfl, _⟩ := hit_some h hh
    simp only
    have hlt := h.lt _ hm
    have hb := (h.ent _ hm).2.2
    have := fresh_inv ht ⟨k, true, some d⟩ (fun h => nomatch h) t.disk t.exe t.built (fun _ _ => rfl) (fun _ _ => rfl)
    refine hold_inv this t.next ⟨k, true, some d⟩ d (if_pos rfl) rfl ?_ ?_ ?_
    · show t.built d = _; rw [e5]; exact hb
    · show d < t.next + 1; rw [e1]; exact Nat.lt_succ_of_lt hlt
    · rw [e1]; intro e; exact absurd e (Nat.ne_of_lt hlt)
  | none =>
    simp only
    cases c with
    | early =>
      exact drop_inv (fresh_inv ht ⟨k, cached, none⟩ (fun _ => Or.inr rfl) t.disk t.exe t.built (fun _ _ => rfl) (fun _ _ => rfl)) _
    | late =>
      exact drop_inv (fresh_inv ht ⟨k, cached, some t.next⟩ (fun _ => Or.inl rfl) (upd t.disk t.next true) t.exe t.built
        (fun d hd => if_neg (Nat.ne_of_lt hd)) (fun _ _ => rfl)) _
    | ok =>
      have hu := fresh_inv ht ⟨k, cached, some t.next⟩ (fun _ => Or.inl rfl) (upd t.disk t.next true) (upd t.exe t.next true)
        (upd t.built t.next (some k)) (fun d hd => if_neg (Nat.ne_of_lt hd)) (fun d hd => if_neg (Nat.ne_of_lt hd))
      have hu := hold_inv hu t.next ⟨k, cached, some t.next⟩ t.next (if_pos rfl) rfl (if_pos rfl) (Nat.lt_succ_self _) (fun _ => if_pos rfl)
      simp only
      split_ifs with hc
      · subst hc
        refine store_inv hu (if_pos rfl) (if_pos rfl) (if_pos rfl) fun hm => ?_
        obtain ⟨c, hc, e⟩ := List.mem_map.1 hm
        exact absurd e (Nat.ne_of_lt (ht.lt c hc))
      · exact hu

theorem step_inv {s : State} (h : Inv s) (op : Op) : Inv (step s op) := by
  cases op with
  | call k cached c => exact call_inv h k cached c
  | release n =>
    apply drop_inv
    exact ⟨h.pos, h.len, h.keys, h.ent, h.own, fun m hm => h.hld m (List.mem_filter.1 hm).1⟩
  | lose d => exact ⟨h.pos, h.len, h.keys, h.ent, h.own, h.hld⟩

theorem run_snoc (cap : Nat) (ops : List Op) (op : Op) : run cap (ops ++ [op]) = step (run cap ops) op := by
  simp [run]

theorem run_inv (cap : Nat) (hc : 0 < cap) (ops : List Op) : Inv (run cap ops) := by
  induction ops using List.reverseRecOn with
  | nil => exact ⟨hc, Nat.zero_le _, by simp [run], by simp [run], fun n x h => (nomatch h), fun n h => (nomatch h)⟩
  | append_singleton ops op ih => rw [run_snoc]; exact step_inv ih op

private theorem drop_cap (s : State) (n : Nat) : (s.drop n).cap = s.cap := by
  unfold State.drop
  split_ifs
  · rfl
  · cases s.execs n with
    | none => rfl
    | some x =>
      simp only
      cases x.dir with
      | none => rfl
      | some d => simp only; split_ifs <;> rfl

private theorem store_cap (s : State) (k : Key) (n : Nat) : (s.store k n).cap = s.cap := by
  unfold State.store
  cases s.cache.lookup k with
  | some old => exact drop_cap _ _
  | none =>
    simp only
    split_ifs
    · rfl
    · cases s.cache.getLast? with
      | none => rfl
      | some q => exact drop_cap _ _

theorem step_cap (s : State) (op : Op) : (step s op).cap = s.cap := by
  cases op with
  | release n => exact drop_cap _ _
  | lose d => rfl
  | call k cached c =>
    have e7 := (looked_next s k cached).2.2.2.2.2.2
    show (s.call k cached c).cap = _
    rw [call_eq]
    cases hh : s.hit k cached with
    | some q => exact e7
    | none =>
      cases c with
      | early => simp only [drop_cap]; exact e7
      | late => simp only [drop_cap]; exact e7
      | ok =>
        simp only
        split_ifs
        · rw [store_cap]; exact e7
        · exact e7

private theorem run_cap (cap : Nat) (ops : List Op) : (run cap ops).cap = cap := by
  induction ops using List.reverseRecOn with
  | nil => rfl
  | append_singleton ops op ih => rw [run_snoc, step_cap, ih]

private theorem lookup_of_mem {l : List (Key × Nat)} {k : Key} {e : Nat} (h : (l.map (·.1)).Nodup) (hm : (k, e) ∈ l) :
    l.lookup k = some e := by
  induction l with
  | nil => exact nomatch hm
  | cons x l ih =>
    obtain ⟨k', e'⟩ := x
    simp only [List.map_cons, List.nodup_cons] at h
    rw [List.lookup_cons]
    by_cases hk : k = k'
    · subst hk
      rcases List.mem_cons.1 hm with hm | hm
      · cases hm; simp
      · exact absurd (List.mem_map.2 ⟨_, hm, rfl⟩) h.1
    · have : (k == k') = false := by simpa using hk
      rw [this]
      rcases List.mem_cons.1 hm with hm | hm
      · cases hm; exact absurd rfl hk
      · exact ih h.2 hm

/-- The cache never holds more than its capacity, and one entry per key. -/
theorem C46_capacity (cap : Nat) (hc : 0 < cap) (ops : List Op) :
    (run cap ops).cache.length ≤ cap ∧ ((run cap ops).cache.map (·.1)).Nodup := by
  have hi := run_inv cap hc ops
  have hcap := run_cap cap ops
  exact ⟨Nat.le_trans hi.len (Nat.le_of_eq hcap), hi.keys⟩

/-- Whatever executor is held, its directory holds the program compiled for its own key. -/
theorem C46_program (cap : Nat) (hc : 0 < cap) (ops : List Op) (n : Nat) (hn : n ∈ (run cap ops).held) :
    ∃ x d, (run cap ops).execs n = some x ∧ x.dir = some d ∧ (run cap ops).built d = some x.key := by
  obtain ⟨x, d, h1, h2, h3, _⟩ := (run_inv cap hc ops).hld n hn
  exact ⟨x, d, h1, h2, h3⟩

/-- The directory of a cached executor is not deleted while it is in the cache. -/
theorem C46_kept (cap : Nat) (hc : 0 < cap) (ops : List Op) (k : Key) (e : Nat) (he : (k, e) ∈ (run cap ops).cache) :
    (run cap ops).execs e = some ⟨k, true, some e⟩ ∧ (run cap ops).disk e = true ∧ (run cap ops).built e = some k :=
  (run_inv cap hc ops).ent _ he

/-- A held executor keeps its directory if it made it itself, if the executor that made it is held too, or if
that one is in the cache. What is missing: an executor obtained from the cache loses its directory when the
one that made it has been let go of and is evicted. -/
theorem C46_held_partial (cap : Nat) (hc : 0 < cap) (ops : List Op) (n : Nat) (hn : n ∈ (run cap ops).held) :
    ∃ x d, (run cap ops).execs n = some x ∧ x.dir = some d ∧
      (d = n ∨ (∃ y, d ∈ (run cap ops).held ∧ (run cap ops).execs d = some y ∧ y.dir = some d) ∨
        d ∈ (run cap ops).cache.map (·.2) → (run cap ops).disk d = true) := by
  have hi := run_inv cap hc ops
  obtain ⟨x, d, h1, h2, h3, h4, h5⟩ := hi.hld n hn
  refine ⟨x, d, h1, h2, ?_⟩
  rintro (h | ⟨y, hd, hy, hyd⟩ | h)
  · rw [h]; exact h5 h
  · obtain ⟨y', d', g1, g2, _, _, g5⟩ := hi.hld d hd
    rw [hy] at g1
    cases g1
    rw [hyd] at g2
    exact g5 (Option.some.inj g2).symm
  · obtain ⟨c, hm, e⟩ := List.mem_map.1 h
    rw [← e]; exact (hi.ent c hm).2.1

/-- An executor obtained from the cache, still held, whose directory has been deleted. -/
theorem C46_evicted_fails : ∃ (cap : Nat) (ops : List Op) (n : Nat) (x : Exec) (d : Nat), 0 < cap ∧ n ∈ (run cap ops).held ∧
    (run cap ops).execs n = some x ∧ x.dir = some d ∧ (run cap ops).disk d = false :=
  ⟨1, [.call 7 true .ok, .call 7 true .ok, .release 0, .call 8 true .ok], 1, ⟨7, true, some 0⟩, 0, by decide, by decide, by decide, rfl,
    by decide⟩

/-- A call whose key is in the cache, with the executable still there, compiles nothing: the new executor
uses the directory compiled for its key, and no directory is made or deleted. -/
theorem C46_hit (cap : Nat) (hc : 0 < cap) (ops : List Op) (k : Key) (e : Nat) (c : Compile)
    (he : (k, e) ∈ (run cap ops).cache) (hx : (run cap ops).exe e = true) :
    let s := run cap ops
    let s' := step s (.call k true c)
    s'.held = s.next :: s.held ∧ s'.execs s.next = some ⟨k, true, some e⟩ ∧ s'.disk = s.disk ∧ s'.built = s.built ∧
      s'.cache.map (·.1) = k :: (s.cache.map (·.1)).filter (· ≠ k) := by
  have hi := run_inv cap hc ops
  generalize run cap ops = s at *
  have hl : s.cache.lookup k = some e := lookup_of_mem hi.keys he
  have hh : s.hit k true = some (e, e) := by
    unfold State.hit
    rw [if_pos rfl, hl]
    simp [(hi.ent _ he).1, hx]
  obtain ⟨e1, e2, e3, e4, e5, e6, e7⟩ := looked_next s k true
  have ec : (looked s k true).cache = (k, e) :: s.cache.filter fun c => c.1 ≠ k := by
    unfold looked; rw [hl]; rfl
  intro s0 s'
  have hs' : s' = s.call k true c := rfl
  rw [call_eq] at hs'
  rw [hh] at hs'
  simp only at hs'
  rw [hs', e1, e2, e3]
  refine ⟨rfl, if_pos rfl, e4, e5, ?_⟩
  show ((looked s k true).cache.map (·.1)) = _
  rw [ec, List.map_cons, List.filter_map]
  rfl

/-- No executable without its directory. -/
def Whole (s : State) : Prop := ∀ d, s.exe d = true → s.disk d = true

private theorem drop_whole {s : State} (h : Whole s) (n : Nat) : Whole (s.drop n) := by
  unfold State.drop
  split_ifs
  · exact h
  · cases s.execs n with
    | none => exact h
    | some x =>
      simp only
      cases x.dir with
      | none => exact h
      | some d =>
        simp only
        split_ifs
        · exact h
        · intro e he
          simp only [upd] at he ⊢
          split_ifs at he ⊢ with hd
          exact h e he

private theorem store_whole {s : State} (h : Whole s) (k : Key) (n : Nat) : Whole (s.store k n) := by
  unfold State.store
  cases s.cache.lookup k with
  | some old => exact drop_whole (s := { s with cache := (k, n) :: s.cache.filter fun c => c.1 ≠ k }) h old
  | none =>
    simp only
    split_ifs
    · exact h
    · cases s.cache.getLast? with
      | none => exact h
      | some q => exact drop_whole (s := { s with
          execs := upd s.execs q.2 ((s.execs q.2).map fun x => { x with isCached := false }), cache := (k, n) :: s.cache.dropLast }) h q.2

theorem step_whole {s : State} (h : Whole s) (op : Op) : Whole (step s op) := by
  cases op with
  | release n => exact drop_whole (s := { s with held := s.held.filter (· ≠ n) }) h n
  | lose d =>
    intro e he
    simp only [step, upd] at he ⊢
    split_ifs at he with hd
    exact h e he
  | call k cached c =>
    show Whole (s.call k cached c)
    have hl : Whole (looked s k cached) := by
      unfold looked; split <;> exact h
    rw [call_eq]
    generalize looked s k cached = s' at *
    cases s.hit k cached with
    | some q => exact hl
    | none =>
      cases c with
      | early => exact drop_whole (by exact hl) _
      | late =>
        refine drop_whole (fun e he => ?_) _
        simp only [upd]
        split_ifs
        · rfl
        · exact hl e he
      | ok =>
        have hw : ∀ (x : Option Exec) (b : Option Key) (hd : List Nat), Whole { s' with
            next := s'.next + 1, execs := upd s'.execs s'.next x, disk := upd s'.disk s'.next true, exe := upd s'.exe s'.next true,
            built := upd s'.built s'.next b, held := hd } := by
          intro x b hd e he
          simp only [upd] at he ⊢
          split_ifs at he ⊢
          · rfl
          · exact hl e he
        simp only
        split_ifs
        · exact store_whole (hw _ _ _) k _
        · exact hw _ _ _

/-- No directory that has been deleted holds an executable: when an executor is taken from the cache because the executable is there, its
directory is there as well. -/
theorem C46_present (cap : Nat) (ops : List Op) (d : Nat) (h : (run cap ops).exe d = true) : (run cap ops).disk d = true := by
  have hw : ∀ ops, Whole (run cap ops) := fun ops => by
    induction ops using List.reverseRecOn with
    | nil => exact fun _ h => nomatch h
    | append_singleton ops op ih => rw [run_snoc]; exact step_whole ih op
  exact hw ops d h

/-- A cache of one entry: the second program pushed out the first, which nobody held; only the second's directory is left. -/
example : let s := run 1 [.call 5 true .ok, .release 0, .call 6 true .ok]
    s.exe 0 = false ∧ s.disk 0 = false ∧ s.exe 1 = true ∧ s.disk 1 = true := by decide +kernel

/-! ## Which entries are kept -/

/-- Keys by last use, the most recent first; `uses` has the latest first. -/
def recent : List Key → List Key
  | [] => []
  | k :: uses => k :: (recent uses).filter (· ≠ k)

/-- The uses of the cache: a call asking for it uses its key if its key is among the `cap` most recent ones
or else if its compilation succeeds. -/
def uses (cap : Nat) : List Op → List Key
  | [] => []
  | .call k true c :: ops => if c = .ok ∨ k ∈ (recent (uses cap ops)).take cap then k :: uses cap ops else uses cap ops
  | _ :: ops => uses cap ops

private theorem take_filter {l : List Key} {k : Key} (m : Nat) (h : k ∉ l.take m) : (l.filter (· ≠ k)).take m = l.take m := by
  induction l generalizing m with
  | nil => simp
  | cons x l ih =>
    cases m with
    | zero => simp
    | succ m =>
      simp only [List.take_succ_cons, List.mem_cons, not_or] at h
      have : decide (x ≠ k) = true := by simpa using fun e : x = k => h.1 e.symm
      rw [List.filter_cons, if_pos this, List.take_succ_cons, List.take_succ_cons, ih m h.2]

private theorem take_filter_mem {l : List Key} {k : Key} (m : Nat) (hn : l.Nodup) (h : k ∈ l.take m) :
    (l.filter (· ≠ k)).take (m - 1) = (l.take m).filter (· ≠ k) := by
  induction l generalizing m with
  | nil => simp
  | cons x l ih =>
    cases m with
    | zero => simp at h
    | succ m =>
      rw [List.nodup_cons] at hn
      simp only [List.take_succ_cons, List.filter_cons]
      by_cases hx : x = k
      · subst hx
        have h1 : l.filter (· ≠ x) = l := List.filter_eq_self.2 fun a ha => by
          simpa using fun e : a = x => hn.1 (e ▸ ha)
        have h2 : (l.take m).filter (· ≠ x) = l.take m := List.filter_eq_self.2 fun a ha => by
          simpa using fun e : a = x => hn.1 (e ▸ List.mem_of_mem_take ha)
        rw [if_neg (by simp), if_neg (by simp), h1, h2, Nat.add_sub_cancel]
      · have hd : decide (x ≠ k) = true := by simpa using hx
        rw [if_pos hd, if_pos hd]
        have hm : k ∈ l.take m := by
          rcases List.mem_cons.1 h with e | e
          · exact absurd e.symm hx
          · exact e
        have hpos : m ≠ 0 := by rintro rfl; simp at hm
        obtain ⟨m, rfl⟩ := Nat.exists_eq_succ_of_ne_zero hpos
        have := ih (m + 1) hn.2 hm
        simp only [Nat.add_sub_cancel] at this
        rw [← this]
        rfl

private theorem recent_nodup : ∀ u : List Key, (recent u).Nodup := by
  intro u
  induction u with
  | nil => simp [recent]
  | cons k u ih =>
    unfold recent
    refine List.nodup_cons.2 ⟨by simp, ih.sublist List.filter_sublist⟩

theorem drop_cache (s : State) (n : Nat) : (s.drop n).cache = s.cache := by
  unfold State.drop
  split_ifs
  · rfl
  · cases s.execs n with
    | none => rfl
    | some x =>
      simp only
      cases x.dir with
      | none => rfl
      | some d => simp only; split_ifs <;> rfl

private theorem store_keys {s : State} (h : Inv s) (k : Key) (n : Nat) : (s.store k n).cache.map (·.1) =
    k :: if k ∈ s.cache.map (·.1) then (s.cache.map (·.1)).filter (· ≠ k) else (s.cache.map (·.1)).take (s.cap - 1) := by
  have hlen := h.len
  have hpos := h.pos
  unfold State.store
  cases hl : s.cache.lookup k with
  | some old =>
    rw [if_pos (List.mem_map.2 ⟨_, mem_of_lookup hl, rfl⟩)]
    simp only [drop_cache, List.map_cons, List.cons.injEq, true_and]
    rw [List.filter_map]
    rfl
  | none =>
    rw [if_neg (not_mem_of_lookup hl)]
    simp only
    by_cases hlt : s.cache.length < s.cap
    · rw [if_pos hlt, List.map_cons, List.take_of_length_le (by rw [List.length_map]; omega)]
    · rw [if_neg hlt]
      cases hg : s.cache.getLast? with
      | none =>
        rw [List.getLast?_eq_none_iff] at hg
        rw [hg] at hlt
        exact absurd hpos hlt
      | some q =>
        obtain ⟨k', old⟩ := q
        simp only [drop_cache, List.map_cons, List.cons.injEq, true_and]
        rw [List.dropLast_eq_take, List.map_take]
        congr 1
        omega

private theorem looked_keys {s : State} (h : Inv s) (k : Key) : (looked s k true).cache.map (·.1) =
    if k ∈ s.cache.map (·.1) then k :: (s.cache.map (·.1)).filter (· ≠ k) else s.cache.map (·.1) := by
  have := h.keys
  unfold looked
  cases hl : s.cache.lookup k with
  | some e =>
    rw [if_pos (List.mem_map.2 ⟨_, mem_of_lookup hl, rfl⟩)]
    show ((k, e) :: s.cache.filter fun c => c.1 ≠ k).map (·.1) = _
    rw [List.map_cons, List.filter_map]
    rfl
  | none => rw [if_neg (not_mem_of_lookup hl)]

/-- The cache holds the keys used most recently, as many as fit: the entry given up is always the one not used
for the longest time. -/
theorem C46_least_recent (cap : Nat) (hc : 0 < cap) (ops : List Op) :
    (run cap ops).cache.map (·.1) = (recent (uses cap ops.reverse)).take cap := by
  induction ops using List.reverseRecOn with
  | nil => simp [run, uses, recent]
  | append_singleton ops op ih =>
    have hi := run_inv cap hc ops
    have hcap := run_cap cap ops
    rw [run_snoc, List.reverse_append, List.reverse_singleton, List.singleton_append]
    generalize run cap ops = s at *
    obtain ⟨u, hu⟩ : ∃ u, uses cap ops.reverse = u := ⟨_, rfl⟩
    rw [hu] at ih
    cases op with
    | release n =>
      rw [show uses cap (.release n :: ops.reverse) = u from hu]
      show (State.drop _ n).cache.map _ = _
      rw [drop_cache]; exact ih
    | lose d => rw [show uses cap (.lose d :: ops.reverse) = u from hu]; exact ih
    | call k cached c =>
      have ht := looked_inv hi k cached
      show (s.call k cached c).cache.map _ = _
      rw [call_eq]
      cases cached with
      | false =>
        have hh : s.hit k false = none := rfl
        rw [hh, show uses cap (.call k false c :: ops.reverse) = u from hu]
        simp only
        have hlk : looked s k false = s := rfl
        rw [hlk]
        cases c with
        | early => simp only [drop_cache]; exact ih
        | late => simp only [drop_cache]; exact ih
        | ok => simp only [Bool.false_eq_true, if_false]; exact ih
      | true =>
        have hlook := looked_keys hi k
        obtain ⟨_, _, _, _, _, _, e7⟩ := looked_next s k true
        have goal : ∀ l : List Key, (l = k :: (if k ∈ s.cache.map (·.1) then (s.cache.map (·.1)).filter (· ≠ k) else
            (s.cache.map (·.1)).take (s.cap - 1))) → l = (recent (k :: u)).take cap := by
          rintro l rfl
          obtain ⟨m, rfl⟩ := Nat.exists_eq_succ_of_ne_zero (Nat.pos_iff_ne_zero.1 hc)
          rw [hcap, ih]
          show _ = k :: _
          congr 1
          by_cases hm : k ∈ (recent u).take (m + 1)
          · rw [if_pos hm, ← take_filter_mem (m + 1) (recent_nodup u) hm, Nat.add_sub_cancel]
          · rw [if_neg hm]
            show List.take m (List.take (m + 1) (recent u)) = _
            rw [List.take_take, Nat.min_eq_left (Nat.le_succ m), take_filter]
            intro h
            exact hm ((List.take_subset_take_left _ (Nat.le_succ m)) h)
        have hus : uses cap (.call k true c :: ops.reverse) = if c = .ok ∨ k ∈ (recent u).take cap then k :: u else u := by
          rw [← hu]; rfl
        rw [hus]
        cases hh : s.hit k true with
        | some q =>
          obtain ⟨_, hm, _, _⟩ := hit_some hi hh
          have hk : k ∈ s.cache.map (·.1) := List.mem_map.2 ⟨_, hm, rfl⟩
          simp only
          rw [if_pos (Or.inr (ih ▸ hk))]
          apply goal
          rw [hlook, if_pos hk, if_pos hk]
        | none =>
          by_cases hk : k ∈ s.cache.map (·.1)
          · rw [if_pos (Or.inr (ih ▸ hk))]
            apply goal
            rw [if_pos hk] at hlook ⊢
            cases c with
            | early => simp only [drop_cache]; exact hlook
            | late => simp only [drop_cache]; exact hlook
            | ok =>
              simp only [if_pos]
              have hu := fresh_inv ht ⟨k, true, some (looked s k true).next⟩ (fun _ => Or.inl rfl) (upd (looked s k true).disk (looked s k true).next true) (upd (looked s k true).exe (looked s k true).next true)
                (upd (looked s k true).built (looked s k true).next (some k)) (fun d hd => if_neg (Nat.ne_of_lt hd)) (fun d hd => if_neg (Nat.ne_of_lt hd))
              have hu := hold_inv hu (looked s k true).next ⟨k, true, some (looked s k true).next⟩ (looked s k true).next (if_pos rfl) rfl (if_pos rfl) (Nat.lt_succ_self _) (fun _ => if_pos rfl)
              rw [store_keys hu]
              show k :: (if k ∈ (looked s k true).cache.map (·.1) then ((looked s k true).cache.map (·.1)).filter (· ≠ k) else _) = _
              rw [hlook, if_pos (by simp)]
              simp
          · by_cases hco : c = .ok
            · subst hco
              rw [if_pos (Or.inl rfl)]
              apply goal
              rw [if_neg hk] at hlook ⊢
              simp only [if_pos]
              have hu := fresh_inv ht ⟨k, true, some (looked s k true).next⟩ (fun _ => Or.inl rfl) (upd (looked s k true).disk (looked s k true).next true) (upd (looked s k true).exe (looked s k true).next true)
                (upd (looked s k true).built (looked s k true).next (some k)) (fun d hd => if_neg (Nat.ne_of_lt hd)) (fun d hd => if_neg (Nat.ne_of_lt hd))
              have hu := hold_inv hu (looked s k true).next ⟨k, true, some (looked s k true).next⟩ (looked s k true).next (if_pos rfl) rfl (if_pos rfl) (Nat.lt_succ_self _) (fun _ => if_pos rfl)
              rw [store_keys hu]
              show k :: (if k ∈ (looked s k true).cache.map (·.1) then _ else ((looked s k true).cache.map (·.1)).take ((looked s k true).cap - 1)) = _
              rw [hlook, if_neg hk, e7]
            · rw [if_neg]
              · rw [if_neg hk] at hlook
                rw [← ih]
                cases c with
                | early => simp only [drop_cache]; exact hlook
                | late => simp only [drop_cache]; exact hlook
                | ok => exact absurd rfl hco
              · rintro (h | h)
                · exact hco h
                · exact hk (ih ▸ h)

example : (run 2 [.call 7 true .ok, .call 8 true .ok, .call 7 true .ok, .call 9 true .ok]).cache.map (·.1) = [9, 7] ∧
    (run 2 [.call 7 true .ok, .call 8 true .ok, .call 7 true .ok, .call 9 true .ok]).held = [3, 2, 1, 0] := by decide

/-! ## Directories left behind -/

structure TidyBut (n : Nat) (s : State) : Prop where
  exe : ∀ c ∈ s.cache, s.exe c.2 = true
  ref : ∀ m x, m ≠ n → s.execs m = some x → m ∈ s.held ∨ m ∈ s.cache.map (·.2)
  self : ∀ m k, s.execs m = some ⟨k, true, some m⟩ → m ∈ s.cache.map (·.2)
  disk : ∀ d, s.disk d = true → ∃ x, s.execs d = some x ∧ x.dir = some d

structure Tidy (s : State) : Prop where
  exe : ∀ c ∈ s.cache, s.exe c.2 = true
  ref : ∀ m x, s.execs m = some x → m ∈ s.held ∨ m ∈ s.cache.map (·.2)
  self : ∀ m k, s.execs m = some ⟨k, true, some m⟩ → m ∈ s.cache.map (·.2)
  disk : ∀ d, s.disk d = true → ∃ x, s.execs d = some x ∧ x.dir = some d

private theorem drop_tidy {s : State} (h : Inv s) {n : Nat} (ht : TidyBut n s) : Tidy (s.drop n) := by
  unfold State.drop
  split_ifs with hr
  · refine ⟨ht.exe, fun m x hm => ?_, ht.self, ht.disk⟩
    by_cases e : m = n
    · rw [e]; exact hr
    · exact ht.ref m x e hm
  · push Not at hr
    cases hx : s.execs n with
    | none =>
      refine ⟨ht.exe, fun m x hm => ht.ref m x ?_ hm, ht.self, ht.disk⟩
      rintro rfl
      exact nomatch hx.symm.trans hm
    | some x =>
      have hc : ∀ c ∈ s.cache, c.2 ≠ n := fun c hc e => hr.2 (List.mem_map.2 ⟨c, hc, e⟩)
      have ref' : ∀ m y, upd s.execs n none m = some y → m ∈ s.held ∨ m ∈ s.cache.map (·.2) := by
        intro m y hy
        simp only [upd] at hy
        split_ifs at hy with e
        exact ht.ref m y e hy
      have self' : ∀ m k, upd s.execs n none m = some ⟨k, true, some m⟩ → m ∈ s.cache.map (·.2) := by
        intro m k hy
        simp only [upd] at hy
        split_ifs at hy with e
        exact ht.self m k hy
      have disk' : ∀ d, d ≠ n → s.disk d = true → ∃ x, upd s.execs n none d = some x ∧ x.dir = some d := by
        intro d hd hdd
        obtain ⟨y, h1, h2⟩ := ht.disk d hdd
        exact ⟨y, (if_neg hd).trans h1, h2⟩
      simp only
      cases hd : x.dir with
      | none =>
        refine ⟨ht.exe, ref', self', fun d hdd => ?_⟩
        by_cases e : d = n
        · subst e
          obtain ⟨y, h1, h2⟩ := ht.disk d hdd
          rw [hx] at h1; cases h1
          rw [hd] at h2; exact nomatch h2
        · exact disk' d e hdd
      | some d =>
        simp only
        split_ifs with hi
        · refine ⟨ht.exe, ref', self', fun d' hdd => ?_⟩
          by_cases e : d' = n
          · subst e
            obtain ⟨y, h1, h2⟩ := ht.disk d' hdd
            rw [hx] at h1; cases h1
            refine absurd (ht.self d' x.key ?_) hr.2
            rw [hx, ← h2, ← hi]
          · exact disk' d' e hdd
        · have hdn : d = n := by
            rcases (h.own n x hx).2 (by simpa using hi) with h1 | h1
            · rw [hd] at h1; exact Option.some.inj h1
            · rw [hd] at h1; exact nomatch h1
          subst hdn
          refine ⟨fun c hcm => (if_neg (hc c hcm)).trans (ht.exe c hcm), ref', self', fun d' hdd => ?_⟩
          simp only [upd] at hdd
          split_ifs at hdd with e
          exact disk' d' e hdd

/-- Nothing goes wrong on disk: no executable is lost, and a compilation for the cache does not fail once its
directory is there. -/
def Smooth : Op → Prop
  | .lose _ => False
  | .call _ true .late => False
  | _ => True

theorem step_tidy {s : State} (h : Inv s) (ht : Tidy s) (op : Op) (hop : Smooth op) : Tidy (step s op) := by
  cases op with
  | lose d => exact absurd hop id
  | release n =>
    apply drop_tidy (n := n)
    · exact ⟨h.pos, h.len, h.keys, h.ent, h.own, fun m hm => h.hld m (List.mem_filter.1 hm).1⟩
    · refine ⟨ht.exe, fun m x hmn hm => ?_, ht.self, ht.disk⟩
      rcases ht.ref m x hm with h1 | h1
      · exact Or.inl (List.mem_filter.2 ⟨h1, by simpa using hmn⟩)
      · exact Or.inr h1
  | call k cached c =>
    have hlt := looked_inv h k cached
    obtain ⟨e1, e2, e3, e4, e5, e6, e7⟩ := looked_next s k cached
    have hvals : ∀ m, m ∈ (looked s k cached).cache.map (·.2) ↔ m ∈ s.cache.map (·.2) := by
      intro m
      unfold looked
      split
      · rename_i e he
        have hm := mem_of_lookup he
        constructor
        · intro hmm
          obtain ⟨c, hc, rfl⟩ := List.mem_map.1 hmm
          rcases List.mem_cons.1 hc with rfl | hc
          · exact List.mem_map.2 ⟨_, hm, rfl⟩
          · exact List.mem_map.2 ⟨c, (List.mem_filter.1 hc).1, rfl⟩
        · intro hmm
          obtain ⟨c, hc, rfl⟩ := List.mem_map.1 hmm
          by_cases hk : c.1 = k
          · have : c = (k, e) := by
              have h1 := lookup_of_mem h.keys (show (c.1, c.2) ∈ s.cache from hc)
              rw [hk, he] at h1
              exact Prod.ext hk (Option.some.inj h1).symm
            rw [this]
            exact List.mem_map.2 ⟨(k, e), List.mem_cons_self, rfl⟩
          · exact List.mem_map.2 ⟨c, List.mem_cons_of_mem _ (List.mem_filter.2 ⟨hc, by simpa using hk⟩), rfl⟩
      · exact Iff.rfl
    have tl : Tidy (looked s k cached) := by
      refine ⟨fun c hc => ?_, fun m x hm => ?_, fun m k hm => ?_, fun d hd => ?_⟩
      · rw [e6]
        have := (hvals c.2).1 (List.mem_map.2 ⟨c, hc, rfl⟩)
        obtain ⟨c', hc', e⟩ := List.mem_map.1 this
        rw [← e]; exact ht.exe c' hc'
      · rw [e2] at hm; rw [e3, hvals]; exact ht.ref m x hm
      · rw [e2] at hm; rw [hvals]; exact ht.self m k hm
      · rw [e4] at hd; rw [e2]; exact ht.disk d hd
    show Tidy (s.call k cached c)
    rw [call_eq]
    have fresh : (looked s k cached).execs (looked s k cached).next = none := by
      cases hx : (looked s k cached).execs (looked s k cached).next with
      | none => rfl
      | some x => exact absurd (hlt.own _ x hx).1 (Nat.lt_irrefl _)
    cases hh : s.hit k cached with
    | some q =>
      obtain ⟨e, d⟩ := q
      obtain ⟨rfl, hm, rfl, hx⟩ := hit_some h hh
      have hdn : d ≠ (looked s k true).next := by rw [e1]; exact Nat.ne_of_lt (h.lt _ hm)
      generalize looked s k true = t at *
      refine ⟨tl.exe, fun m x hmx => ?_, fun m k' hmx => ?_, fun d' hd' => ?_⟩
      · simp only [upd] at hmx
        split_ifs at hmx with em
        · left; rw [em]; exact List.mem_cons_self
        · rcases tl.ref m x hmx with h1 | h1
          · exact Or.inl (List.mem_cons_of_mem _ h1)
          · exact Or.inr h1
      · simp only [upd] at hmx
        split_ifs at hmx with em
        · simp only [Option.some.injEq, Exec.mk.injEq, true_and] at hmx
          exact absurd (hmx.2.trans em) hdn
        · exact tl.self m k' hmx
      · obtain ⟨y, h1, h2⟩ := tl.disk d' hd'
        refine ⟨y, (if_neg ?_).trans h1, h2⟩
        rintro rfl
        exact nomatch fresh.symm.trans h1
    | none =>
      generalize looked s k cached = t at *
      cases c with
      | early =>
        have hi := fresh_inv hlt ⟨k, cached, none⟩ (fun _ => Or.inr rfl) t.disk t.exe t.built (fun _ _ => rfl) (fun _ _ => rfl)
        refine drop_tidy hi ⟨tl.exe, fun m x hmn hm => tl.ref m x ((if_neg hmn).symm.trans hm), fun m k' hm => ?_, fun d hd => ?_⟩
        · simp only [upd] at hm
          split_ifs at hm with em
          · simp at hm
          · exact tl.self m k' hm
        · obtain ⟨y, h1, h2⟩ := tl.disk d hd
          refine ⟨y, (if_neg ?_).trans h1, h2⟩
          rintro rfl
          exact nomatch fresh.symm.trans h1
      | late =>
        have hcf : cached = false := by
          cases cached with
          | false => rfl
          | true => exact absurd hop id
        subst hcf
        have hi := fresh_inv hlt ⟨k, false, some t.next⟩ (fun _ => Or.inl rfl) (upd t.disk t.next true) t.exe t.built
          (fun d hd => if_neg (Nat.ne_of_lt hd)) (fun _ _ => rfl)
        refine drop_tidy hi ⟨tl.exe, fun m x hmn hm => tl.ref m x ((if_neg hmn).symm.trans hm), fun m k' hm => ?_, fun d hd => ?_⟩
        · simp only [upd] at hm
          split_ifs at hm with em
          · simp at hm
          · exact tl.self m k' hm
        · simp only [upd] at hd
          split_ifs at hd with ed
          · exact ⟨⟨k, false, some t.next⟩, if_pos ed, by rw [ed]⟩
          · obtain ⟨y, h1, h2⟩ := tl.disk d hd
            exact ⟨y, (if_neg ed).trans h1, h2⟩
      | ok =>
        have hi := fresh_inv hlt ⟨k, cached, some t.next⟩ (fun _ => Or.inl rfl) (upd t.disk t.next true) (upd t.exe t.next true)
          (upd t.built t.next (some k)) (fun d hd => if_neg (Nat.ne_of_lt hd)) (fun d hd => if_neg (Nat.ne_of_lt hd))
        have hi := hold_inv hi t.next ⟨k, cached, some t.next⟩ t.next (if_pos rfl) rfl (if_pos rfl) (Nat.lt_succ_self _) (fun _ => if_pos rfl)
        have texe : ∀ c ∈ t.cache, upd t.exe t.next true c.2 = true := fun c hc => (if_neg (Nat.ne_of_lt (hlt.lt c hc))).trans (tl.exe c hc)
        have tref : ∀ m x, upd t.execs t.next (some ⟨k, cached, some t.next⟩) m = some x → m ∈ t.next :: t.held ∨ m ∈ t.cache.map (·.2) := by
          intro m x hm
          simp only [upd] at hm
          split_ifs at hm with em
          · left; rw [em]; exact List.mem_cons_self
          · rcases tl.ref m x hm with h1 | h1
            · exact Or.inl (List.mem_cons_of_mem _ h1)
            · exact Or.inr h1
        have tdisk : ∀ d, upd t.disk t.next true d = true →
            ∃ x, upd t.execs t.next (some ⟨k, cached, some t.next⟩) d = some x ∧ x.dir = some d := by
          intro d hd
          simp only [upd] at hd
          split_ifs at hd with ed
          · exact ⟨⟨k, cached, some t.next⟩, if_pos ed, by rw [ed]⟩
          · obtain ⟨y, h1, h2⟩ := tl.disk d hd
            exact ⟨y, (if_neg ed).trans h1, h2⟩
        have tself : ∀ m k', m ≠ t.next → upd t.execs t.next (some ⟨k, cached, some t.next⟩) m = some ⟨k', true, some m⟩ →
            m ∈ t.cache.map (·.2) := fun m k' hmn hm => tl.self m k' ((if_neg hmn).symm.trans hm)
        simp only
        cases cached with
        | false =>
          rw [if_neg (by simp)]
          refine ⟨texe, tref, fun m k' hm => ?_, tdisk⟩
          by_cases em : m = t.next
          · rw [em] at hm
            have : some (⟨k, false, some t.next⟩ : Exec) = some ⟨k', true, some t.next⟩ := (if_pos rfl).symm.trans hm
            simp at this
          · exact tself m k' em hm
        | true =>
          rw [if_pos rfl]
          -- the key is not in the cache: its executable would be there
          have hk : s.cache.lookup k = none := by
            cases hl : s.cache.lookup k with
            | none => rfl
            | some e =>
              have hm := mem_of_lookup hl
              unfold State.hit at hh
              rw [if_pos rfl, hl] at hh
              simp [(h.ent _ hm).1, ht.exe _ hm] at hh
          have hkt : t.cache.lookup k = none := by
            cases hl : t.cache.lookup k with
            | none => rfl
            | some e =>
              have hm := mem_of_lookup hl
              have h1 := (hvals e).1 (List.mem_map.2 ⟨_, hm, rfl⟩)
              obtain ⟨c', hc', e'⟩ := List.mem_map.1 h1
              have h2 := (h.ent _ hc').1
              have h3 := (hlt.ent _ hm).1
              rw [e2, ← e'] at h3
              rw [h2] at h3
              simp only [Option.some.injEq, Exec.mk.injEq, true_and] at h3
              have := not_mem_of_lookup hk
              exact absurd (List.mem_map.2 ⟨c', hc', h3.1⟩) this
          unfold State.store
          show Tidy (match t.cache.lookup k with | some old => _ | none => _)
          rw [hkt]
          simp only
          by_cases hlen : t.cache.length < t.cap
          · rw [if_pos hlen]
            refine ⟨fun c hc => ?_, fun m x hm => ?_, fun m k' hm => ?_, tdisk⟩
            · rcases List.mem_cons.1 hc with rfl | hc
              · exact if_pos rfl
              · exact texe c hc
            · rcases tref m x hm with h1 | h1
              · exact Or.inl h1
              · exact Or.inr (List.mem_cons_of_mem _ h1)
            · by_cases em : m = t.next
              · rw [em]; exact List.mem_cons_self
              · exact List.mem_cons_of_mem _ (tself m k' em hm)
          · rw [if_neg hlen]
            cases hg : t.cache.getLast? with
            | none =>
              rw [List.getLast?_eq_none_iff] at hg
              rw [hg] at hlen
              exact absurd hlt.pos hlen
            | some q =>
              obtain ⟨ko, old⟩ := q
              -- as `store_inv`, for the state before the drop
              obtain ⟨pre, hpre⟩ := List.getLast?_eq_some_iff.1 hg
              have hmem : (ko, old) ∈ t.cache := by rw [hpre]; simp
              have hold := (hlt.ent _ hmem).1
              have hno : old ≠ t.next := Nat.ne_of_lt (hlt.lt _ hmem)
              have hdl : t.cache.dropLast = pre := by rw [hpre]; simp
              have vals : ∀ m, m ≠ old → m ∈ t.cache.map (·.2) → m ∈ pre.map (·.2) := by
                intro m hmo hm
                rw [hpre] at hm
                simp only [List.map_append, List.mem_append, List.map_cons, List.map_nil, List.mem_singleton] at hm
                rcases hm with h | h
                · exact h
                · exact absurd h hmo
              refine drop_tidy (n := old) ?_ ⟨fun c hc => ?_, fun m x hmn hm => ?_, fun m k' hm => ?_, fun d hd => ?_⟩
              · exact evict_inv hi (if_pos rfl) (if_pos rfl) (if_pos rfl)
                  (fun hm => by
                    obtain ⟨c, hc, e⟩ := List.mem_map.1 hm
                    exact absurd e (Nat.ne_of_lt (hlt.lt c hc)))
                  hkt hg
              · simp only [hdl] at hc
                rcases List.mem_cons.1 hc with rfl | hc
                · exact if_pos rfl
                · exact texe c (by rw [hpre]; simp [hc])
              · simp only [hdl]
                rcases tref m x ((if_neg hmn).symm.trans hm) with h1 | h1
                · exact Or.inl h1
                · exact Or.inr (List.mem_cons_of_mem _ (vals m hmn h1))
              · simp only [hdl]
                by_cases em : m = old
                · subst em
                  have : upd t.execs t.next (some ⟨k, true, some t.next⟩) m = some ⟨ko, true, some m⟩ := (if_neg hno).trans hold
                  simp only [upd, if_pos] at hm
                  rw [if_neg hno, hold] at hm
                  simp at hm
                · have hm : upd t.execs t.next (some ⟨k, true, some t.next⟩) m = some ⟨k', true, some m⟩ := (if_neg em).symm.trans hm
                  by_cases en : m = t.next
                  · rw [en]; exact List.mem_cons_self
                  · exact List.mem_cons_of_mem _ (vals m em (tself m k' en hm))
              · obtain ⟨y, h1, h2⟩ := tdisk d hd
                by_cases ed : d = old
                · subst ed
                  refine ⟨{ y with isCached := false }, ?_, h2⟩
                  show upd _ d (Option.map _ (upd t.execs t.next _ d)) d = _
                  rw [h1]
                  exact if_pos rfl
                · exact ⟨y, (if_neg ed).trans h1, h2⟩

/-- As long as nothing goes wrong on disk, a directory which is still there belongs to an executor which is
held or in the cache. What is missing: the cases of `C61_failed_fails` and `C61_replaced_fails`. -/
theorem C61_no_leak_partial (cap : Nat) (hc : 0 < cap) (ops : List Op) (hops : ∀ op ∈ ops, Smooth op) (d : Nat)
    (hd : (run cap ops).disk d = true) : d ∈ (run cap ops).held ∨ d ∈ (run cap ops).cache.map (·.2) := by
  have key : Tidy (run cap ops) := by
    clear hd
    induction ops using List.reverseRecOn with
    | nil => exact ⟨fun c h => (nomatch h), fun m x h => (nomatch h), fun m k h => (nomatch h), fun d h => (nomatch h)⟩
    | append_singleton ops op ih =>
      rw [run_snoc]
      exact step_tidy (run_inv cap hc ops) (ih fun o ho => hops o (by simp [ho])) op (hops op (by simp))
  obtain ⟨x, h1, _⟩ := key.disk d hd
  exact key.ref d x h1

/-- The directory of a failed compilation for the cache is never removed: it belongs to no executor. -/
theorem C61_failed_fails : ∃ (ops : List Op) (d : Nat), (run 2 ops).disk d = true ∧ (run 2 ops).execs d = none ∧
    (run 2 ops).held = [] ∧ (run 2 ops).cache = [] := ⟨[.call 7 true .late], 0, by decide⟩

/-- The directory of a cached executor whose executable was lost is left behind when its key is compiled
again. -/
theorem C61_replaced_fails : ∃ (ops : List Op) (d : Nat), (run 2 ops).disk d = true ∧ (run 2 ops).execs d = none ∧
    (run 2 ops).held = [] ∧ (run 2 ops).cache = [(7, 1)] ∧ d ≠ 1 :=
  ⟨[.call 7 true .ok, .release 0, .lose 0, .call 7 true .ok, .release 1], 0, by decide⟩

/-- An executor which is not cached takes its directory with it when it is let go of. -/
theorem C61_uncached (cap : Nat) (hc : 0 < cap) (ops : List Op) (n d : Nat) (k : Key)
    (hx : (run cap ops).execs n = some ⟨k, false, some d⟩) :
    n ∉ (step (run cap ops) (.release n)).held ∧ (step (run cap ops) (.release n)).disk d = false ∧
      ∀ d', d' ≠ d → (step (run cap ops) (.release n)).disk d' = (run cap ops).disk d' := by
  have hi := run_inv cap hc ops
  generalize run cap ops = s at *
  have hnc : n ∉ s.cache.map (·.2) := by
    intro hm
    obtain ⟨c, hc, e⟩ := List.mem_map.1 hm
    have := (hi.ent c hc).1
    rw [e, hx] at this
    simp at this
  show n ∉ (State.drop _ n).held ∧ (State.drop _ n).disk d = false ∧ ∀ d', d' ≠ d → (State.drop _ n).disk d' = _
  unfold State.drop
  rw [if_neg (by simp only [List.mem_filter, not_or]; exact ⟨by simp, hnc⟩)]
  simp only [hx]
  refine ⟨by simp, if_pos rfl, fun d' hd' => if_neg hd'⟩

example : ∀ op ∈ [Op.call 7 true .ok, .call 8 false .late, .call 9 true .early, .release 0], Smooth op := by
  intro op h; simp at h; rcases h with rfl | rfl | rfl | rfl <;> trivial

end Verif.Cache
