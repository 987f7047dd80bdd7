import Verif.Spec.Ipc
import Verif.Props.Judge
import Verif.Props.Shown
import Mathlib.Tactic.Common
import Mathlib.Data.List.Forall2

/-!
# C116 What the worker reports crosses the pipe to the judge unchanged, or the submission ends with an internal error
-/

namespace Verif.Ipc

/-! ## Attributes -/

theorem get_iff (a : Attrs) (k : String) (v : V) : get a k = some v ↔ Has a k v := by
  unfold get
  induction a with
  | nil =>
    constructor
    · intro h; cases h
    · rintro ⟨pre, post, h, -⟩; cases pre <;> cases h
  | cons e a ih =>
    obtain ⟨k', v'⟩ := e
    rw [List.lookup_cons]
    by_cases hk : k = k'
    · subst hk
      simp only [BEq.rfl]
      constructor
      · intro h; cases h; exact ⟨[], a, rfl, by simp⟩
      · rintro ⟨pre, post, h, hp⟩
        cases pre with
        | nil => cases h; rfl
        | cons p pre => cases h; exact absurd rfl (hp _ List.mem_cons_self)
    · have : (k == k') = false := by simpa using hk
      simp only [this]
      rw [ih]
      constructor
      · rintro ⟨pre, post, rfl, hp⟩
        exact ⟨(k', v') :: pre, post, rfl, by
          intro e he
          rcases List.mem_cons.1 he with rfl | he
          · exact fun h => hk h.symm
          · exact hp e he⟩
      · rintro ⟨pre, post, h, hp⟩
        cases pre with
        | nil => cases h; exact absurd rfl hk
        | cons p pre =>
          cases h
          exact ⟨pre, post, rfl, fun e he => hp e (List.mem_cons_of_mem _ he)⟩

theorem get_set (a : Attrs) (k k' : String) (v : V) : get (set a k v) k' = if k' = k then some v else get a k' := by
  unfold get set
  rw [List.lookup_cons]
  by_cases h : k' = k
  · simp [h]
  · have : (k' == k) = false := by simpa using h
    simp only [this, if_neg h]
    induction a with
    | nil => rfl
    | cons e a ih =>
      obtain ⟨x, y⟩ := e
      by_cases hx : x = k
      · have : (k' == x) = false := by rw [hx]; simpa using h
        rw [List.filter_cons, if_neg (by simp [hx]), ih, List.lookup_cons, this]
      · rw [List.filter_cons, if_pos (by simp [hx]), List.lookup_cons, List.lookup_cons, ih]

private theorem get_filter (a : Attrs) (p : String → Bool) (k : String) :
    get (a.filter fun e => p e.1) k = if p k then get a k else none := by
  unfold get
  induction a with
  | nil => simp
  | cons e a ih =>
    obtain ⟨x, y⟩ := e
    rw [List.filter_cons]
    by_cases hx : p x = true
    · rw [if_pos hx, List.lookup_cons, List.lookup_cons, ih]
      by_cases hk : k = x
      · subst hk; simp [hx]
      · have : (k == x) = false := by simpa using hk
        simp [this]
    · rw [if_neg hx, ih, List.lookup_cons]
      by_cases hk : k = x
      · subst hk; simp [hx]
      · have : (k == x) = false := by simpa using hk
        simp [this]

/-- The state of a dictionary with every key once, loaded into a new object, is the dictionary. -/
private theorem get_update (s : Attrs) (hs : (s.map (·.1)).Nodup) (d : Attrs) (k : String) :
    get (update d s) k = (get s k).or (get d k) := by
  induction s generalizing d with
  | nil => simp [update, get]
  | cons e s ih =>
    obtain ⟨x, y⟩ := e
    rw [List.map_cons, List.nodup_cons] at hs
    rw [update, ih hs.2, get_set]
    by_cases hk : k = x
    · subst hk
      have : get s k = none := by
        unfold get
        rw [List.lookup_eq_none_iff]
        intro p hp
        have : p.1 ∈ s.map (·.1) := List.mem_map_of_mem hp
        simp only [bne_iff_ne, ne_eq]
        grind
      rw [this]
      simp [get, List.lookup_cons]
    · have : (k == x) = false := by simpa using hk
      simp [hk, get, List.lookup_cons, this]

private theorem get_loaded (c : Attrs) (hc : Dict c) (k : String) :
    get (update [] (getstate c)) k = if blacklist.contains k then none else get c k := by
  have hn : ((getstate c).map (·.1)).Nodup := by
    unfold getstate
    exact hc.sublist (List.filter_sublist.map _)
  rw [get_update _ hn]
  unfold getstate
  rw [get_filter c (fun x => !blacklist.contains x) k]
  cases blacklist.contains k <;> simp [get]

private theorem bound_iff (p : V) (n : Option Int) : p.bound = some n ↔ Stands p n := by
  constructor
  · intro h
    cases p with
    | null => cases h; exact .none
    | int k => cases h; exact .int k
    | bool b => cases b <;> cases h <;> constructor
    | _ => cases h
  · intro h
    cases h <;> rfl

private theorem output_iff (r : Res) (t : Shown.Text) : output r = some t ↔
    ∃ p n o x, Has r.case "output_prefix_length" p ∧ Stands p n ∧ Has r.attrs "proc_output" o ∧ IsOutput o x ∧ t = Shown.output n x := by
  unfold output
  constructor
  · intro h
    split at h
    · rename_i p o hp ho
      split at h
      · rename_i n b hn
        cases h
        exact ⟨p, n, _, _, (get_iff _ _ _).1 hp, (bound_iff _ _).1 hn, (get_iff _ _ _).1 ho, .bytes b, rfl⟩
      · rename_i n t hn
        cases h
        exact ⟨p, n, _, _, (get_iff _ _ _).1 hp, (bound_iff _ _).1 hn, (get_iff _ _ _).1 ho, .text t, rfl⟩
      · cases h
    · cases h
  · rintro ⟨p, n, o, x, hp, hn, ho, hx, rfl⟩
    rw [(get_iff _ _ _).2 hp, (get_iff _ _ _).2 ho]
    simp only
    rw [(bound_iff _ _).2 hn]
    cases hx <;> rfl

private theorem view_iff (r : Res) (v : View) : view r = some v ↔
    get r.attrs "result_flag" = some v.status ∧ get r.attrs "execution_time" = some v.time ∧ get r.attrs "points" = some v.points ∧
    get r.case "points" = some v.total ∧ get r.attrs "max_memory" = some v.memory ∧ output r = some v.output ∧
    get r.attrs "extended_feedback" = some v.extended ∧ get r.attrs "feedback" = some v.feedback := by
  unfold view
  simp only [Option.bind_eq_bind, Option.bind_eq_some_iff, Option.pure_def, Option.some.injEq]
  constructor
  · rintro ⟨a, h1, b, h2, c, h3, d, h4, e, h5, f, h6, g, h7, i, h8, rfl⟩
    exact ⟨h1, h2, h3, h4, h5, h6, h7, h8⟩
  · rintro ⟨h1, h2, h3, h4, h5, h6, h7, h8⟩
    exact ⟨_, h1, _, h2, _, h3, _, h4, _, h5, _, h6, _, h7, _, h8, rfl⟩

private theorem trim_some {r r' : Res} (h : trim r = some r') : ∃ t, output r = some t ∧ r' = { r with attrs := set r.attrs "proc_output" (.text t) } := by
  unfold trim at h
  split at h
  · rename_i t ht
    cases h
    exact ⟨t, ht, rfl⟩
  · cases h

private theorem cross_ok {r s : Res} (h : cross r = .ok s) : s = ⟨update [] (getstate r.case), r.attrs⟩ ∧ fateOf (r.attrs ++ getstate r.case) = .arrives := by
  unfold cross at h
  split at h
  · rename_i hf
    cases h
    exact ⟨rfl, hf⟩
  · cases h

/-- What is received has all attributes of what was sent, but for the output and for three of the case. -/
private theorem received {r r' s : Res} (hd : Dict r.case) (ht : trim r = some r') (hc : cross r' = .ok s) :
    (∀ k, k ≠ "proc_output" → get s.attrs k = get r.attrs k) ∧ (∃ t, output r = some t ∧ get s.attrs "proc_output" = some (.text t)) ∧
    ∀ k, get s.case k = if blacklist.contains k then none else get r.case k := by
  obtain ⟨t, ho, rfl⟩ := trim_some ht
  obtain ⟨rfl, -⟩ := cross_ok hc
  refine ⟨fun k hk => ?_, ⟨t, ho, ?_⟩, fun k => get_loaded _ hd k⟩
  · simp only
    rw [get_set, if_neg hk]
  · simp only
    rw [get_set, if_pos rfl]

private theorem has_unique {a : Attrs} {k : String} {v w : V} (h : Has a k v) (h' : Has a k w) : v = w := by
  have := (get_iff a k v).2 h
  rw [(get_iff a k w).2 h'] at this
  exact (Option.some.inj this).symm

private theorem stands_unique {p : V} {n m : Option Int} (h : Stands p n) (h' : Stands p m) : n = m := by
  have := (bound_iff p n).2 h
  rw [(bound_iff p m).2 h'] at this
  exact (Option.some.inj this).symm

private theorem output_received {r r' s : Res} (hd : Dict r.case) (ht : trim r = some r') (hc : cross r' = .ok s) (u : Shown.Text) :
    output s = some u ↔ ∃ p n o x, Has r.case "output_prefix_length" p ∧ Stands p n ∧ Has r.attrs "proc_output" o ∧ IsOutput o x ∧ u = Shown.status n x := by
  obtain ⟨-, ⟨t, ho, h2⟩, h3⟩ := received hd ht hc
  have h3' : get s.case "output_prefix_length" = get r.case "output_prefix_length" := by rw [h3]; rfl
  rw [output_iff] at ho ⊢
  obtain ⟨p, n, o, x, hp, hn, hx, hi, rfl⟩ := ho
  constructor
  · rintro ⟨p', n', o', x', hp', hn', hx', hi', rfl⟩
    rw [← get_iff, h3', get_iff] at hp'
    cases has_unique hp hp'
    cases stands_unique hn hn'
    rw [← get_iff, h2] at hx'
    cases hx'
    cases hi'
    exact ⟨p, n, o, x, hp, hn, hx, hi, rfl⟩
  · rintro ⟨p', n', o', x', hp', hn', hx', hi', rfl⟩
    cases has_unique hp hp'
    cases stands_unique hn hn'
    cases has_unique hx hx'
    have : x' = x := by cases hi <;> cases hi' <;> rfl
    subst this
    refine ⟨p, n, _, .text (Shown.output n x'), ?_, hn, (get_iff _ _ _).1 h2, .text _, rfl⟩
    rw [← get_iff, h3', get_iff]
    exact hp

/-- The entry made of the received result is the one the result in the worker calls for. -/
private theorem view_received {r r' s : Res} (hd : Dict r.case) (ht : trim r = some r') (hc : cross r' = .ok s) (v : View) :
    view s = some v ↔ Faithful r v := by
  obtain ⟨h1, -, h3⟩ := received hd ht hc
  rw [view_iff, output_received hd ht hc, h1 _ (by decide), h1 _ (by decide), h1 _ (by decide), h1 _ (by decide), h1 _ (by decide), h1 _ (by decide), h3,
    if_neg (by decide)]
  simp only [get_iff]
  exact ⟨fun ⟨a, b, c, d, e, f, g, i⟩ => ⟨a, b, c, d, e, f, g, i⟩, fun ⟨a, b, c, d, e, f, g, i⟩ => ⟨a, b, c, d, e, f, g, i⟩⟩

private theorem fate_iff (v : V) : v.fate = .arrives ↔ Arrives v := by
  cases v with
  | node => exact ⟨nofun, fun h => absurd rfl h.1⟩
  | object i f =>
    refine ⟨fun h => ⟨nofun, fun i' f' e => ?_⟩, fun h => h.2 i f rfl⟩
    cases e
    exact h
  | _ => exact ⟨fun _ => ⟨nofun, nofun⟩, fun _ => rfl⟩

private theorem fateOf_arrives (a : Attrs) : fateOf a = .arrives ↔ ∀ k v, (k, v) ∈ a → v.fate = .arrives := by
  unfold fateOf
  constructor
  · intro h k v hm
    split at h
    · cases h
    · rename_i h1
      split at h
      · cases h
      · rename_i h2
        rw [List.any_eq_true] at h1 h2
        cases hf : v.fate with
        | arrives => rfl
        | refused => exact absurd ⟨_, hm, by simpa using hf⟩ h1
        | broken => exact absurd ⟨_, hm, by simpa using hf⟩ h2
  · intro h
    rw [if_neg, if_neg]
    · rw [List.any_eq_true]
      rintro ⟨⟨k, v⟩, hm, hf⟩
      rw [decide_eq_true_eq, h k v hm] at hf
      cases hf
    · rw [List.any_eq_true]
      rintro ⟨⟨k, v⟩, hm, hf⟩
      rw [decide_eq_true_eq, h k v hm] at hf
      cases hf

private theorem black (k : String) : blacklist.contains k = true ↔ k = "_generated" ∨ k = "config" ∨ k = "problem" := by
  simp [blacklist]

private theorem mem_set (a : Attrs) (k k' : String) (v w : V) : (k', w) ∈ set a k v ↔ (k' = k ∧ w = v) ∨ ((k', w) ∈ a ∧ k' ≠ k) := by
  simp [set]

/-- A result is received exactly if nothing is wrong with it, seen from the worker. -/
private theorem arrives_iff (r : Res) (hd : Dict r.case) :
    (∃ r' s v, trim r = some r' ∧ cross r' = .ok s ∧ view s = some v) ↔ Sendable r := by
  constructor
  · rintro ⟨r', s, v, ht, hc, hv⟩
    have hv' := (view_received hd ht hc v).1 hv
    obtain ⟨t, ho, rfl⟩ := trim_some ht
    obtain ⟨rfl, hf⟩ := cross_ok hc
    rw [fateOf_arrives] at hf
    refine ⟨⟨v, hv'⟩, fun k w hm hk => (fate_iff w).1 (hf k w ?_), fun k w hm h1 h2 h3 => (fate_iff w).1 (hf k w ?_)⟩
    · exact List.mem_append_left _ ((mem_set _ _ _ _ _).2 (.inr ⟨hm, hk⟩))
    · refine List.mem_append_right _ (List.mem_filter.2 ⟨hm, ?_⟩)
      rw [Bool.not_eq_true', ← Bool.not_eq_true, black]
      simp [h1, h2, h3]
  · rintro ⟨⟨v, hv⟩, ha, hc⟩
    obtain ⟨p, n, o, x, hp, hn, ho, hx, -⟩ := hv.output
    have hout := (output_iff r _).2 ⟨p, n, o, x, hp, hn, ho, hx, rfl⟩
    have ht : trim r = some { r with attrs := set r.attrs "proc_output" (.text (Shown.output n x)) } := by
      unfold trim
      rw [hout]
    have hf : fateOf (set r.attrs "proc_output" (.text (Shown.output n x)) ++ getstate r.case) = .arrives := by
      rw [fateOf_arrives]
      intro k w hm
      rcases List.mem_append.1 hm with hm | hm
      · rcases (mem_set _ _ _ _ _).1 hm with ⟨-, rfl⟩ | ⟨hm, hk⟩
        · rfl
        · exact (fate_iff w).2 (ha k w hm hk)
      · obtain ⟨hm, hb⟩ := List.mem_filter.1 hm
        rw [Bool.not_eq_true', ← Bool.not_eq_true, black] at hb
        exact (fate_iff w).2 (hc k w hm (fun h => hb (.inr (.inl h))) (fun h => hb (.inr (.inr h))) (fun h => hb (.inl h)))
    have hcr : cross { r with attrs := set r.attrs "proc_output" (.text (Shown.output n x)) } =
        .ok ⟨update [] (getstate r.case), set r.attrs "proc_output" (.text (Shown.output n x))⟩ := by
      unfold cross
      simp only
      rw [hf]
    exact ⟨_, _, v, ht, hcr, (view_received hd ht hcr v).2 hv⟩

/-! ## What the judge is told -/

/-- C116.  Of whatever the worker hands over, results of graders of problems included, the judge is told everything in order, or everything before the first
result something is wrong with, and then of an error. A result that it is told of says what the result in the worker says. -/
theorem C116_stream (raises : Bool) (ys : List Yield) (hd : ∀ n r, .result n r ∈ ys → Dict r.case) :
    ∃ front tail, told raises ys = front ++ tail ∧
      ((List.Forall₂ Says ys front ∧ tail = if raises then [.msg .unhandled] else []) ∨
       (∃ pre n r post, ys = pre ++ .result n r :: post ∧ List.Forall₂ Says pre front ∧ ¬ Sendable r ∧
          (tail = [.msg .unhandled] ∨ tail = [.internalError]))) := by
  induction ys with
  | nil =>
    refine ⟨[], if raises then [.msg .unhandled] else [], ?_, .inl ⟨.nil, rfl⟩⟩
    cases raises <;> rfl
  | cons y ys ih =>
    obtain ⟨front, tail, he, hh⟩ := ih fun n r hm => hd n r (List.mem_cons_of_mem _ hm)
    cases y with
    | msg m =>
      refine ⟨.msg m :: front, tail, ?_, ?_⟩
      · show receive (.msg m :: send raises ys) = _
        rw [receive, ← told, he]
        rfl
      · rcases hh with ⟨h1, h2⟩ | ⟨pre, n, r, post, rfl, h1, h2, h3⟩
        · exact .inl ⟨.cons (.msg m) h1, h2⟩
        · exact .inr ⟨.msg m :: pre, n, r, post, rfl, .cons (.msg m) h1, h2, h3⟩
    | result n r =>
      have hdr := hd n r List.mem_cons_self
      by_cases hs : Sendable r
      · obtain ⟨r', s, v, ht, hc, hv⟩ := (arrives_iff r hdr).2 hs
        have hf := (view_received hdr ht hc v).1 hv
        refine ⟨.status n v :: front, tail, ?_, ?_⟩
        · unfold told
          rw [send, ht]
          simp only
          rw [hc]
          simp only
          rw [receive, hv]
          simp only
          rw [← told, he]
          rfl
        · rcases hh with ⟨h1, h2⟩ | ⟨pre, n', r'', post, rfl, h1, h2, h3⟩
          · exact .inl ⟨.cons (.result n r v hf) h1, h2⟩
          · exact .inr ⟨.result n r :: pre, n', r'', post, rfl, .cons (.result n r v hf) h1, h2, h3⟩
      · have hno : ∀ r' s v, trim r = some r' → cross r' = .ok s → view s ≠ some v :=
          fun r' s v h1 h2 h3 => hs ((arrives_iff r hdr).1 ⟨r', s, v, h1, h2, h3⟩)
        refine ⟨[], told raises (.result n r :: ys), rfl, .inr ⟨[], n, r, ys, rfl, .nil, hs, ?_⟩⟩
        unfold told
        rw [send]
        split
        · exact .inl rfl
        · rename_i r' ht
          split
          · rename_i s hc
            rw [receive]
            split
            · rename_i v hv
              exact absurd hv (hno r' s v ht hc)
            · exact .inr rfl
          · exact .inr rfl
          · exact .inl rfl

/-- C116.  What the worker sends ends with its farewell, which is sent once. -/
theorem C116_farewell (raises : Bool) (ys : List Yield) : ∃ front, send raises ys = front ++ [.bye] ∧ Wire.bye ∉ front := by
  induction ys with
  | nil => exact ⟨if raises then [.msg .unhandled] else [], rfl, by cases raises <;> simp⟩
  | cons y ys ih =>
    obtain ⟨front, he, hn⟩ := ih
    cases y with
    | msg m => exact ⟨.msg m :: front, by rw [send, he]; rfl, by simp [hn]⟩
    | result n r =>
      rw [send]
      split
      · exact ⟨[.msg .unhandled], rfl, by simp⟩
      · split
        · exact ⟨_ :: front, by rw [he]; rfl, by simp [hn]⟩
        · exact ⟨_ :: front, by rw [he]; rfl, by simp [hn]⟩
        · exact ⟨[.msg .unhandled], rfl, by simp⟩

/-- C116.  If nothing is wrong with any result, the judge is told of all of them. -/
theorem C116_delivered (raises : Bool) (ys : List Yield) (hd : ∀ n r, .result n r ∈ ys → Dict r.case) (hs : ∀ n r, .result n r ∈ ys → Sendable r) :
    ∃ front, told raises ys = front ++ (if raises then [.msg .unhandled] else []) ∧ List.Forall₂ Says ys front := by
  obtain ⟨front, tail, he, ⟨h1, rfl⟩ | ⟨pre, n, r, post, rfl, -, h2, -⟩⟩ := C116_stream raises ys hd
  · exact ⟨front, he, h1⟩
  · exact absurd (hs n r (by simp)) h2

/-- C116.  What is received has all attributes of what was handed over, those that graders of problems added included, but for the output, which is cut, and for
three attributes of the case, which are dropped. -/
theorem C116_attributes (r r' s : Res) (hd : Dict r.case) (ht : trim r = some r') (hc : cross r' = .ok s) :
    (∀ k v, k ≠ "proc_output" → (Has s.attrs k v ↔ Has r.attrs k v)) ∧
    ∀ k v, Has s.case k v ↔ Has r.case k v ∧ k ≠ "config" ∧ k ≠ "problem" ∧ k ≠ "_generated" := by
  obtain ⟨h1, -, h3⟩ := received hd ht hc
  refine ⟨fun k v hk => by rw [← get_iff, h1 k hk, get_iff], fun k v => ?_⟩
  rw [← get_iff, h3]
  by_cases hb : blacklist.contains k = true
  · rw [if_pos hb]
    rw [black] at hb
    constructor
    · intro h; cases h
    · rintro ⟨-, h1, h2, h3⟩
      rcases hb with h | h | h
      · exact absurd h h3
      · exact absurd h h1
      · exact absurd h h2
  · rw [if_neg hb, get_iff]
    rw [black] at hb
    constructor
    · intro h
      exact ⟨h, fun e => hb (.inr (.inl e)), fun e => hb (.inr (.inr e)), fun e => hb (.inl e)⟩
    · exact fun h => h.1

/-- C116.  The judge never holds more of an output than the site is shown. -/
theorem C116_small (r r' s : Res) (hd : Dict r.case) (ht : trim r = some r') (hc : cross r' = .ok s) (n : Nat)
    (hn : Has r.case "output_prefix_length" (.int n)) (v : V) (hv : Has s.attrs "proc_output" v) : ∃ t, v = .text t ∧ t.length ≤ n := by
  obtain ⟨-, ⟨t, ho, h2⟩, -⟩ := received hd ht hc
  rw [← get_iff, h2] at hv
  cases hv
  refine ⟨t, rfl, ?_⟩
  obtain ⟨p, m, o, x, hp, hm, -, -, rfl⟩ := (output_iff r t).1 ho
  cases has_unique hn hp
  cases hm
  have := Verif.Props.C78_length x n
  rw [← this.2.1]
  exact this.1

private theorem plain_fate {v : V} (h : Plain v) : Arrives v := by
  rw [← fate_iff]
  cases v with
  | node => exact absurd rfl h.1
  | object i f => exact absurd rfl (h.2 i f)
  | _ => rfl

/-- C116.  Whatever the configuration of the problem contains, whatever the generator wrote: a result as the graders of the judge make them is delivered if the
case's points, length of shown output and kind of data are simple values. -/
theorem C116_standard (position : Nat) (batch config problem points pre binary generated : V) (flag time wall memory output feedback extended awarded : V)
    (hb : Plain batch) (hp : Plain points) (hpre : ∃ n, Stands pre n) (hbin : Plain binary)
    (hf : Plain flag) (ht : Plain time) (hw : Plain wall) (hm : Plain memory) (ho : ∃ x, IsOutput output x) (hfe : Plain feedback) (he : Plain extended)
    (ha : Plain awarded) :
    Dict (makeCase position batch config problem points pre binary generated) ∧
    Sendable (makeResult (makeCase position batch config problem points pre binary generated) flag time wall memory output feedback extended awarded) := by
  refine ⟨by unfold Dict makeCase; simp, ⟨⟨⟨flag, time, awarded, points, memory, ?o, extended, feedback⟩, ?_⟩, ?_, ?_⟩⟩
  case o => exact Shown.status hpre.choose ho.choose
  · refine ⟨?_, ?_, ?_, ?_, ?_, ⟨pre, hpre.choose, output, ho.choose, ?_, hpre.choose_spec, ?_, ho.choose_spec, rfl⟩, ?_, ?_⟩ <;> rw [← get_iff] <;> rfl
  · intro k v hm' hk
    simp only [makeResult, List.mem_cons, Prod.mk.injEq, List.not_mem_nil, or_false] at hm'
    rcases hm' with ⟨rfl, rfl⟩ | ⟨rfl, rfl⟩ | ⟨rfl, rfl⟩ | ⟨rfl, rfl⟩ | ⟨rfl, rfl⟩ | ⟨rfl, rfl⟩ | ⟨rfl, rfl⟩ | ⟨rfl, rfl⟩ <;>
      first | exact plain_fate (by assumption) | exact absurd rfl hk
  · intro k v hm' h1 h2 h3
    simp only [makeResult, makeCase, List.mem_cons, Prod.mk.injEq, List.not_mem_nil, or_false] at hm'
    rcases hm' with ⟨rfl, rfl⟩ | ⟨rfl, rfl⟩ | ⟨rfl, rfl⟩ | ⟨rfl, rfl⟩ | ⟨rfl, rfl⟩ | ⟨rfl, rfl⟩ | ⟨rfl, rfl⟩ | ⟨rfl, rfl⟩ <;>
      first
        | exact (fate_iff _).1 rfl
        | exact plain_fate (by assumption)
        | exact absurd rfl h1
        | exact absurd rfl h2
        | exact absurd rfl h3
        | (obtain ⟨n, hn⟩ := hpre; cases hn <;> exact (fate_iff _).1 rfl)

/-- With points given as a list or a dictionary no result of a case can be sent, not even that of a case that was skipped: the submission ends with an internal
error after the first case. -/
theorem C116_points_fails (raises : Bool) (n : Nat) (r : Res) (ys : List Yield) (hp : Has r.case "points" .node)
    (pre : List Judge.Msg) : told raises (pre.map .msg ++ .result n r :: ys) = pre.map .msg ++ [.msg .unhandled] := by
  induction pre with
  | cons m pre ih =>
    show receive (.msg m :: send raises (pre.map .msg ++ .result n r :: ys)) = _
    rw [receive, ← told, ih]
    rfl
  | nil =>
    show receive (send raises (.result n r :: ys)) = [.msg .unhandled]
    rw [send]
    split
    · rfl
    · rename_i r' ht
      obtain ⟨t, -, rfl⟩ := trim_some ht
      have : cross { r with attrs := set r.attrs "proc_output" (.text t) } = .error .refused := by
        unfold cross
        have hf : fateOf (set r.attrs "proc_output" (.text t) ++ getstate r.case) = .refused := by
          unfold fateOf
          rw [if_pos]
          rw [List.any_eq_true]
          obtain ⟨a, b, he, -⟩ := hp
          refine ⟨("points", .node), List.mem_append_right _ (List.mem_filter.2 ⟨by rw [he]; simp, by decide⟩), rfl⟩
        simp only
        rw [hf]
      rw [this]
      rfl

/-! ## The protocol of the worker -/

open Judge (Msg WorkerBye WorkerRun workerMsgs openAfter openResults)

private theorem opens_mono (m : Msg) (a b : Bool) (h : a = true → b = true) : openAfter a m = true → openAfter b m = true := by
  cases m <;> simp [openAfter] <;> exact h

private theorem fold_mono (l : List Msg) (a b : Bool) (h : a = true → b = true) : l.foldl openAfter a = true → l.foldl openAfter b = true := by
  induction l generalizing a b with
  | nil => exact h
  | cons m l ih => exact ih _ _ (opens_mono m a b h)

private theorem got_open (raises : Bool) (ys : List Yield) (a b : Bool) (h : a = true → b = true)
    (hfull : (ys.map Yield.kind ++ (if raises then [Msg.unhandled] else [])).foldl openAfter b = false) :
    (got (send raises ys)).foldl openAfter a = false := by
  induction ys generalizing a b with
  | nil =>
    cases raises
    · cases a
      · rfl
      · cases (h rfl).symm.trans hfull
    · rfl
  | cons y ys ih =>
    cases y with
    | msg m => exact ih _ _ (opens_mono m a b h) hfull
    | result n r =>
      rw [send]
      split
      · rfl
      · split
        · exact ih _ _ (fun _ => rfl) hfull
        · exact ih _ _ (fun _ => rfl) hfull
        · rfl

private theorem got_ends (raises : Bool) (ys : List Yield)
    (hterm : ∃ m ∈ ys.map Yield.kind ++ (if raises then [Msg.unhandled] else []), Msg.terminal m = true) :
    ∃ m ∈ got (send raises ys), Msg.terminal m = true := by
  induction ys with
  | nil =>
    cases raises
    · simp at hterm
    · exact ⟨.unhandled, by simp [send, got], rfl⟩
  | cons y ys ih =>
    obtain ⟨m, hm, ht⟩ := hterm
    rw [List.map_cons, List.cons_append, List.mem_cons] at hm
    cases y with
    | msg m' =>
      rcases hm with rfl | hm
      · exact ⟨_, by simp [send, got, Yield.kind], ht⟩
      · obtain ⟨x, hx, hx'⟩ := ih ⟨m, hm, ht⟩
        exact ⟨x, by simp [send, got, hx], hx'⟩
    | result n r =>
      rcases hm with rfl | hm
      · cases ht
      · obtain ⟨x, hx, hx'⟩ := ih ⟨m, hm, ht⟩
        rw [send]
        split
        · exact ⟨.unhandled, by simp [got], rfl⟩
        · split
          · exact ⟨x, by simp [got, hx], hx'⟩
          · exact ⟨x, by simp [got, hx], hx'⟩
          · exact ⟨.unhandled, by simp [got], rfl⟩

/-- C116.  So C18 and C20 hold for workers whose results cannot be sent, too: whatever goes wrong with whichever results, the worker says BYE only after a message
that ends the submission, with every result followed by a closing message. -/
theorem C116_protocol (w : WorkerRun) (raises : Bool) (ys : List Yield)
    (h : workerMsgs w = ys.map Yield.kind ++ (if raises then [.unhandled] else [])) : WorkerBye (got (send raises ys)) := by
  have hb := Verif.Props.C20_worker_protocol w
  rw [h] at hb
  exact ⟨got_open raises ys false false id hb.1, got_ends raises ys hb.2⟩

/-- C116.  All that is sent before the farewell is read, one for one and in order, and nothing after it. -/
theorem C116_read (front rest : List Wire) (h : Wire.bye ∉ front) : List.Forall₂ Reads front (got (front ++ .bye :: rest)) := by
  induction front with
  | nil => exact .nil
  | cons w ws ih =>
    have ih := ih (fun hm => h (by simp [hm]))
    cases w with
    | bye => simp at h
    | msg m => exact .cons (.msg m) ih
    | result n r =>
      cases r with
      | none => exact .cons (.broken n) ih
      | some r => exact .cons (.result n r) ih

/-! ## Examples -/

private def demoCase (points : V) : Attrs :=
  makeCase 1 .null .node (.object 0 .refused) points (.int 3) (.bool false) (.object 1 .broken)

private def demoRes (points : V) : Res := makeResult (demoCase points) (.int 1) (.float 7) (.float 8) (.int 1024) (.bytes [97, 98, 99, 100]) (.text []) .null (.int 0)

/-- An ordinary result arrives, though its case holds things that do not; its output is cut. -/
example : told false [.msg .hello, .msg .gradingBegin, .result 1 (demoRes (.int 5)), .msg .gradingEnd] =
    [.msg .hello, .msg .gradingBegin, .status 1 ⟨.int 1, .float 7, .int 0, .int 5, .int 1024, ['a', 'b', 'c'], .null, .text []⟩, .msg .gradingEnd] := by
  decide +kernel

/-- Its hypotheses are met. -/
example : Dict (demoCase (.int 5)) ∧ Plain (.int 5) ∧ Stands (.int 3) (some 3) ∧ IsOutput (.bytes [97, 98, 99, 100]) (.bytes [97, 98, 99, 100]) :=
  ⟨by unfold Dict; decide +kernel, ⟨by simp, by simp⟩, .int 3, .bytes _⟩

/-- Points that are a list. -/
example : Has (demoRes .node).case "points" .node ∧ told false [.msg .hello, .msg .gradingBegin, .result 1 (demoRes .node), .msg .gradingEnd] =
    [.msg .hello, .msg .gradingBegin, .msg .unhandled] :=
  ⟨(get_iff _ _ _).1 rfl, by decide +kernel⟩

/-- A grader of a problem puts something in a result that cannot be loaded again. -/
example : told false [.result 1 { demoRes (.int 5) with attrs := ("mine", .object 2 .broken) :: (demoRes (.int 5)).attrs }, .msg .gradingEnd] = [.internalError] := by
  decide +kernel

/-- Or an attribute that can: it arrives. -/
example : ∃ r' s, trim { demoRes (.int 5) with attrs := ("mine", .int 2) :: (demoRes (.int 5)).attrs } = some r' ∧ cross r' = .ok s ∧ get s.attrs "mine" = some (.int 2) :=
  ⟨_, _, rfl, rfl, by decide +kernel⟩

/-- Something that cannot be read between two messages, and something after the farewell. -/
example : got ([.msg .hello, .result 1 none, .msg .gradingEnd] ++ .bye :: [.msg .hello]) = [.hello, .garbage, .gradingEnd] := rfl

/-- The messages of a worker that grades one case. -/
example : ∃ (w : WorkerRun) (ys : List Yield), workerMsgs w = ys.map Yield.kind ++ (if false then [.unhandled] else []) ∧ ∃ r, .result 1 r ∈ ys :=
  ⟨.graded ⟨fun _ => some ⟨0, 1⟩, fun _ => false⟩ false (.ok false false [.one ⟨0, 0, 1⟩]),
    [.msg .hello, .msg .gradingBegin, .result 1 (demoRes .node), .msg .gradingEnd], by decide +kernel, demoRes .node, by simp⟩

end Verif.Ipc
