import Verif.Spec.Workers
import Verif.Props.Cache
import Mathlib.Tactic.Common
import Mathlib.Tactic.SplitIfs
import Mathlib.Data.List.Induction
import Mathlib.Order.Basic

/-!
# C117 The compiled-binary cache over submissions
-/

namespace Verif.Workers
open Verif.Cache

/-! ## What a worker does to what was there before -/

private structure Far (j s : State) : Prop where
  own : ∀ n x d, s.execs n = some x → x.dir = some d → j.next ≤ d
  next : j.next ≤ s.next
  disk : ∀ d, d < j.next → s.disk d = j.disk d ∧ s.built d = j.built d
  free : ∀ d, s.next ≤ d → s.disk d = false
  below : ∀ n x d, s.execs n = some x → x.dir = some d → d < s.next

private theorem drop_far {j s : State} (h : Far j s) (n : Nat) : Far j (s.drop n) := by
  unfold State.drop
  split_ifs
  · exact h
  · split
    · exact h
    · rename_i x hx
      have ho : ∀ m y d, upd s.execs n none m = some y → y.dir = some d → j.next ≤ d := by
        intro m y d hy
        simp only [upd] at hy
        split_ifs at hy
        exact h.own m y d hy
      have hb : ∀ m y d, upd s.execs n none m = some y → y.dir = some d → d < s.next := by
        intro m y d hy
        simp only [upd] at hy
        split_ifs at hy
        exact h.below m y d hy
      simp only
      split
      · rename_i d hd
        split_ifs
        · exact ⟨ho, h.next, h.disk, h.free, hb⟩
        · have := h.own n x d hx hd
          refine ⟨ho, h.next, fun d' hd' => ⟨?_, (h.disk d' hd').2⟩, fun d' hd' => ?_, hb⟩
          · show upd s.disk d false d' = _
            rw [upd, if_neg (by omega)]
            exact (h.disk d' hd').1
          · show upd s.disk d false d' = _
            simp only [upd]
            split_ifs
            · rfl
            · exact h.free d' hd'
      · exact ⟨ho, h.next, h.disk, h.free, hb⟩

private theorem recache {j s : State} (h : Far j s) (c : List (Key × Nat)) : Far j { s with cache := c } := ⟨h.own, h.next, h.disk, h.free, h.below⟩

private theorem store_far {j s : State} (h : Far j s) (k : Key) (n : Nat) : Far j (s.store k n) := by
  unfold State.store
  split
  · exact drop_far (recache h _) _
  · split_ifs
    · exact recache h _
    · split
      · exact recache h _
      · rename_i k' old hl
        refine drop_far (s := { s with
          execs := upd s.execs old ((s.execs old).map fun x => { x with isCached := false }), cache := (k, n) :: s.cache.dropLast })
          ⟨?_, h.next, h.disk, h.free, ?_⟩ _
        all_goals
          intro m y d hy hd
          simp only [upd] at hy
          split_ifs at hy
          · cases he : s.execs old with
            | none => rw [he] at hy; exact nomatch hy
            | some x =>
              rw [he] at hy
              cases hy
              first | exact h.own old x d he hd | exact h.below old x d he hd
          · first | exact h.own m y d hy hd | exact h.below m y d hy hd

private theorem looked_far {j s : State} (h : Far j s) (k : Key) (cached : Bool) : Far j (looked s k cached) := by
  unfold looked
  split
  · exact recache h _
  · exact h

private theorem hit_dir {s : State} {k : Key} {cached : Bool} {e d : Nat} (hh : s.hit k cached = some (e, d)) :
    ∃ x, s.execs e = some x ∧ x.dir = some d := by
  unfold State.hit at hh
  split_ifs at hh
  cases hl : s.cache.lookup k with
  | none => rw [hl] at hh; exact nomatch hh
  | some e' =>
    rw [hl] at hh
    cases hx : s.execs e' with
    | none => simp [hx] at hh
    | some x =>
      cases hd : x.dir with
      | none => simp [hx, hd] at hh
      | some d' =>
        simp only [hx, hd, Option.bind_some] at hh
        split_ifs at hh
        cases hh
        exact ⟨x, hx, hd⟩

private theorem fresh_far {j t : State} (h : Far j t) (x : Exec) (hx : ∀ d, x.dir = some d → j.next ≤ d ∧ d ≤ t.next) (disk : Nat → Bool)
    (exe : Nat → Bool) (built : Nat → Option Key) (held : List Nat)
    (hd : ∀ d, d ≠ t.next → disk d = t.disk d) (hb : ∀ d, d ≠ t.next → built d = t.built d) :
    Far j { t with next := t.next + 1, execs := upd t.execs t.next (some x), disk := disk, exe := exe, built := built, held := held } := by
  have hn := h.next
  refine ⟨?_, by show j.next ≤ t.next + 1; omega, fun d hd' => ⟨?_, ?_⟩, fun d hd' => ?_, ?_⟩
  · intro m y d hy hyd
    simp only [upd] at hy
    split_ifs at hy
    · cases hy; exact (hx d hyd).1
    · exact h.own m y d hy hyd
  · exact (hd d (by omega)).trans (h.disk d hd').1
  · exact (hb d (by omega)).trans (h.disk d hd').2
  · have : t.next + 1 ≤ d := hd'
    exact (hd d (by omega)).trans (h.free d (by omega))
  · intro m y d hy hyd
    show d < t.next + 1
    simp only [upd] at hy
    split_ifs at hy
    · cases hy; have := (hx d hyd).2; omega
    · have := h.below m y d hy hyd; omega

private theorem step_far {j s : State} (h : Far j s) (op : Op) : Far j (step s op) := by
  cases op with
  | lose d => exact ⟨h.own, h.next, h.disk, h.free, h.below⟩
  | release n => exact drop_far (s := { s with held := s.held.filter (· ≠ n) }) ⟨h.own, h.next, h.disk, h.free, h.below⟩ n
  | call k cached c =>
    show Far j (s.call k cached c)
    rw [call_eq]
    have ht := looked_far h k cached
    obtain ⟨e1, e2, -⟩ := looked_next s k cached
    generalize looked s k cached = t at *
    have hn := ht.next
    cases hh : s.hit k cached with
    | some q =>
      obtain ⟨e, d⟩ := q
      obtain ⟨x, hx, hd⟩ := hit_dir hh
      exact fresh_far ht ⟨k, cached, some d⟩ (fun d' hd' => by cases hd'; have := h.own e x d hx hd; have := h.below e x d hx hd; omega) t.disk t.exe t.built _
        (fun _ _ => rfl) (fun _ _ => rfl)
    | none =>
      have up : ∀ d, d ≠ t.next → upd t.disk t.next true d = t.disk d := fun d hd => if_neg hd
      cases c with
      | early => exact drop_far (fresh_far ht ⟨k, cached, none⟩ (fun d hd => nomatch hd) t.disk t.exe t.built _ (fun _ _ => rfl) (fun _ _ => rfl)) _
      | late =>
        exact drop_far (fresh_far ht ⟨k, cached, some t.next⟩ (fun d hd => by cases hd; omega) _ t.exe t.built _ up (fun _ _ => rfl)) _
      | ok =>
        have := fresh_far ht ⟨k, cached, some t.next⟩ (fun d hd => by cases hd; omega) (upd t.disk t.next true) (upd t.exe t.next true)
          (upd t.built t.next (some k)) (t.next :: t.held) up (fun d hd => if_neg hd)
        simp only
        split_ifs
        · exact store_far this _ _
        · exact this

private theorem idle_far {j : State} (h : Idle j) : Far j j :=
  ⟨fun n x _ hx _ => (by rw [h.execs n] at hx; cases hx), Nat.le_refl _, fun _ _ => ⟨rfl, rfl⟩, h.free,
    fun n x _ hx _ => (by rw [h.execs n] at hx; cases hx)⟩

private theorem work_snoc (j : State) (w : Worker) (op : Op) : work j (w ++ [op]) = step (work j w) op := by
  simp [work, List.foldl_append]

private theorem work_far {j : State} (h : Idle j) (w : Worker) : Far j (work j w) := by
  induction w using List.reverseRecOn with
  | nil => exact idle_far h
  | append_singleton w op ih => rw [work_snoc]; exact step_far ih op

private theorem idle_submission {j : State} (h : Idle j) (w : Worker) : Idle (submission j w) :=
  ⟨h.cache, h.held, h.execs, (work_far h w).free⟩

private theorem history_snoc (j : State) (ws : List Worker) (w : Worker) : history j (ws ++ [w]) = submission (history j ws) w := by
  simp [history, List.foldl_append]

private theorem history_append (j : State) (ws vs : List Worker) : history j (ws ++ vs) = history (history j ws) vs := by
  simp [history, List.foldl_append]

private theorem idle_history {j : State} (h : Idle j) (ws : List Worker) : Idle (history j ws) := by
  induction ws using List.reverseRecOn with
  | nil => exact h
  | append_singleton ws w ih => rw [history_snoc]; exact idle_submission ih w

private theorem history_cap (j : State) (ws : List Worker) : (history j ws).cap = j.cap := by
  induction ws using List.reverseRecOn with
  | nil => rfl
  | append_singleton ws w ih => rw [history_snoc]; exact ih

private theorem submission_next {j : State} (h : Idle j) (w : Worker) : j.next ≤ (submission j w).next := (work_far h w).next

private theorem history_next {j : State} (h : Idle j) (ws : List Worker) : j.next ≤ (history j ws).next := by
  induction ws using List.reverseRecOn with
  | nil => exact Nat.le_refl _
  | append_singleton ws w ih =>
    rw [history_snoc]
    exact Nat.le_trans ih (submission_next (idle_history h ws) w)

/-- C117.  Whatever workers do, and however they end, what was on disk before they were started is not removed or replaced by them: neither the judge's files nor
those of earlier workers. -/
theorem C117_foreign (j : State) (h : Idle j) (ws : List Worker) (d : Nat) (hd : d < j.next) :
    (history j ws).disk d = j.disk d ∧ (history j ws).built d = j.built d := by
  induction ws using List.reverseRecOn with
  | nil => exact ⟨rfl, rfl⟩
  | append_singleton ws w ih =>
    rw [history_snoc]
    have := (work_far (idle_history h ws) w).disk d (Nat.lt_of_lt_of_le hd (history_next h ws))
    exact ⟨this.1.trans ih.1, this.2.trans ih.2⟩

/-! ## What an orderly worker leaves -/

/-- What the worker has made itself. -/
private def mask (b : Nat) (s : State) : State := { s with disk := fun d => decide (b ≤ d) && s.disk d, exe := fun d => decide (b ≤ d) && s.exe d }

private theorem mask_upd (b : Nat) (f : Nat → Bool) (d : Nat) (v : Bool) (h : v = false ∨ b ≤ d) :
    (fun m => decide (b ≤ m) && upd f d v m) = upd (fun m => decide (b ≤ m) && f m) d v := by
  funext m
  simp only [upd]
  by_cases e : m = d
  · subst e
    rcases h with rfl | h
    · simp
    · simp [h]
  · simp [e]

private theorem mask_drop (b : Nat) (s : State) (n : Nat) : mask b (s.drop n) = (mask b s).drop n := by
  unfold State.drop
  by_cases hr : n ∈ s.held ∨ n ∈ s.cache.map (·.2)
  · rw [if_pos hr, if_pos (show n ∈ (mask b s).held ∨ n ∈ (mask b s).cache.map (·.2) from hr)]
  · rw [if_neg hr, if_neg (show ¬ (n ∈ (mask b s).held ∨ n ∈ (mask b s).cache.map (·.2)) from hr)]
    show mask b (match s.execs n with | none => _ | some x => _) = match s.execs n with | none => _ | some x => _
    cases s.execs n with
    | none => rfl
    | some x =>
      simp only
      cases x.dir with
      | none => rfl
      | some d =>
        simp only
        cases x.isCached with
        | true => rfl
        | false =>
          have h1 := mask_upd b s.disk d false (.inl rfl)
          have h2 := mask_upd b s.exe d false (.inl rfl)
          simp only [mask, Bool.false_eq_true, if_false]
          rw [h1, h2]

private theorem mask_store (b : Nat) (s : State) (k : Key) (n : Nat) : mask b (s.store k n) = (mask b s).store k n := by
  unfold State.store
  show mask b (match s.cache.lookup k with | some old => _ | none => _) = match s.cache.lookup k with | some old => _ | none => _
  cases s.cache.lookup k with
  | some old => simp only; rw [mask_drop]; rfl
  | none =>
    simp only
    by_cases hl : s.cache.length < s.cap
    · rw [if_pos hl, if_pos (show (mask b s).cache.length < (mask b s).cap from hl)]; rfl
    · rw [if_neg hl, if_neg (show ¬ (mask b s).cache.length < (mask b s).cap from hl)]
      have e : (mask b s).cache.getLast? = s.cache.getLast? := rfl
      rw [e]
      cases s.cache.getLast? with
      | none => rfl
      | some q =>
        simp only
        rw [mask_drop]
        rfl

private theorem mask_looked (b : Nat) (s : State) (k : Key) (cached : Bool) : mask b (looked s k cached) = looked (mask b s) k cached := by
  unfold looked
  show mask b (match cached, s.cache.lookup k with | true, some e => _ | _, _ => _) = match cached, s.cache.lookup k with | true, some e => _ | _, _ => _
  cases cached <;> cases s.cache.lookup k <;> rfl

private theorem mask_hit {j s : State} (h : Far j s) (k : Key) (cached : Bool) : (mask j.next s).hit k cached = s.hit k cached := by
  unfold State.hit
  cases cached with
  | false => rfl
  | true =>
    simp only [if_true]
    show (match s.cache.lookup k with | none => _ | some e => _) = match s.cache.lookup k with | none => _ | some e => _
    cases s.cache.lookup k with
    | none => rfl
    | some e =>
      simp only
      show (match (s.execs e).bind (·.dir) with | none => _ | some d => _) = match (s.execs e).bind (·.dir) with | none => _ | some d => _
      cases hx : s.execs e with
      | none => rfl
      | some x =>
        cases hd : x.dir with
        | none => simp [hd]
        | some d => simp [hd, mask, h.own e x d hx hd]

private theorem mask_step {j s : State} (h : Far j s) (op : Op) : mask j.next (step s op) = step (mask j.next s) op := by
  cases op with
  | lose d =>
    have := mask_upd j.next s.exe d false (.inl rfl)
    simp only [step, mask]
    rw [this]
  | release n => exact mask_drop _ _ _
  | call k cached c =>
    show mask j.next (s.call k cached c) = (mask j.next s).call k cached c
    rw [call_eq, call_eq, mask_hit h, ← mask_looked]
    have ht := looked_far h k cached
    generalize looked s k cached = t at *
    have hn := ht.next
    have h1 := mask_upd j.next t.disk t.next true (.inr hn)
    have h2 := mask_upd j.next t.exe t.next true (.inr hn)
    cases s.hit k cached with
    | some q => rfl
    | none =>
      cases c with
      | early => exact mask_drop _ _ _
      | late =>
        refine (mask_drop _ _ _).trans ?_
        congr 1
        simp only [mask]
        rw [h1]
      | ok =>
        cases cached with
        | false =>
          simp only [mask, Bool.false_eq_true, if_false]
          rw [h1, h2]
        | true =>
          simp only [if_true]
          refine (mask_store _ _ _ _).trans ?_
          congr 1
          simp only [mask]
          rw [h1, h2]

private theorem mask_inv {j : State} (h : Idle j) (hc : 0 < j.cap) (w : Worker) : Inv (mask j.next (work j w)) := by
  induction w using List.reverseRecOn with
  | nil =>
    refine ⟨hc, ?_, ?_, ?_, ?_, ?_⟩
    · show j.cache.length ≤ _; rw [h.cache]; exact Nat.zero_le _
    · show (j.cache.map _).Nodup; rw [h.cache]; exact List.nodup_nil
    · show ∀ c ∈ j.cache, _; rw [h.cache]; exact fun c hc => nomatch hc
    · intro n x hx
      have : j.execs n = some x := hx
      rw [h.execs n] at this; exact nomatch this
    · show ∀ n ∈ j.held, _; rw [h.held]; exact fun c hc => nomatch hc
  | append_singleton w op ih => rw [work_snoc, mask_step (work_far h w)]; exact step_inv ih op

private theorem mask_tidy {j : State} (h : Idle j) (hc : 0 < j.cap) (w : Worker) (hw : ∀ op ∈ w, Smooth op) : Tidy (mask j.next (work j w)) := by
  induction w using List.reverseRecOn with
  | nil =>
    refine ⟨?_, ?_, ?_, ?_⟩
    · show ∀ c ∈ j.cache, _; rw [h.cache]; exact fun c hc => nomatch hc
    · intro n x hx
      have : j.execs n = some x := hx
      rw [h.execs n] at this; exact nomatch this
    · intro n k hx
      have : j.execs n = some _ := hx
      rw [h.execs n] at this; exact nomatch this
    · intro d hd
      have : (decide (j.next ≤ d) && j.disk d) = true := hd
      simp only [Bool.and_eq_true, decide_eq_true_eq] at this
      rw [h.free d this.1] at this
      exact nomatch this.2
  | append_singleton w op ih =>
    rw [work_snoc, mask_step (work_far h w)]
    exact step_tidy (mask_inv h hc w) (ih fun o ho => hw o (by simp [ho])) op (hw op (by simp))

private theorem work_cap (j : State) (w : Worker) : (work j w).cap = j.cap := by
  induction w using List.reverseRecOn with
  | nil => rfl
  | append_singleton w op ih => rw [work_snoc, step_cap, ih]

/-- C117.  If nothing goes wrong on disk, a worker that ends in order leaves of all it made just the directories of the programs in its cache, so no more than fit
into it. -/
theorem C117_left_partial (j : State) (h : Idle j) (hc : 0 < j.cap) (w : Worker) (hw : ∀ op ∈ w, Smooth op) (ho : Orderly j w) :
    (∀ d, j.next ≤ d → ((submission j w).disk d = true ↔ d ∈ (work j w).cache.map (·.2))) ∧ (work j w).cache.length ≤ j.cap := by
  have hi := mask_inv h hc w
  have ht := mask_tidy h hc w hw
  refine ⟨fun d hd => ⟨fun hx => ?_, fun hx => ?_⟩, (work_cap j w) ▸ hi.len⟩
  · have hx : (work j w).disk d = true := hx
    have : (mask j.next (work j w)).disk d = true := by simp [mask, hd, hx]
    obtain ⟨x, h1, -⟩ := ht.disk d this
    rcases ht.ref d x h1 with h2 | h2
    · have : d ∈ (work j w).held := h2
      rw [ho] at this; exact nomatch this
    · exact h2
  · obtain ⟨c, hc, rfl⟩ := List.mem_map.1 hx
    have := (hi.ent c hc).2.1
    simp only [mask, Bool.and_eq_true] at this
    exact this.2

private theorem uncached_smooth {op : Op} (h : Uncached op) : Smooth op := by
  cases op with
  | lose d => exact h
  | release n => trivial
  | call k cached c =>
    have : cached = false := h
    subst this
    cases c <;> trivial

private theorem uncached_cache {s : State} (hs : s.cache = []) {op : Op} (h : Uncached op) : (step s op).cache = [] := by
  cases op with
  | lose d => exact hs
  | release n => exact (drop_cache _ n).trans hs
  | call k cached c =>
    have : cached = false := h
    subst this
    show (s.call k false c).cache = []
    rw [call_eq]
    have ht : (looked s k false).cache = [] := hs
    have hh : s.hit k false = none := rfl
    rw [hh]
    cases c with
    | early => exact (drop_cache _ _).trans ht
    | late => exact (drop_cache _ _).trans ht
    | ok => exact ht

private theorem uncached_work {j : State} (h : j.cache = []) (w : Worker) (hw : ∀ op ∈ w, Uncached op) : (work j w).cache = [] := by
  induction w using List.reverseRecOn with
  | nil => exact h
  | append_singleton w op ih =>
    rw [work_snoc]
    exact uncached_cache (ih fun o ho => hw o (by simp [ho])) (hw op (by simp))

/-- C117.  A submission to a problem without cached helper programs whose worker ends in order leaves nothing behind, whether it compiles or not. -/
theorem C117_clean (j : State) (h : Idle j) (hc : 0 < j.cap) (w : Worker) (hw : ∀ op ∈ w, Uncached op) (ho : Orderly j w) :
    (submission j w).disk = j.disk := by
  funext d
  by_cases hd : j.next ≤ d
  · have := (C117_left_partial j h hc w (fun op hop => uncached_smooth (hw op hop)) ho).1 d hd
    rw [uncached_work h.cache w hw] at this
    rw [h.free d hd]
    cases hx : (submission j w).disk d with
    | false => rfl
    | true => exact nomatch this.1 hx
  · exact (C117_foreign j h [w] d (by omega)).1

/-- C117.  The judge is in this situation once the self-tests of the executors, which are not cached, are over; and after any submissions. -/
theorem C117_idle (cap : Nat) (hc : 0 < cap) (tests : List Op) (ht : ∀ op ∈ tests, Uncached op) (hh : (run cap tests).held = []) (ws : List Worker) :
    Idle (history (run cap tests) ws) ∧ (history (run cap tests) ws).cap = cap := by
  have h0 : Idle { cap := cap : State } := ⟨rfl, rfl, fun _ => rfl, fun _ _ => rfl⟩
  have he : run cap tests = work { cap := cap } tests := rfl
  have hcache := uncached_work h0.cache tests ht
  have htidy := mask_tidy h0 hc tests fun op hop => uncached_smooth (ht op hop)
  have hi : Idle (run cap tests) := by
    refine ⟨he ▸ hcache, hh, fun n => ?_, he ▸ (work_far h0 tests).free⟩
    cases hx : (run cap tests).execs n with
    | none => rfl
    | some x =>
      rcases htidy.ref n x hx with h1 | h1
      · have : n ∈ (run cap tests).held := h1
        rw [hh] at this; exact nomatch this
      · have : n ∈ (work { cap := cap } tests).cache.map (·.2) := h1
        rw [hcache] at this; exact nomatch this
  refine ⟨idle_history hi ws, ?_⟩
  induction ws using List.reverseRecOn with
  | nil => exact work_cap _ tests
  | append_singleton ws w ih => rw [history_snoc]; exact ih

/-! ## What is desired and fails -/

private theorem nohit (j : State) (h : Idle j) (w : Worker) (k : Key) (hk : ∀ c, .call k true c ∉ w) : k ∉ (work j w).cache.map (·.1) := by
  induction w using List.reverseRecOn with
  | nil =>
    show k ∉ j.cache.map _
    rw [h.cache]; exact List.not_mem_nil
  | append_singleton w op ih =>
    have ih := ih fun c hc => hk c (by simp [hc])
    rw [work_snoc]
    generalize work j w = s at ih
    cases op with
    | lose d => exact ih
    | release n =>
      show k ∉ (State.drop _ n).cache.map _
      rw [drop_cache]; exact ih
    | call k' cached c =>
      have hne : cached = true → k ≠ k' := by
        rintro rfl rfl
        exact hk c (by simp)
      show k ∉ (s.call k' cached c).cache.map _
      rw [call_eq]
      have hl : k ∉ (looked s k' cached).cache.map (·.1) := by
        unfold looked
        split
        · rename_i e he
          show k ∉ ((k', e) :: s.cache.filter fun c => c.1 ≠ k').map (·.1)
          simp only [List.map_cons, List.mem_cons, not_or]
          refine ⟨hne rfl, fun hm => ih ?_⟩
          obtain ⟨c, hc, rfl⟩ := List.mem_map.1 hm
          exact List.mem_map.2 ⟨c, (List.mem_filter.1 hc).1, rfl⟩
        · exact ih
      generalize looked s k' cached = t at *
      cases s.hit k' cached with
      | some q => exact hl
      | none =>
        cases c with
        | early => show k ∉ (State.drop _ _).cache.map _; rw [drop_cache]; exact hl
        | late => show k ∉ (State.drop _ _).cache.map _; rw [drop_cache]; exact hl
        | ok =>
          simp only
          split_ifs with hcd
          · unfold State.store
            have hsub : ∀ l : List (Key × Nat), (∀ c ∈ l, c ∈ t.cache) → k ∉ ((k', t.next) :: l).map (·.1) := by
              intro l hsl hm
              simp only [List.map_cons, List.mem_cons] at hm
              rcases hm with hm | hm
              · exact hne hcd hm
              · obtain ⟨c, hc, rfl⟩ := List.mem_map.1 hm
                exact hl (List.mem_map.2 ⟨c, hsl c hc, rfl⟩)
            split
            · rw [drop_cache]; exact hsub _ fun c hc => (List.mem_filter.1 hc).1
            · split_ifs
              · exact hsub _ fun c hc => hc
              · split
                · exact hsub _ fun c hc => hc
                · rw [drop_cache]; exact hsub _ fun c hc => List.dropLast_subset _ hc
          · exact hl

/-- Desired: a helper program that was compiled for one submission is not compiled again for the next. It is, every time: whatever earlier workers have compiled,
the first use of a program in a worker makes a new directory. -/
theorem C117_reuse_fails (j : State) (h : Idle j) (hc : 0 < j.cap) (ws : List Worker) (w : Worker) (k : Key) (hk : ∀ c, .call k true c ∉ w) :
    let s := work (history j ws) w
    s.hit k true = none ∧ s.disk s.next = false ∧ (step s (.call k true .ok)).disk s.next = true ∧ (step s (.call k true .ok)).built s.next = some k := by
  intro s
  have hf : Far (history j ws) s := work_far (idle_history h ws) w
  have hn : k ∉ s.cache.map (·.1) := nohit _ (idle_history h ws) w k hk
  have hl : s.cache.lookup k = none := by
    cases hl : s.cache.lookup k with
    | none => rfl
    | some e => exact absurd (List.mem_map.2 ⟨_, mem_of_lookup hl, rfl⟩) hn
  have hh : s.hit k true = none := by simp [State.hit, hl]
  have hlk : looked s k true = s := by simp [looked, hl]
  refine ⟨hh, hf.free _ (Nat.le_refl _), ?_⟩
  show (s.call k true .ok).disk s.next = true ∧ (s.call k true .ok).built s.next = some k
  rw [call_eq, hlk, hh]
  simp only [if_true]
  unfold State.store
  simp only [hl]
  have key : ∀ t : State, t.disk s.next = true → t.built s.next = some k → (∀ n x d, t.execs n = some x → x.dir = some d → n ≠ s.next → d ≠ s.next) →
      ∀ old, old ≠ s.next → (t.drop old).disk s.next = true ∧ (t.drop old).built s.next = some k := by
    intro t h1 h2 h3 old ho
    unfold State.drop
    split_ifs
    · exact ⟨h1, h2⟩
    · split
      · exact ⟨h1, h2⟩
      · rename_i x hx
        simp only
        split
        · rename_i d hd
          split_ifs
          · exact ⟨h1, h2⟩
          · exact ⟨(if_neg (Ne.symm (h3 old x d hx hd ho))).trans h1, h2⟩
        · exact ⟨h1, h2⟩
  split_ifs
  · exact ⟨if_pos rfl, if_pos rfl⟩
  · split
    · exact ⟨if_pos rfl, if_pos rfl⟩
    · rename_i k' old hg
      have hm : (k', old) ∈ s.cache := List.mem_of_getLast? hg
      have hi : Inv (mask (history j ws).next s) := mask_inv (idle_history h ws) (by rw [history_cap]; exact hc) w
      have hlt : old < s.next := (hi.own _ _ (hi.ent _ hm).1).1
      refine key _ (if_pos rfl) (if_pos rfl) ?_ old (by omega)
      intro n x d hx hd hn
      simp only [upd] at hx
      have below : ∀ m y, s.execs m = some y → y.dir = some d → d ≠ s.next := fun m y h1 h2 => by have := hf.below m y d h1 h2; omega
      by_cases e : n = old
      · subst e
        rw [if_pos rfl, if_neg hn] at hx
        cases he : s.execs n with
        | none => rw [he] at hx; exact nomatch hx
        | some y =>
          rw [he] at hx
          cases hx
          exact below n y he hd
      · rw [if_neg e, if_neg hn] at hx
        exact below n x hx hd

private theorem one_helper {s : State} (h : Idle s) (hc : 0 < s.cap) (k : Key) :
    submission s [.call k true .ok, .release s.next] =
      { s with disk := upd s.disk s.next true, exe := upd s.exe s.next true, built := upd s.built s.next (some k), next := s.next + 1 } := by
  obtain ⟨cap, cache, execs, held, disk, exe, built, next⟩ := s
  obtain ⟨h1, h2, -, -⟩ := h
  simp only at h1 h2 hc
  subst h1 h2
  simp [submission, rejoin, work, step, State.call, State.hit, State.store, State.drop, hc]

/-- Desired: the directories on disk stay few. They do not: a worker's directories are never removed by anyone once it is gone, even if it ends in order. So the
same checker, used by every submission, leaves a directory each time. -/
theorem C117_grows_fails (cap : Nat) (hc : 0 < cap) (k : Key) (n : Nat) :
    let s := history { cap := cap } (oneHelper k 0 n)
    (∀ d, s.disk d = true ↔ d < n) ∧ (∀ d, d < n → s.built d = some k) ∧ s.cache = [] ∧ s.held = [] ∧ ∀ m, s.execs m = none := by
  have h0 : Idle { cap := cap : State } := ⟨rfl, rfl, fun _ => rfl, fun _ _ => rfl⟩
  suffices hs : (history { cap := cap } (oneHelper k 0 n)).next = n ∧ (∀ d, (history { cap := cap } (oneHelper k 0 n)).disk d = true ↔ d < n) ∧
      ∀ d, d < n → (history { cap := cap } (oneHelper k 0 n)).built d = some k by
    have hi := idle_history h0 (oneHelper k 0 n)
    exact ⟨hs.2.1, hs.2.2, hi.cache, hi.held, hi.execs⟩
  induction n with
  | zero => exact ⟨rfl, fun d => ⟨fun h => (nomatch h), fun h => absurd h (Nat.not_lt_zero d)⟩, fun d h => absurd h (Nat.not_lt_zero d)⟩
  | succ n ih =>
    obtain ⟨i1, i2, i3⟩ := ih
    have he : oneHelper k 0 (n + 1) = oneHelper k 0 n ++ [[.call k true .ok, .release n]] := by
      simp [oneHelper, List.range'_concat]
    have hone := one_helper (idle_history h0 (oneHelper k 0 n)) (by rw [history_cap]; exact hc) k
    rw [i1] at hone
    rw [he, history_snoc, hone]
    refine ⟨rfl, fun d => ?_, fun d hd => ?_⟩
    · show upd _ n true d = true ↔ _
      simp only [upd]
      split_ifs with e
      · simp [e]
      · rw [i2]; omega
    · show upd _ n (some k) d = _
      simp only [upd]
      split_ifs with e
      · rfl
      · exact i3 d (by omega)

/-- C117.  What a worker leaves stays: nothing that comes after removes it. -/
theorem C117_stays (j : State) (h : Idle j) (ws vs : List Worker) (d : Nat) (hd : (history j ws).disk d = true) : (history j (ws ++ vs)).disk d = true := by
  have hi := idle_history h ws
  rw [history_append]
  rw [(C117_foreign _ hi vs d ?_).1]
  · exact hd
  · by_contra hn
    rw [hi.free d (by omega)] at hd
    exact nomatch hd

/-- A worker that is killed leaves the directory of the submission, too; it stays for ever. -/
theorem C117_killed_fails : ∃ (w : Worker) (d : Nat), (∀ op ∈ w, Uncached op) ∧ (submission { cap := 100 } w).disk d = true ∧
    ∀ vs, (history { cap := 100 } (w :: vs)).disk d = true := by
  have h0 : Idle { cap := 100 : State } := ⟨rfl, rfl, fun _ => rfl, fun _ _ => rfl⟩
  refine ⟨[.call 7 false .ok], 0, ?_, by decide, fun vs => C117_stays _ h0 [[.call 7 false .ok]] vs 0 (by decide)⟩
  intro op hop
  simp only [List.mem_singleton] at hop
  subst hop
  rfl

/-! ## Examples -/

/-- A self-test of the judge. -/
example : (∀ op ∈ [Op.call 3 false .ok, .release 0, .call 4 false .late], Uncached op) ∧ (run 100 [.call 3 false .ok, .release 0, .call 4 false .late]).held = [] := by
  constructor
  · intro op h
    simp only [List.mem_cons, List.not_mem_nil, or_false] at h
    rcases h with rfl | rfl | rfl <;> trivial
  · decide

/-- A worker that compiles a submission and a checker, uses the checker twice, and ends in order: the directory of the checker stays. -/
example :
    let j : State := { cap := 100 }
    let w : Worker := [.call 5 false .ok, .call 7 true .ok, .call 7 true .ok, .release 0, .release 1, .release 2]
    Orderly j w ∧ (work j w).cache.map (·.2) = [1] ∧ (submission j w).disk 0 = false ∧ (submission j w).disk 1 = true ∧ (submission j w).disk 2 = false ∧
      (submission j w).next = 3 := by
  intro j w
  refine ⟨?_, ?_, ?_, ?_, ?_, ?_⟩ <;> first | (unfold Orderly; decide) | decide

/-- With a cache of one entry the second helper drives out the first, whose directory is removed. -/
example :
    let j : State := { cap := 1, next := 4 }
    let w : Worker := [.call 7 true .ok, .release 4, .call 8 true .ok, .release 5]
    (submission j w).disk 4 = false ∧ (submission j w).disk 5 = true := by decide

end Verif.Workers
