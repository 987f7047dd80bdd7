import Verif.Spec.Vigil
import Verif.Props.Family

/-! # C114: how long the judge waits for the output of a submission with several processes -/

namespace Verif.Vigil
open Verif.Family (Cfg Proc)
open Verif.Policy Verif.Policy.Spec Verif.Vigil.Spec
open Verif.Family.Spec (Over Sane)

/-! ## The family -/

/-- The event looks at something. -/
def sees : Family.Event → Bool
  | .see _ => true
  | _ => false

theorem acts_pending (cfg : Cfg) (as : List Monitor.Act) : ∀ s : Family.State,
    s.pending <+: (as.foldl (Family.State.act cfg) s).pending ∧ (as.foldl (Family.State.act cfg) s).mon = s.mon ∧
      (as.foldl (Family.State.act cfg) s).ended = s.ended := by
  induction as with
  | nil => exact fun s => ⟨List.prefix_refl _, rfl, rfl⟩
  | cons a as ih =>
    intro s
    obtain ⟨h1, h2, h3⟩ := ih (Family.State.act cfg s a)
    have : s.pending <+: (Family.State.act cfg s a).pending ∧ (Family.State.act cfg s a).mon = s.mon ∧ (Family.State.act cfg s a).ended = s.ended := by
      cases a <;> first | exact ⟨List.prefix_refl _, rfl, rfl⟩ | exact ⟨List.prefix_append _ _, rfl, rfl⟩
    exact ⟨this.1.trans h1, h2.trans this.2.1, h3.trans this.2.2⟩

theorem pending_step (cfg : Cfg) (s : Family.State) (e : Family.Event) (he : sees e = false) :
    s.pending <+: (Family.step cfg s e).pending ∧ (Family.step cfg s e).mon = s.mon := by
  cases e <;> simp only [Family.step]
  case see => cases he
  all_goals first
    | exact ⟨List.prefix_append _ _, rfl⟩
    | (repeat' split) <;> first | exact ⟨List.prefix_refl _, rfl⟩ | exact ⟨List.prefix_append _ _, rfl⟩ | skip

theorem pending_see (cfg : Cfg) (s : Family.State) (i : Nat) (x : Monitor.Stop Unit) (hx : s.pending[i]? = some x) :
    s.pending.eraseIdx i <+: (Family.step cfg s (.see i)).pending ∧
      (Family.step cfg s (.see i)).mon = (Monitor.step cfg.loop s.mon x).1 := by
  simp only [Family.step, hx]
  obtain ⟨h1, h2, -⟩ := acts_pending cfg (Monitor.step cfg.loop s.mon x).2
    { s with mon := (Monitor.step cfg.loop s.mon x).1, pending := s.pending.eraseIdx i }
  exact ⟨h1, h2⟩

theorem see_none (cfg : Cfg) (s : Family.State) (i : Nat) (hx : s.pending[i]? = none) : Family.step cfg s (.see i) = s := by
  simp only [Family.step, hx]

theorem finished_step (cfg : Cfg) (s : Family.State) (e : Family.Event) (h : s.mon.finished = true) :
    (Family.step cfg s e).mon.finished = true := by
  cases hs : sees e with
  | false => rw [(pending_step cfg s e hs).2]; exact h
  | true =>
    cases e <;> try cases hs
    rename_i i
    cases hx : s.pending[i]? with
    | none => rw [see_none cfg s i hx]; exact h
    | some x => rw [(pending_see cfg s i x hx).2]; exact Family.step_finished _ _ _ h

theorem gone_finishes (cfg : Cfg) (m : Monitor.State) : (Monitor.step cfg.loop m (.gone cfg.main)).1.finished = true := by
  unfold Monitor.step
  split
  · assumption
  · show (if m.first = true ∨ cfg.main = cfg.loop.main then _ else _ : Monitor.State × List Monitor.Act).1.finished = true
    have h : m.first = true ∨ cfg.main = cfg.loop.main := Or.inr rfl
    rw [if_pos h]

/-- The end of the program is known, or at most `k` reports come before it. -/
def Due (cfg : Cfg) (k : Nat) (s : Family.State) : Prop :=
  s.mon.finished = true ∨ ∃ a b, s.pending = a ++ .gone cfg.main :: b ∧ a.length ≤ k

theorem due_mono {cfg : Cfg} {k n : Nat} {s : Family.State} (h : Due cfg k s) (hk : k ≤ n) : Due cfg n s := by
  rcases h with h | ⟨a, b, h, hl⟩
  · exact .inl h
  · exact .inr ⟨a, b, h, Nat.le_trans hl hk⟩

theorem due_of_mem {cfg : Cfg} {s : Family.State} (h : .gone cfg.main ∈ s.pending) : Due cfg (s.pending.length - 1) s := by
  obtain ⟨a, b, hab⟩ := List.append_of_mem h
  refine .inr ⟨a, b, hab, ?_⟩
  rw [hab]
  simp

theorem due_step {cfg : Cfg} {k : Nat} {s : Family.State} (h : Due cfg k s) (e : Family.Event) : Due cfg k (Family.step cfg s e) := by
  rcases h with h | ⟨a, b, h, hl⟩
  · exact .inl (finished_step cfg s e h)
  cases hs : sees e with
  | false =>
    obtain ⟨⟨t, ht⟩, hm⟩ := pending_step cfg s e hs
    refine .inr ⟨a, b ++ t, ?_, hl⟩
    rw [← ht, h]
    simp
  | true =>
    cases e <;> try cases hs
    rename_i i
    cases hx : s.pending[i]? with
    | none => rw [see_none cfg s i hx]; exact .inr ⟨a, b, h, hl⟩
    | some x =>
      obtain ⟨⟨t, ht⟩, hm⟩ := pending_see cfg s i x hx
      rw [h] at ht hx
      rcases Nat.lt_trichotomy i a.length with hi | hi | hi
      · refine .inr ⟨a.eraseIdx i, b ++ t, ?_, Nat.le_trans (List.length_eraseIdx_le _ _) hl⟩
        rw [← ht, List.eraseIdx_append_of_lt_length hi]
        simp
      · subst hi
        simp only [List.getElem?_append_right (Nat.le_refl _), Nat.sub_self, List.getElem?_cons_zero, Option.some.injEq] at hx
        subst hx
        exact .inl (by rw [hm]; exact gone_finishes cfg _)
      · refine .inr ⟨a, b.eraseIdx (i - a.length - 1) ++ t, ?_, hl⟩
        rw [← ht, List.eraseIdx_append_of_length_le (by omega)]
        obtain ⟨j, hj⟩ : ∃ j, i - a.length = j + 1 := ⟨i - a.length - 1, by omega⟩
        rw [hj]
        simp

theorem due_see {cfg : Cfg} {k : Nat} {s : Family.State} (h : Due cfg k s) :
    (k = 0 → (Family.step cfg s (.see 0)).mon.finished = true) ∧ Due cfg (k - 1) (Family.step cfg s (.see 0)) := by
  rcases h with h | ⟨a, b, h, hl⟩
  · exact ⟨fun _ => finished_step cfg s _ h, .inl (finished_step cfg s _ h)⟩
  cases a with
  | nil =>
    obtain ⟨-, hm⟩ := pending_see cfg s 0 (.gone cfg.main) (by rw [h]; rfl)
    have := hm ▸ gone_finishes cfg s.mon
    exact ⟨fun _ => this, .inl this⟩
  | cons x a =>
    obtain ⟨⟨t, ht⟩, hm⟩ := pending_see cfg s 0 x (by rw [h]; rfl)
    refine ⟨fun hk => by subst hk; simp at hl, .inr ⟨a, b ++ t, ?_, ?_⟩⟩
    · rw [← ht, h]; simp
    · simp at hl; omega

/-! ## The program itself is alive, its end is reported or known -/

/-- There is something to wait for. -/
def Known (cfg : Cfg) (s : Family.State) : Prop := s.mon.finished = true ∨ .gone cfg.main ∈ s.pending ∨ live s cfg.main = true

theorem live_iff {s : Family.State} {p : Nat} : live s p = true ↔ ∃ q ∈ s.procs, q.pid = p ∧ q.mine = true := by
  simp [live]

theorem known_die {cfg : Cfg} {s : Family.State} (h : Known cfg s) (k : Proc → Bool) : Known cfg (s.die cfg k) := by
  rcases h with h | h | h
  · exact .inl h
  · exact .inr (.inl (List.mem_append_left _ h))
  · obtain ⟨q, hq, h1, h2⟩ := live_iff.1 h
    cases hk : k q with
    | false => exact .inr (.inr (live_iff.2 ⟨q, by simp [Family.State.die, hq, hk], h1, h2⟩))
    | true =>
      refine .inr (.inl (List.mem_append_right _ ?_))
      simp only [List.mem_map, List.mem_filter]
      exact ⟨q, ⟨⟨hq, hk⟩, by simp [h1]⟩, by rw [h1]⟩

theorem known_acts {cfg : Cfg} (as : List Monitor.Act) : ∀ {s : Family.State}, Known cfg s → Known cfg (as.foldl (Family.State.act cfg) s) := by
  induction as with
  | nil => exact fun h => h
  | cons a as ih =>
    intro s h
    refine ih ?_
    cases a <;> first | exact known_die h _ | exact h

theorem known_step {cfg : Cfg} {s : Family.State} (h : Known cfg s) (e : Family.Event) : Known cfg (Family.step cfg s e) := by
  by_cases hd : s.mon.finished = true ∨ .gone cfg.main ∈ s.pending
  · have : Due cfg (s.pending.length - 1) s := by
      rcases hd with hd | hd
      · exact .inl hd
      · exact due_of_mem hd
    rcases due_step this e with h | ⟨a, b, h, -⟩
    · exact .inl h
    · exact .inr (.inl (by rw [h]; simp))
  have hl : live s cfg.main = true := by
    rcases h with h | h | h
    · exact absurd (.inl h) hd
    · exact absurd (.inr h) hd
    · exact h
  have hmap : ∀ (f : Proc → Proc) (t : Family.State), (∀ q, (f q).pid = q.pid ∧ (f q).mine = q.mine) → t.procs = s.procs.map f → Known cfg t := by
    intro f t hf ht
    obtain ⟨q, hq, h1, h2⟩ := live_iff.1 hl
    exact .inr (.inr (live_iff.2 ⟨f q, by rw [ht]; exact List.mem_map_of_mem hq, by rw [(hf q).1]; exact h1, by rw [(hf q).2]; exact h2⟩))
  have hcons : ∀ (p : Proc) (t : Family.State), t.procs = p :: s.procs → Known cfg t := by
    intro p t ht
    obtain ⟨q, hq, h1, h2⟩ := live_iff.1 hl
    exact .inr (.inr (live_iff.2 ⟨q, by rw [ht]; exact List.mem_cons_of_mem _ hq, h1, h2⟩))
  cases e <;> simp only [Family.step]
  case enter =>
    split
    · exact hmap _ _ (fun q => by split <;> exact ⟨rfl, rfl⟩) rfl
    · exact h
  case traceme =>
    split
    · exact hmap _ _ (fun q => by split <;> exact ⟨rfl, rfl⟩) rfl
    · exact h
  case birth =>
    split
    · exact h
    · split
      · exact hcons _ _ rfl
      · exact h
  case leave =>
    split
    · exact h
    · split
      · exact hmap _ _ (fun q => by split <;> exact ⟨rfl, rfl⟩) rfl
      · exact h
  case call =>
    split
    · exact h
    · split
      · exact .inr (.inr hl)
      · exact h
  case exit => exact known_die h _
  case foreign =>
    split
    · exact hcons _ _ rfl
    · exact h
  case killpg => exact known_die h _
  case see i =>
    split
    · exact h
    · exact known_acts _ (.inr (.inr hl))
  case finish =>
    split
    · have := known_die h (·.traced)
      exact this
    · exact h

/-! ## The judge's threads -/

structure Good (cfg : Cfg) (quiet : Prop) (s : State) : Prop where
  inv : Family.Inv cfg quiet s.fam
  known : Known cfg s.fam
  copies : s.fam.mon.finished = true → s.copies = false
  holds : ∀ h ∈ s.holds, live s.fam h.1 = true
  died : s.died = true → s.fam.mon.finished = true
  nodup : ∀ o, s.talk = .reading o → o.Nodup

theorem lift_fam (cfg : Cfg) (s : State) (e : Family.Event) : (s.lift cfg e).fam = Family.step cfg s.fam e := rfl

theorem step_cases (cfg : Cfg) (s : State) (x : Event) :
    (∃ e, (step cfg s x).fam = Family.step cfg s.fam e) ∨ (step cfg s x).fam = s.fam := by
  cases x with
  | fam e =>
    cases e <;> simp only [step]
    case killpg => exact .inr trivial
    case see i =>
      split
      · exact .inr rfl
      · exact .inl ⟨_, lift_fam ..⟩
    case finish =>
      split
      · exact .inl ⟨_, lift_fam ..⟩
      · exact .inr rfl
    all_goals exact .inl ⟨_, lift_fam ..⟩
  | kill =>
    simp only [step, State.kill]
    split
    · exact .inr rfl
    · exact .inl ⟨_, lift_fam ..⟩
  | limit e =>
    simp only [step, State.kill]
    (repeat' split) <;> first | exact .inr rfl | exact .inl ⟨_, lift_fam ..⟩ | exact .inl ⟨.killpg, rfl⟩
  | shut => exact .inr rfl
  | close => exact .inr rfl
  | filled => exact .inr rfl
  | eof => simp only [step]; split <;> exact .inr rfl
  | died => simp only [step]; split <;> exact .inr rfl
  | wake => simp only [step]; split <;> exact .inr rfl

theorem lift_holds (cfg : Cfg) (s : State) (e : Family.Event) : ∀ h ∈ (s.lift cfg e).holds, live (s.lift cfg e).fam h.1 = true := by
  intro h hh
  exact (List.mem_filter.1 hh).2

theorem without_nodup {t : Talk} {e : End} {o : List End} (h : ∀ o, t = .reading o → o.Nodup) (ht : t.without e = .reading o) :
    o.Nodup ∧ e ∉ o ∧ ∃ o', t = .reading o' ∧ ∀ x ∈ o, x ∈ o' := by
  cases t with
  | returned => cases ht
  | reading o' =>
    simp only [Talk.without, Talk.reading.injEq] at ht
    subst ht
    have := h o' rfl
    exact ⟨this.erase e, this.not_mem_erase, o', rfl, fun x hx => List.mem_of_mem_erase hx⟩

/-- What stays the same when something happens in the family. -/
theorem lift_rest (cfg : Cfg) (s : State) (e : Family.Event) : (s.lift cfg e).copies = s.copies ∧ (s.lift cfg e).died = s.died ∧
    (s.lift cfg e).talk = s.talk := ⟨rfl, rfl, rfl⟩

theorem finished_keep {cfg : Cfg} {s : State} (x : Event) (h : s.fam.mon.finished = true) : (step cfg s x).fam.mon.finished = true := by
  rcases step_cases cfg s x with ⟨e, he⟩ | he
  · rw [he]; exact finished_step cfg _ e h
  · rw [he]; exact h

theorem good_step {cfg : Cfg} {quiet : Prop} {s : State} (h : Good cfg quiet s) (x : Event)
    (hm : ∀ name ∈ Family.movers, ¬ Possible cfg.policy name)
    (hq : quiet → Hides x → (∀ n, 0 < n → Family.room cfg n = false)) : Good cfg quiet (step cfg s x) := by
  have hlift : ∀ e, (∀ i, e = Family.Event.see i → s.copies = false) → (quiet → Family.Spec.Hides e → (∀ n, 0 < n → Family.room cfg n = false)) →
      Good cfg quiet (s.lift cfg e) := by
    intro e hc hq
    refine ⟨Family.inv_step h.inv e hm hq, known_step h.known e, fun hf => ?_, lift_holds cfg s e, fun hd => finished_step cfg _ e (h.died hd), h.nodup⟩
    cases hs : sees e with
    | true => cases e <;> try cases hs
              exact hc _ rfl
    | false => exact h.copies (by rw [← (pending_step cfg s.fam e hs).2]; exact hf)
  have hkill : Good cfg quiet (s.kill cfg) := by
    unfold State.kill
    split
    · exact h
    · exact hlift .killpg (fun _ h => nomatch h) (fun _ ⟨_, _, _, _, _, _, h, _⟩ => nomatch h)
  cases x with
  | fam e =>
    have hq' : quiet → Family.Spec.Hides e → (∀ n, 0 < n → Family.room cfg n = false) := fun q he => hq q ⟨e, rfl, he⟩
    cases e <;> simp only [step]
    case killpg => exact h
    case see i =>
      split
      · exact h
      · rename_i hc
        exact hlift _ (fun _ _ => by simpa using hc) hq'
    case finish =>
      split
      · exact hlift _ (fun _ h => nomatch h) hq'
      · exact h
    all_goals exact hlift _ (fun _ h => nomatch h) hq'
  | kill => exact hkill
  | shut => exact ⟨h.inv, h.known, fun _ => rfl, h.holds, h.died, h.nodup⟩
  | close p e => exact ⟨h.inv, h.known, h.copies, fun y hy => h.holds y (List.mem_filter.1 hy).1, h.died, h.nodup⟩
  | filled => exact ⟨h.inv, h.known, h.copies, h.holds, h.died, fun o ho => (without_nodup h.nodup ho).1⟩
  | eof e =>
    simp only [step]
    split
    · exact ⟨h.inv, h.known, h.copies, h.holds, h.died, fun o ho => (without_nodup h.nodup ho).1⟩
    · exact h
  | limit e =>
    simp only [step]
    split
    · split
      · exact ⟨hkill.inv, hkill.known, hkill.copies, hkill.holds, hkill.died, fun o ho => by cases ho; exact List.nodup_nil⟩
      · exact h
    · exact h
  | died =>
    simp only [step]
    split
    · rename_i hf
      exact ⟨h.inv, h.known, h.copies, h.holds, fun _ => hf, h.nodup⟩
    · exact h
  | wake =>
    simp only [step]
    split
    · exact ⟨h.inv, h.known, h.copies, h.holds, h.died, fun o ho => nomatch ho⟩
    · exact h

theorem good_start (cfg : Cfg) (quiet : Prop) (others : List (Nat × Nat)) (hs : Sane cfg others) : Good cfg quiet (start cfg others) := by
  have hl : live (start cfg others).fam cfg.main = true := live_iff.2 ⟨_, List.mem_cons_self, rfl, rfl⟩
  refine ⟨Family.inv_start cfg quiet others hs, .inr (.inr hl), (fun h => nomatch h), ?_, (fun h => nomatch h), ?_⟩
  · intro h hh
    simp only [start, List.mem_cons, List.not_mem_nil, or_false] at hh
    rcases hh with rfl | rfl | rfl <;> exact hl
  · intro o ho
    cases ho
    decide

/-- What is known of all runs considered. -/
structure World (cfg : Cfg) (quiet : Prop) (xs : List Event) : Prop where
  movers : ∀ name ∈ Family.movers, ¬ Possible cfg.policy name
  hides : quiet → ∀ x ∈ xs, Hides x → ∀ n, 0 < n → Family.room cfg n = false

theorem good_run {cfg : Cfg} {quiet : Prop} : ∀ {xs : List Event} {s : State}, World cfg quiet xs → Good cfg quiet s → Good cfg quiet (run cfg s xs)
  | [], _, _, h => h
  | x :: xs, _, w, h => good_run (xs := xs) ⟨w.movers, fun q y hy => w.hides q y (List.mem_cons_of_mem _ hy)⟩
      (good_step h x w.movers fun q => w.hides q x List.mem_cons_self)

theorem run_append (cfg : Cfg) (s : State) (a b : List Event) : run cfg s (a ++ b) = run cfg (run cfg s a) b := by
  simp [run, List.foldl_append]

/-- An event that brings about what stays does so whenever it comes. -/
theorem comes {cfg : Cfg} {quiet : Prop} {Q P : State → Prop} {e : Event}
    (hQ : ∀ s x, Good cfg quiet s → Q s → Q (step cfg s x)) (hP : ∀ s x, Good cfg quiet s → P s → P (step cfg s x))
    (he : ∀ s, Good cfg quiet s → Q s → P (step cfg s e)) : ∀ {xs : List Event} {s : State}, World cfg quiet xs → Good cfg quiet s → Q s → e ∈ xs →
      P (run cfg s xs)
  | [], _, _, _, _, h => nomatch h
  | x :: xs, s, w, g, q, h => by
    have w' : World cfg quiet xs := ⟨w.movers, fun q y hy => w.hides q y (List.mem_cons_of_mem _ hy)⟩
    have g' := good_step g x w.movers fun q => w.hides q x List.mem_cons_self
    by_cases hx : x = e
    · subst hx
      have keep : ∀ {ys : List Event} {t : State}, World cfg quiet ys → Good cfg quiet t → P t → P (run cfg t ys) := by
        intro ys
        induction ys with
        | nil => exact fun _ _ h => h
        | cons y ys ih =>
          intro t w g p
          exact ih ⟨w.movers, fun q z hz => w.hides q z (List.mem_cons_of_mem _ hz)⟩
            (good_step g y w.movers fun q => w.hides q y List.mem_cons_self) (hP t y g p)
      exact keep (t := step cfg s x) w' g' (he s g q)
    · rcases List.mem_cons.1 h with h | h
      · exact absurd h.symm hx
      · exact comes hQ hP he (s := step cfg s x) w' g' (hQ s x g q) h

theorem stays {cfg : Cfg} {quiet : Prop} {P : State → Prop} (hP : ∀ s x, Good cfg quiet s → P s → P (step cfg s x)) :
    ∀ {xs : List Event} {s : State}, World cfg quiet xs → Good cfg quiet s → P s → P (run cfg s xs)
  | [], _, _, _, h => h
  | x :: xs, s, w, g, h => stays hP (xs := xs) ⟨w.movers, fun q y hy => w.hides q y (List.mem_cons_of_mem _ hy)⟩
      (good_step g x w.movers fun q => w.hides q x List.mem_cons_self) (hP s x g h)

theorem world_left {cfg : Cfg} {quiet : Prop} {a b : List Event} (w : World cfg quiet (a ++ b)) : World cfg quiet a :=
  ⟨w.movers, fun q x hx => w.hides q x (List.mem_append_left _ hx)⟩

theorem world_right {cfg : Cfg} {quiet : Prop} {a b : List Event} (w : World cfg quiet (a ++ b)) : World cfg quiet b :=
  ⟨w.movers, fun q x hx => w.hides q x (List.mem_append_right _ hx)⟩

theorem due_keep {cfg : Cfg} {k : Nat} {s : State} (x : Event) (h : Due cfg k s.fam) : Due cfg k (step cfg s x).fam := by
  rcases step_cases cfg s x with ⟨e, he⟩ | he
  · rw [he]; exact due_step h e
  · rw [he]; exact h

theorem died_keep {cfg : Cfg} {s : State} (x : Event) (h : s.died = true) : (step cfg s x).died = true := by
  have hk : (s.kill cfg).died = true := by unfold State.kill; split <;> exact h
  cases x with
  | fam e => cases e <;> simp only [step] <;> (try split) <;> exact h
  | kill => exact hk
  | limit e => simp only [step]; (repeat' split) <;> first | exact h | exact hk
  | died => simp only [step]; split <;> first | rfl | exact h
  | _ => simp only [step] <;> (try split) <;> exact h

theorem copies_keep {cfg : Cfg} {s : State} (x : Event) (h : s.copies = false) : (step cfg s x).copies = false := by
  have hk : (s.kill cfg).copies = false := by unfold State.kill; split <;> exact h
  cases x with
  | fam e => cases e <;> simp only [step] <;> (try split) <;> exact h
  | kill => exact hk
  | limit e => simp only [step]; (repeat' split) <;> first | exact h | exact hk
  | shut => rfl
  | _ => simp only [step] <;> (try split) <;> exact h

theorem ended_step (cfg : Cfg) (s : Family.State) (e : Family.Event) (h : s.ended = true) : (Family.step cfg s e).ended = true := by
  cases e <;> simp only [Family.step]
  case see i =>
    split
    · exact h
    · exact (acts_pending cfg _ _).2.2.trans h
  all_goals first
    | exact h
    | (repeat' split) <;> first | exact h | rfl

theorem ended_keep {cfg : Cfg} {s : State} (x : Event) (h : s.fam.ended = true) : (step cfg s x).fam.ended = true := by
  rcases step_cases cfg s x with ⟨e, he⟩ | he
  · rw [he]; exact ended_step cfg _ e h
  · rw [he]; exact h

/-- The talking thread has done with the pipe. -/
def Done (s : State) (e : End) : Prop := ∀ o, s.talk = .reading o → e ∉ o

theorem talk_step (cfg : Cfg) (s : State) (x : Event) : (step cfg s x).talk = s.talk ∨ (∃ e, (step cfg s x).talk = s.talk.without e) ∨
    (step cfg s x).talk = .reading [] ∧ (∃ o, s.talk = .reading o) ∨ (step cfg s x).talk = .returned := by
  have hk : (s.kill cfg).talk = s.talk := by unfold State.kill; split <;> rfl
  cases x with
  | fam e => left; cases e <;> simp only [step] <;> (try split) <;> rfl
  | kill => exact .inl hk
  | filled => exact .inr (.inl ⟨.in_, rfl⟩)
  | eof e =>
    simp only [step]
    split
    · exact .inr (.inl ⟨e, rfl⟩)
    · exact .inl rfl
  | limit e =>
    simp only [step]
    split
    · rename_i o ho
      split
      · exact .inr (.inr (.inl ⟨rfl, o, ho⟩))
      · exact .inl rfl
    · exact .inl rfl
  | wake =>
    simp only [step]
    split
    · exact .inr (.inr (.inr rfl))
    · exact .inl rfl
  | _ => left; simp only [step] <;> (try split) <;> rfl

theorem done_keep {cfg : Cfg} {quiet : Prop} {s : State} {e : End} (x : Event) (g : Good cfg quiet s) (h : Done s e) : Done (step cfg s x) e := by
  intro o ho
  rcases talk_step cfg s x with h1 | ⟨e', h1⟩ | ⟨h1, -⟩ | h1
  · exact h o (h1 ▸ ho)
  · rw [h1] at ho
    obtain ⟨-, -, o', h2, h3⟩ := without_nodup g.nodup ho
    exact fun hm => h o' h2 (h3 e hm)
  · rw [h1] at ho
    cases ho
    simp
  · rw [h1] at ho; cases ho

theorem returned_keep {cfg : Cfg} {s : State} (x : Event) (h : s.talk = .returned) : (step cfg s x).talk = .returned := by
  rcases talk_step cfg s x with h1 | ⟨e', h1⟩ | ⟨-, o, h1⟩ | h1
  · rw [h1]; exact h
  · rw [h1, h]; rfl
  · rw [h] at h1; cases h1
  · exact h1

theorem silent_of {cfg : Cfg} {quiet : Prop} {s : State} (hq : quiet) (g : Good cfg quiet s) (he : s.fam.ended = true) (e : End) : s.silent e = true := by
  have ho := Family.over_of g.inv hq he
  have hc := g.copies (g.inv.ended he).1
  have hn : s.holds = [] := by
    rw [List.eq_nil_iff_forall_not_mem]
    intro h hh
    obtain ⟨q, h1, -, h3⟩ := live_iff.1 (g.holds h hh)
    rw [ho q h1] at h3
    cases h3
  simp [State.silent, hc, hn]

theorem rounds_run {cfg : Cfg} {quiet : Prop} (hq : quiet) : ∀ (k : Nat) {bs : List Event} {s : State}, World cfg quiet bs → Good cfg quiet s →
    s.copies = false ∧ Due cfg k s.fam → Rounds (k + 5) bs → Returned (run cfg s bs) := by
  have last : ∀ {bs : List Event} {s : State}, World cfg quiet bs → Good cfg quiet s → s.fam.mon.finished = true → Rounds 4 bs →
      Returned (run cfg s bs) := by
    intro bs s w g hf hr
    cases hr with
    | more a b ha hr =>
    cases hr with
    | more b c hb hr =>
    cases hr with
    | more c d hc hr =>
    cases hr with
    | more d e hd hr =>
    have hsee : ∀ s x, Good cfg quiet s → s.fam.mon.finished = true → (step cfg s x).fam.mon.finished = true := fun s x _ h => finished_keep x h
    have wa := world_left w
    have wb := world_left (world_right w)
    have wc := world_left (world_right (world_right w))
    have wd := world_left (world_right (world_right (world_right w)))
    have we := world_right (world_right (world_right (world_right w)))
    have ga := good_run wa g
    have gb := good_run wb ga
    have gc := good_run wc gb
    have gd := good_run wd gc
    have h1 : (run cfg s a).died = true := comes (Q := fun s => s.fam.mon.finished = true) (P := fun s => s.died = true) (e := .died) hsee
      (fun s x _ h => died_keep x h) (fun s _ h => by simp only [step]; rw [if_pos h]) wa g hf (ha _ (by simp [own]))
    have h2 : (run cfg (run cfg s a) b).fam.ended = true := comes (Q := fun s => s.died = true) (P := fun s => s.fam.ended = true) (e := .fam .finish)
      (fun s x _ h => died_keep x h) (fun s x _ h => ended_keep x h)
      (fun s g h => by simp only [step]; rw [if_pos h]; simp only [State.lift, Family.step, if_pos (g.died h)]) wb ga h1 (hb _ (by simp [own]))
    have hd1 : (run cfg (run cfg s a) b).died = true := stays (P := fun s => s.died = true) (fun s x _ h => died_keep x h) wb ga h1
    have hd2 : (run cfg (run cfg (run cfg s a) b) c).died = true := stays (P := fun s => s.died = true) (fun s x _ h => died_keep x h) wc gb hd1
    have h3 : ∀ e, Done (run cfg (run cfg (run cfg s a) b) c) e := fun e =>
      comes (Q := fun s => s.fam.ended = true) (P := fun s => Done s e) (e := .eof e) (fun s x _ h => ended_keep x h) (fun s x g h => done_keep x g h)
        (fun s g h => by
          simp only [step]
          rw [if_pos (silent_of hq g h e)]
          exact fun o ho => (without_nodup g.nodup ho).2.1) wc gb h2 (hc _ (by cases e <;> simp [own]))
    have h4 : Returned (run cfg (run cfg (run cfg (run cfg s a) b) c) d) :=
      comes (Q := fun s => s.died = true ∧ ∀ e, Done s e) (P := fun s => s.talk = .returned) (e := .wake)
        (fun s x g h => ⟨died_keep x h.1, fun e => done_keep x g (h.2 e)⟩) (fun s x _ h => returned_keep x h)
        (fun s g h => by
          simp only [step]
          split
          · rfl
          · rename_i hn
            cases ht : s.talk with
            | returned => rfl
            | reading o =>
              have : o = [] := List.eq_nil_iff_forall_not_mem.2 fun e he => h.2 e o ht he
              subst this
              exact absurd ⟨h.1, ht⟩ hn) wd gc ⟨hd2, h3⟩ (hd _ (by simp [own]))
    rw [run_append, run_append, run_append, run_append]
    exact stays (P := fun s => s.talk = .returned) (fun s x _ h => returned_keep x h) we gd h4
  intro k
  induction k with
  | zero =>
    intro bs s w g h hr
    cases hr with
    | more a b ha hr =>
    have := comes (Q := fun s => s.copies = false ∧ Due cfg 0 s.fam) (P := fun s => s.fam.mon.finished = true) (e := .fam (.see 0))
      (fun s x _ h => ⟨copies_keep x h.1, due_keep x h.2⟩) (fun s x _ h => finished_keep x h)
      (fun s _ h => by simp only [step, h.1]; exact (due_see h.2).1 rfl) (world_left w) g h (ha _ (by simp [own]))
    rw [run_append]
    exact last (world_right w) (good_run (world_left w) g) this hr
  | succ k ih =>
    intro bs s w g h hr
    cases hr with
    | more a b ha hr =>
    have := comes (Q := fun s => s.copies = false ∧ Due cfg (k + 1) s.fam) (P := fun s => s.copies = false ∧ Due cfg k s.fam) (e := .fam (.see 0))
      (fun s x _ h => ⟨copies_keep x h.1, due_keep x h.2⟩) (fun s x _ h => ⟨copies_keep x h.1, due_keep x h.2⟩)
      (fun s _ h => by
        refine ⟨copies_keep _ h.1, ?_⟩
        simp only [step, h.1]
        exact (due_see h.2).2) (world_left w) g h (ha _ (by simp [own]))
    rw [run_append]
    exact ih (world_right w) (good_run (world_left w) g) this hr

/-- No untraced process is made, or there is no room for a second one. -/
theorem world_of {cmds : List Path.Str} {x : String} {l : List (String × Handler)} (hx : (x, l) ∈ executors cmds) {cfg : Cfg}
    (hp : cfg.policy = base ++ l) {es : List Event} (hh : (∀ e ∈ es, ¬ Hides e) ∨ cfg.nproc = 0 ∧ cfg.privileged = false) : World cfg True es :=
  ⟨by rw [hp]; exact Family.movers_no cmds x l hx, fun _ e he hd => by
    rcases hh with hh | hh
    · exact absurd hd (hh e he)
    · exact Family.no_room cfg hh.1 hh.2⟩

theorem shut_run {cfg : Cfg} : ∀ (es : List Event) (s : State), .shut ∈ es → (run cfg s es).copies = false := by
  have keep : ∀ (es : List Event) (s : State), s.copies = false → (run cfg s es).copies = false := by
    intro es
    induction es with
    | nil => exact fun _ h => h
    | cons e es ih => exact fun s h => ih _ (copies_keep e h)
  intro es
  induction es with
  | nil => exact fun _ h => (nomatch h)
  | cons e es ih =>
    intro s h
    rcases List.mem_cons.1 h with rfl | h
    · exact keep es _ rfl
    · exact ih _ h

theorem entered_keep {cfg : Cfg} {s : State} (x : Event) (h : s.fam.stage ≠ .forked) : (step cfg s x).fam.stage ≠ .forked := by
  rcases step_cases cfg s x with ⟨e, he⟩ | he
  · rw [he]; exact Family.stage_step _ e h
  · rw [he]; exact h

theorem entered_run {cfg : Cfg} : ∀ (es : List Event) (s : State), .fam .enter ∈ es → (run cfg s es).fam.stage ≠ .forked := by
  have keep : ∀ (es : List Event) (s : State), s.fam.stage ≠ .forked → (run cfg s es).fam.stage ≠ .forked := by
    intro es
    induction es with
    | nil => exact fun _ h => h
    | cons e es ih => exact fun s h => ih _ (entered_keep e h)
  intro es
  induction es with
  | nil => exact fun _ h => (nomatch h)
  | cons e es ih =>
    intro s h
    rcases List.mem_cons.1 h with rfl | h
    · exact keep es _ (Family.stage_run [.enter] s.fam List.mem_cons_self)
    · exact ih _ h

theorem due_of {cfg : Cfg} {s : State} (g : Good cfg True s) (hd : live s.fam cfg.main = false) : Due cfg s.fam.pending.length s.fam := by
  rcases g.known with h | h | h
  · exact .inl h
  · exact due_mono (due_of_mem h) (Nat.sub_le _ _)
  · rw [hd] at h; cases h

theorem due_kill {cfg : Cfg} {s : State} (g : Good cfg True s) (h : s.fam.stage ≠ .forked) : Due cfg (s.kill cfg).fam.pending.length (s.kill cfg).fam := by
  unfold State.kill
  split
  · rename_i hf; exact .inl hf
  · have g' : Known cfg (Family.step cfg s.fam .killpg) := known_step g.known _
    show Due cfg (Family.step cfg s.fam .killpg).pending.length (Family.step cfg s.fam .killpg)
    rcases g' with h' | h' | h'
    · exact .inl h'
    · exact due_mono (due_of_mem h') (Nat.sub_le _ _)
    · obtain ⟨q, hq, h1, h2⟩ := live_iff.1 h'
      have := List.mem_filter.1 hq
      have hg := g.inv.group (.inr trivial) h q this.1 h2
      simp [hg] at this

/-! ## The property -/

/-- **C114**: once the program is no longer alive and the judge has closed its own copies of the pipes, the judge returns, in at most as many rounds of
its threads as there are reports to look at, and five, whatever else happens meanwhile, be it that other processes of the submission are alive and
hold the pipes. *Missing* (see `C114_hang_fails`): processes that nobody traces, in the languages that can make them. -/
theorem C114_returns_partial (cmds : List Path.Str) (x : String) (l : List (String × Handler)) (hx : (x, l) ∈ executors cmds) (cfg : Cfg)
    (hp : cfg.policy = base ++ l) (others : List (Nat × Nat)) (hs : Sane cfg others) (es bs : List Event)
    (hh : (∀ e ∈ es ++ bs, ¬ Hides e) ∨ cfg.nproc = 0 ∧ cfg.privileged = false) (hc : .shut ∈ es)
    (hd : ∀ q ∈ (run cfg (start cfg others) es).fam.procs, q.mine = true → q.pid ≠ cfg.main)
    (hr : Rounds ((run cfg (start cfg others) es).fam.pending.length + 5) bs) : Returned (run cfg (start cfg others) (es ++ bs)) := by
  have w := world_of hx hp hh
  have g := good_run (world_left w) (good_start cfg True others hs)
  rw [run_append]
  refine rounds_run trivial _ (world_right w) g ⟨shut_run es _ hc, due_of g ?_⟩ hr
  cases hl : live (run cfg (start cfg others) es).fam cfg.main with
  | false => rfl
  | true =>
    obtain ⟨q, hq, h1, h2⟩ := live_iff.1 hl
    exact absurd h1 (hd q hq h2)

/-- **C114**: in particular the judge returns after a kill, by the watchdog or an abort. (The watchdog asks when the limit has passed, C68.) -/
theorem C114_killed_partial (cmds : List Path.Str) (x : String) (l : List (String × Handler)) (hx : (x, l) ∈ executors cmds) (cfg : Cfg)
    (hp : cfg.policy = base ++ l) (others : List (Nat × Nat)) (hs : Sane cfg others) (es bs : List Event)
    (hh : (∀ e ∈ es ++ bs, ¬ Hides e) ∨ cfg.nproc = 0 ∧ cfg.privileged = false) (hc : .shut ∈ es) (he : .fam .enter ∈ es)
    (hr : Rounds ((run cfg (start cfg others) (es ++ [.kill])).fam.pending.length + 5) bs) :
    Returned (run cfg (start cfg others) (es ++ .kill :: bs)) := by
  have w := world_of hx hp hh
  have g := good_run (world_left w) (good_start cfg True others hs)
  have hk : run cfg (start cfg others) (es ++ [.kill]) = (run cfg (start cfg others) es).kill cfg := by rw [run_append]; rfl
  have g' := good_step g .kill w.movers (fun _ ⟨_, h, _⟩ => nomatch h)
  rw [hk] at hr
  rw [run_append]
  exact rounds_run (s := step cfg (run cfg (start cfg others) es) .kill) trivial _ (world_right w) g' ⟨copies_keep .kill (shut_run es _ hc), due_kill g (entered_run es _ he)⟩ hr

/-- **C114**: the judge returns after there was too much output. -/
theorem C114_limit_partial (cmds : List Path.Str) (x : String) (l : List (String × Handler)) (hx : (x, l) ∈ executors cmds) (cfg : Cfg)
    (hp : cfg.policy = base ++ l) (others : List (Nat × Nat)) (hs : Sane cfg others) (es bs : List Event)
    (hh : (∀ e ∈ es ++ bs, ¬ Hides e) ∨ cfg.nproc = 0 ∧ cfg.privileged = false) (hc : .shut ∈ es) (he : .fam .enter ∈ es) (e : End) (o : List End)
    (ho : (run cfg (start cfg others) es).talk = .reading o) (heo : e ∈ o) (hei : e ≠ .in_)
    (hr : Rounds ((run cfg (start cfg others) (es ++ [.limit e])).fam.pending.length + 5) bs) :
    Returned (run cfg (start cfg others) (es ++ .limit e :: bs)) := by
  have w := world_of hx hp hh
  have g := good_run (world_left w) (good_start cfg True others hs)
  have hst : step cfg (run cfg (start cfg others) es) (.limit e) = { (run cfg (start cfg others) es).kill cfg with talk := .reading [] } := by
    simp only [step, ho]
    exact if_pos ⟨heo, hei⟩
  have hk : run cfg (start cfg others) (es ++ [.limit e]) = step cfg (run cfg (start cfg others) es) (.limit e) := by rw [run_append]; rfl
  have g' := good_step g (.limit e) w.movers (fun _ ⟨_, h, _⟩ => nomatch h)
  rw [hk] at hr
  rw [run_append]
  refine rounds_run (s := step cfg (run cfg (start cfg others) es) (.limit e)) trivial _ (world_right w) g' ⟨copies_keep _ (shut_run es _ hc), ?_⟩ hr
  rw [hst]
  exact due_kill g (entered_run es _ he)

/-! ## All of the output -/

theorem inherited_of {holds : List (Nat × End)} {e : Family.Event} {h : Nat × End} (hh : h ∈ inherited holds e) : ∃ p, (p, h.2) ∈ holds := by
  cases e <;> simp only [inherited] at hh <;> try cases hh
  simp only [List.mem_map, List.mem_filter] at hh
  obtain ⟨y, hy, rfl⟩ := hh
  exact ⟨y.1, hy.1⟩

theorem lift_mem {cfg : Cfg} {s : State} {e : Family.Event} {h : Nat × End} (hh : h ∈ (s.lift cfg e).holds) : ∃ p, (p, h.2) ∈ s.holds := by
  have := (List.mem_filter.1 hh).1
  rcases List.mem_append.1 this with h' | h'
  · exact ⟨h.1, h'⟩
  · split at h'
    · exact inherited_of h'
    · cases h'

theorem holds_step {cfg : Cfg} {s : State} (x : Event) {h : Nat × End} (hh : h ∈ (step cfg s x).holds) : ∃ p, (p, h.2) ∈ s.holds := by
  have hk : h ∈ (s.kill cfg).holds → ∃ p, (p, h.2) ∈ s.holds := by
    unfold State.kill
    split
    · exact fun h' => ⟨h.1, h'⟩
    · exact lift_mem
  cases x with
  | fam e =>
    cases e <;> simp only [step] at hh
    case killpg => exact ⟨h.1, hh⟩
    case see => split at hh; exacts [⟨h.1, hh⟩, lift_mem hh]
    case finish => split at hh; exacts [lift_mem hh, ⟨h.1, hh⟩]
    all_goals exact lift_mem hh
  | kill => exact hk hh
  | close p e => exact ⟨h.1, (List.mem_filter.1 hh).1⟩
  | limit e =>
    simp only [step] at hh
    split at hh
    · split at hh
      · exact hk hh
      · exact ⟨h.1, hh⟩
    · exact ⟨h.1, hh⟩
  | eof e => simp only [step] at hh; split at hh <;> exact ⟨h.1, hh⟩
  | died => simp only [step] at hh; split at hh <;> exact ⟨h.1, hh⟩
  | wake => simp only [step] at hh; split at hh <;> exact ⟨h.1, hh⟩
  | shut => exact ⟨h.1, hh⟩
  | filled => exact ⟨h.1, hh⟩

theorem silent_iff {s : State} {e : End} : s.silent e = true ↔ s.copies = false ∧ ∀ p, (p, e) ∉ s.holds := by
  simp only [State.silent, Bool.and_eq_true, Bool.not_eq_true', List.all_eq_true, decide_eq_true_eq]
  refine and_congr Iff.rfl ⟨fun h p hp => h _ hp rfl, fun h y hy he => h y.1 (by rw [← he]; exact hy)⟩

theorem silent_keep {cfg : Cfg} {s : State} {e : End} (x : Event) (h : s.silent e = true) : (step cfg s x).silent e = true := by
  rw [silent_iff] at h ⊢
  refine ⟨copies_keep x h.1, fun p hp => ?_⟩
  obtain ⟨q, hq⟩ := holds_step x hp
  exact h.2 q hq

theorem silent_run {cfg : Cfg} {e : End} : ∀ (es : List Event) {s : State}, s.silent e = true → (run cfg s es).silent e = true
  | [], _, h => h
  | x :: es, _, h => silent_run es (silent_keep x h)

/-- **C114**: the end of a pipe is final: once nobody can write to it, nobody will, whatever happens. -/
theorem C114_final (cfg : Cfg) (s : State) (bs : List Event) (e : End) (hc : s.copies = false) (h : ∀ p, ¬ Holds s p e) :
    (run cfg s bs).copies = false ∧ ∀ p, ¬ Holds (run cfg s bs) p e :=
  silent_iff.1 (silent_run bs (silent_iff.2 ⟨hc, h⟩))

/-- Without a limit, a pipe the judge no longer reads has ended. -/
def Whole (s : State) : Prop := ∀ e, e ≠ .in_ → (∀ o, s.talk = .reading o → e ∉ o) → s.silent e = true

theorem whole_step {cfg : Cfg} {s : State} (x : Event) (hx : ∀ e, x ≠ .limit e) (h : Whole s) : Whole (step cfg s x) := by
  intro e he hd
  by_cases hs : s.silent e = true
  · exact silent_keep x hs
  have hn : ∃ o, s.talk = .reading o ∧ e ∈ o := by
    by_contra hno
    exact hs (h e he fun o ho hm => hno ⟨o, ho, hm⟩)
  obtain ⟨o, ho, hm⟩ := hn
  exfalso
  have hk : (s.kill cfg).talk = s.talk := by unfold State.kill; split <;> rfl
  have same : (step cfg s x).talk = s.talk → False := fun h' => hd o (h'.trans ho) hm
  cases x with
  | fam f => refine same ?_; cases f <;> simp only [step] <;> (try split) <;> rfl
  | kill => exact same hk
  | filled =>
    refine hd (o.erase .in_) (by simp only [step, ho, Talk.without]) ?_
    exact (List.mem_erase_of_ne he).2 hm
  | eof f =>
    simp only [step] at hd
    split at hd
    · rename_i hf
      have hne : e ≠ f := fun h' => hs (h' ▸ hf)
      exact hd (o.erase f) (by simp only [ho, Talk.without]) ((List.mem_erase_of_ne hne).2 hm)
    · exact hd o ho hm
  | limit f => exact hx f rfl
  | wake =>
    simp only [step] at same
    split at same
    · rename_i hw
      rw [ho] at hw
      cases hw.2
      cases hm
    · exact same rfl
  | died => refine same ?_; simp only [step]; split <;> rfl
  | shut => exact same rfl
  | close => exact same rfl

theorem whole_run {cfg : Cfg} : ∀ (es : List Event) {s : State}, (∀ x ∈ es, ∀ e, x ≠ .limit e) → Whole s → Whole (run cfg s es)
  | [], _, _, h => h
  | x :: es, _, hl, h => whole_run es (fun y hy => hl y (List.mem_cons_of_mem _ hy)) (whole_step x (hl x List.mem_cons_self) h)

/-- **C114**: and the judge does not return early: if it was not for too much output, then when it has returned no process can write to the output or
the error output any more, now or later. (So with C111 nothing written is lost.) -/
theorem C114_complete (cfg : Cfg) (others : List (Nat × Nat)) (es bs : List Event) (hl : ∀ x ∈ es, ∀ e, x ≠ .limit e)
    (hr : Returned (run cfg (start cfg others) es)) (p : Nat) :
    ¬ Holds (run cfg (start cfg others) (es ++ bs)) p .out ∧ ¬ Holds (run cfg (start cfg others) (es ++ bs)) p .err := by
  have w : Whole (run cfg (start cfg others) es) := whole_run es hl fun e he hd => absurd (by cases e <;> first | exact absurd rfl he | simp) (hd _ rfl)
  have hs : ∀ e, e ≠ .in_ → (run cfg (start cfg others) (es ++ bs)).silent e = true := fun e he => by
    rw [run_append]
    exact silent_run bs (w e he fun o ho => by rw [hr] at ho; cases ho)
  exact ⟨(silent_iff.1 (hs .out (by decide))).2 p, (silent_iff.1 (hs .err (by decide))).2 p⟩

/-! ## Where it fails -/

/-- The program waiting for its first instruction, the judge for output. -/
def ready : State := { fam := Family.begun, copies := false, holds := [(7, .in_), (7, .out), (7, .err)] }

theorem run_ready (cfg : Cfg) (hc : cfg.main = 7) (hj : cfg.judge = 1) (es : List Event) :
    run cfg (start cfg []) (.fam .enter :: .shut :: .fam .traceme :: .fam (.see 0) :: es) = run cfg ready es := by
  have : run cfg (start cfg []) [.fam .enter, .shut, .fam .traceme, .fam (.see 0)] = ready := by
    simp [run, start, step, State.lift, live, Family.start, Family.step, hc, hj, Monitor.step, Cfg.loop, Family.State.act, Family.begun, ready]
  rw [← this]
  rfl

theorem run_cons (cfg : Cfg) (s : State) (e : Event) (es : List Event) : run cfg s (e :: es) = run cfg (step cfg s e) es := rfl

theorem first_birth (cfg : Cfg) (hn : cfg.nproc = -1) (f : Family.Flags) (st : Isolate.Stop) (he : ∀ t, Family.executes cfg t "clone" st = true) :
    step cfg ready (.fam (.birth 7 8 "clone" f st 1)) =
      { ready with fam := { Family.begun with procs := [⟨8, 7, !f.untraced, true⟩, ⟨7, 7, true, true⟩],
                                              pending := if !f.untraced then [.trap 7 (Family.event f 8)] else [], log := [(7, "clone")] },
                   holds := [(7, .in_), (7, .out), (7, .err), (8, .in_), (8, .out), (8, .err)] } := by
  have h := Family.first_birth cfg (Family.free_room cfg hn) f st he
  simp only [step, State.lift]
  show ({ ready with fam := Family.step cfg Family.begun _, holds := _ } : State) = _
  have hf : ready.fam = Family.begun := rfl
  rw [hf, h]
  simp [ready, inherited, live, Family.begun]

/-- The program makes a process nobody traces and ends. -/
def lurks (st : Isolate.Stop) : List Event :=
  [.fam .enter, .shut, .fam .traceme, .fam (.see 0), .fam (.birth 7 8 "clone" { untraced := true } st 1), .fam (.exit 7), .fam (.see 0), .died,
    .fam .finish]

/-- Process 8 keeps the judge waiting. -/
structure Stuck (s : State) : Prop where
  stage : s.fam.stage = .traced
  finished : s.fam.mon.finished = true
  proc : ∃ q ∈ s.fam.procs, q.pid = 8 ∧ q.mine = true ∧ q.traced = false
  holds : (8, .out) ∈ s.holds
  talk : ∃ o, s.talk = .reading o ∧ .out ∈ o

theorem hide (cfg : Cfg) (hc : cfg.main = 7) (hj : cfg.judge = 1) (hn : cfg.nproc = -1) (st : Isolate.Stop)
    (he : ∀ t, Family.executes cfg t "clone" st = true) : Stuck (run cfg (start cfg []) (lurks st)) := by
  rw [lurks, run_ready cfg hc hj, run_cons, first_birth cfg hn _ st he]
  refine ⟨?_, ?_, ?_, ?_, ?_⟩ <;>
  simp [ready, Family.begun, run, step, State.lift, live, Family.step, Cfg.loop, Monitor.step, Family.State.die, Family.State.act, hc]

theorem stuck_live {s : State} (h : ∃ q ∈ s.fam.procs, q.pid = 8 ∧ q.mine = true ∧ q.traced = false) : live s.fam 8 = true := by
  obtain ⟨q, hq, h1, h2, -⟩ := h
  exact live_iff.2 ⟨q, hq, h1, h2⟩

theorem stuck_fam (cfg : Cfg) (s : Family.State) (e : Family.Event) (hf : s.mon.finished = true) (hk : e ≠ .killpg) (he : e ≠ .exit 8)
    (ht : s.stage = .traced)
    (h : ∃ q ∈ s.procs, q.pid = 8 ∧ q.mine = true ∧ q.traced = false) :
    ∃ q ∈ (Family.step cfg s e).procs, q.pid = 8 ∧ q.mine = true ∧ q.traced = false := by
  obtain ⟨q, hq, h1, h2, h3⟩ := h
  cases e <;> simp only [Family.step]
  case enter => rw [if_neg (by rw [ht]; decide)]; exact ⟨q, hq, h1, h2, h3⟩
  case traceme => rw [if_neg (by rw [ht]; decide)]; exact ⟨q, hq, h1, h2, h3⟩
  case birth =>
    split
    · exact ⟨q, hq, h1, h2, h3⟩
    · split
      · exact ⟨q, List.mem_cons_of_mem _ hq, h1, h2, h3⟩
      · exact ⟨q, hq, h1, h2, h3⟩
  case leave p g _ _ =>
    split
    · exact ⟨q, hq, h1, h2, h3⟩
    · split
      · refine ⟨_, List.mem_map_of_mem hq, ?_⟩
        split <;> exact ⟨h1, h2, h3⟩
      · exact ⟨q, hq, h1, h2, h3⟩
  case call =>
    split
    · exact ⟨q, hq, h1, h2, h3⟩
    · split <;> exact ⟨q, hq, h1, h2, h3⟩
  case exit p =>
    refine ⟨q, List.mem_filter.2 ⟨hq, ?_⟩, h1, h2, h3⟩
    have : p ≠ 8 := fun h => he (by rw [h])
    simp [h1, this.symm]
  case foreign =>
    split
    · exact ⟨q, List.mem_cons_of_mem _ hq, h1, h2, h3⟩
    · exact ⟨q, hq, h1, h2, h3⟩
  case killpg => exact absurd rfl hk
  case see i =>
    split
    · exact ⟨q, hq, h1, h2, h3⟩
    · rename_i x _
      have : Monitor.step cfg.loop s.mon x = (s.mon, []) := by unfold Monitor.step; exact if_pos hf
      rw [this]
      exact ⟨q, hq, h1, h2, h3⟩
  case finish =>
    rw [if_pos hf]
    have : q ∈ (s.die cfg (·.traced)).procs := List.mem_filter.2 ⟨hq, by simp [h3]⟩
    exact ⟨q, this, h1, h2, h3⟩

theorem acts_stage (cfg : Cfg) (as : List Monitor.Act) : ∀ s : Family.State, (as.foldl (Family.State.act cfg) s).stage = s.stage := by
  induction as with
  | nil => exact fun _ => rfl
  | cons a as ih => exact fun s => (ih _).trans (by cases a <;> rfl)

theorem stage_stays (cfg : Cfg) (s : Family.State) (e : Family.Event) (h : s.stage = .traced) : (Family.step cfg s e).stage = .traced := by
  cases e <;> simp only [Family.step]
  case enter => rw [if_neg (by rw [h]; decide)]; exact h
  case traceme => rw [if_neg (by rw [h]; decide)]; exact h
  case see =>
    split
    · exact h
    · exact (acts_stage cfg _ _).trans h
  case finish => split <;> exact h
  all_goals first
    | exact h
    | (repeat' split) <;> exact h

theorem stuck_lift {cfg : Cfg} {s : State} (h : Stuck s) (e : Family.Event) (hk : e ≠ .killpg) (he : e ≠ .exit 8) : Stuck (s.lift cfg e) := by
  have hp := stuck_fam cfg s.fam e h.finished hk he h.stage h.proc
  refine ⟨stage_stays cfg _ e h.stage, finished_step cfg _ e h.finished, hp, ?_, h.talk⟩
  exact List.mem_filter.2 ⟨List.mem_append_left _ h.holds, stuck_live (s := s.lift cfg e) hp⟩

theorem stuck_step {cfg : Cfg} {s : State} (h : Stuck s) (x : Event) (h1 : x ≠ .fam (.exit 8)) (h2 : x ≠ .close 8 .out) (h3 : ∀ e, x ≠ .limit e) :
    Stuck (step cfg s x) := by
  cases x with
  | fam e =>
    cases e <;> simp only [step]
    case killpg => exact h
    case see => split; exacts [h, stuck_lift h _ (by simp) (by simp)]
    case finish => split; exacts [stuck_lift h _ (by simp) (by simp), h]
    case exit p => exact stuck_lift h _ (by simp) (fun h' => h1 (by rw [h']))
    all_goals exact stuck_lift h _ (by simp) (by simp)
  | kill =>
    have : s.kill cfg = s := by unfold State.kill; exact if_pos h.finished
    show Stuck (s.kill cfg)
    rw [this]
    exact h
  | limit e => exact absurd rfl (h3 e)
  | shut => exact ⟨h.stage, h.finished, h.proc, h.holds, h.talk⟩
  | close p e =>
    refine ⟨h.stage, h.finished, h.proc, List.mem_filter.2 ⟨h.holds, ?_⟩, h.talk⟩
    simp only [ne_eq, decide_eq_true_eq, Prod.mk.injEq]
    rintro ⟨rfl, rfl⟩
    exact h2 rfl
  | filled =>
    obtain ⟨o, ho, hm⟩ := h.talk
    exact ⟨h.stage, h.finished, h.proc, h.holds, o.erase .in_, by simp only [step, ho, Talk.without], (List.mem_erase_of_ne (by decide)).2 hm⟩
  | eof e =>
    simp only [step]
    split
    · rename_i hs
      obtain ⟨o, ho, hm⟩ := h.talk
      refine ⟨h.stage, h.finished, h.proc, h.holds, o.erase e, by simp only [ho, Talk.without], (List.mem_erase_of_ne ?_).2 hm⟩
      rintro rfl
      exact (silent_iff.1 hs).2 8 h.holds
    · exact h
  | died =>
    simp only [step]
    split
    · exact ⟨h.stage, h.finished, h.proc, h.holds, h.talk⟩
    · exact h
  | wake =>
    simp only [step]
    split
    · rename_i hw
      obtain ⟨o, ho, hm⟩ := h.talk
      rw [ho] at hw
      cases hw.2
      cases hm
    · exact h

theorem stuck_run {cfg : Cfg} : ∀ (bs : List Event) {s : State}, Stuck s → .fam (.exit 8) ∉ bs → .close 8 .out ∉ bs → (∀ x ∈ bs, ∀ e, x ≠ .limit e) →
    Stuck (run cfg s bs)
  | [], _, h, _, _, _ => h
  | x :: bs, _, h, h1, h2, h3 => stuck_run bs
      (stuck_step h x (fun e => h1 (by simp [e])) (fun e => h2 (by simp [e])) (h3 x List.mem_cons_self))
      (fun e => h1 (List.mem_cons_of_mem _ e)) (fun e => h2 (List.mem_cons_of_mem _ e)) (fun y hy => h3 y (List.mem_cons_of_mem _ hy))

/-- In every language without a limit on processes a submission can keep the judge waiting for ever: a process that nobody traces holds the output and
writes nothing; the program ends; the tracing thread has ended, and all later kills, of the watchdog (which has ended, too) or of an abort, do nothing,
since there is a return code. It ends only when the process itself does (or closes its output, or writes too much). -/
theorem C114_hang_fails (cmds : List Path.Str) (x : String) (l : List (String × Handler)) (hx : (x, l) ∈ executors cmds)
    (h0 : Family.nprocOf x ≠ 0) (seccomp : Bool) (st : Isolate.Stop) (bs : List Event) (h1 : .fam (.exit 8) ∉ bs) (h2 : .close 8 .out ∉ bs)
    (h3 : ∀ y ∈ bs, ∀ e, y ≠ .limit e) :
    (run (Family.conf x (base ++ l) seccomp) (start (Family.conf x (base ++ l) seccomp) []) (lurks st ++ bs)).fam.mon.finished = true ∧
    ¬ Returned (run (Family.conf x (base ++ l) seccomp) (start (Family.conf x (base ++ l) seccomp) []) (lurks st ++ bs)) := by
  obtain ⟨c1, c2, c3, c4, c5⟩ := Family.conf_is x (base ++ l) seccomp
  have h := hide (Family.conf x (base ++ l) seccomp) c2 c3 (c4.trans (Family.nproc_free h0)) st (fun t => Family.clone_runs cmds x l hx _ c1 t st)
  have h' := stuck_run (cfg := Family.conf x (base ++ l) seccomp) bs h h1 h2 h3
  rw [run_append]
  refine ⟨h'.finished, fun hr => ?_⟩
  obtain ⟨o, ho, -⟩ := h'.talk
  rw [Returned, ho] at hr
  cases hr

/-- The program makes a process that closes its ends of the pipes, and ends. -/
def early (st : Isolate.Stop) : List Event :=
  [.fam .enter, .shut, .fam .traceme, .fam (.see 0), .fam (.birth 7 8 "clone" { sigchld := false } st 1), .fam (.see 0), .close 8 .in_, .close 8 .out,
    .close 8 .err, .fam (.exit 7), .fam (.see 0), .died, .eof .out, .eof .err, .eof .in_, .wake]

theorem early_run (cfg : Cfg) (hc : cfg.main = 7) (hj : cfg.judge = 1) (hn : cfg.nproc = -1) (st : Isolate.Stop)
    (he : ∀ t, Family.executes cfg t "clone" st = true) :
    Returned (run cfg (start cfg []) (early st)) ∧ (run cfg (start cfg []) (early st)).fam.procs = [⟨8, 7, true, true⟩] := by
  rw [early, run_ready cfg hc hj, run_cons, first_birth cfg hn _ st he]
  refine ⟨?_, ?_⟩ <;>
  simp [Returned, ready, Family.begun, Family.event, run, step, State.lift, State.silent, Talk.without, live, Family.step, Cfg.loop, Monitor.step,
    Family.State.die, Family.State.act, hc]

/-- The judge may return while a process of the submission is alive, if the process has closed the pipes: `_died` is set before the tracing thread ends
(tracer.py:328-330). -/
theorem C114_window_fails (cmds : List Path.Str) (x : String) (l : List (String × Handler)) (hx : (x, l) ∈ executors cmds)
    (h0 : Family.nprocOf x ≠ 0) (seccomp : Bool) (st : Isolate.Stop) :
    Returned (run (Family.conf x (base ++ l) seccomp) (start (Family.conf x (base ++ l) seccomp) []) (early st)) ∧
    ¬ Over (run (Family.conf x (base ++ l) seccomp) (start (Family.conf x (base ++ l) seccomp) []) (early st)).fam := by
  obtain ⟨c1, c2, c3, c4, c5⟩ := Family.conf_is x (base ++ l) seccomp
  obtain ⟨h1, h2⟩ := early_run (Family.conf x (base ++ l) seccomp) c2 c3 (c4.trans (Family.nproc_free h0)) st
    (fun t => Family.clone_runs cmds x l hx _ c1 t st)
  refine ⟨h1, fun ho => ?_⟩
  have := ho ⟨8, 7, true, true⟩ (by rw [h2]; exact List.mem_cons_self)
  cases this

/-! ## Cases -/

/-- So many rounds of just what the threads of the judge do. -/
theorem rounds_own : ∀ n : Nat, Rounds n (List.replicate n own).flatten
  | 0 => .zero _
  | n + 1 => .more own _ (fun _ h => h) (rounds_own n)

/-- A shell with a child that holds the pipes; time is up. -/
theorem killed_case (cfg : Cfg) (hc : cfg.main = 7) (hj : cfg.judge = 1) (hn : cfg.nproc = -1) (st : Isolate.Stop)
    (he : ∀ t, Family.executes cfg t "clone" st = true) :
    (run cfg (start cfg []) ([.fam .enter, .shut, .fam .traceme, .fam (.see 0), .fam (.birth 7 8 "clone" {} st 1)] ++ [.kill])).fam.pending.length = 3 ∧
    Holds (run cfg (start cfg []) [.fam .enter, .shut, .fam .traceme, .fam (.see 0), .fam (.birth 7 8 "clone" {} st 1)]) 8 .out := by
  show (run cfg (start cfg []) (.fam .enter :: .shut :: .fam .traceme :: .fam (.see 0) :: [.fam (.birth 7 8 "clone" {} st 1), .kill])).fam.pending.length = 3 ∧ _
  constructor <;> rw [run_ready cfg hc hj, run_cons, first_birth cfg hn _ st he] <;>
  simp [Holds, ready, Family.begun, Family.event, run, step, State.lift, State.kill, live, Family.step, Family.State.killpg, Family.State.die, hc]

example (cmds : List Path.Str) (l : List (String × Handler)) (hx : ("BASH", l) ∈ executors cmds) (st : Isolate.Stop) :
    Returned (run (Family.conf "BASH" (base ++ l) true) (start (Family.conf "BASH" (base ++ l) true) [])
      ([.fam .enter, .shut, .fam .traceme, .fam (.see 0), .fam (.birth 7 8 "clone" {} st 1)] ++ .kill :: (List.replicate 8 own).flatten)) := by
  obtain ⟨c1, c2, c3, c4, c5⟩ := Family.conf_is "BASH" (base ++ l) true
  obtain ⟨h1, -⟩ := killed_case _ c2 c3 (c4.trans (Family.nproc_free (by decide))) st (fun t => Family.clone_runs cmds _ l hx _ c1 t st)
  refine C114_killed_partial cmds "BASH" l hx _ c1 [] (by rw [Sane, c2, c3]; simp) _ _ (.inl ?_) (by simp) (by simp) ?_
  · intro e he hd
    obtain ⟨f, rfl, p, c, n, g, s, k, rfl, hu⟩ := hd
    simp [own, List.replicate] at he
    rw [he.2.2.2.1] at hu
    cases hu
  · rw [h1]
    exact rounds_own 8

/-- A program in C that has ended, and one that has written too much. -/
theorem single_case (cfg : Cfg) (hc : cfg.main = 7) (hj : cfg.judge = 1) :
    (run cfg (start cfg []) [.fam .enter, .shut, .fam .traceme, .fam (.see 0), .fam (.exit 7)]).fam.procs = [] ∧
    (run cfg (start cfg []) [.fam .enter, .shut, .fam .traceme, .fam (.see 0), .fam (.exit 7)]).fam.pending.length = 1 ∧
    (run cfg (start cfg []) [.fam .enter, .shut, .fam .traceme, .fam (.see 0)]).talk = .reading [.in_, .out, .err] ∧
    (run cfg (start cfg []) ([.fam .enter, .shut, .fam .traceme, .fam (.see 0)] ++ [.limit .out])).fam.pending.length = 1 := by
  show _ ∧ _ ∧ _ ∧ (run cfg (start cfg []) (.fam .enter :: .shut :: .fam .traceme :: .fam (.see 0) :: [.limit .out])).fam.pending.length = 1
  refine ⟨?_, ?_, ?_, ?_⟩ <;> rw [run_ready cfg hc hj] <;>
  simp [ready, Family.begun, run, step, State.lift, State.kill, Family.step, Family.State.killpg, Family.State.die, hc]

example (cmds : List Path.Str) (l : List (String × Handler)) (hx : ("C", l) ∈ executors cmds) :
    Returned (run (Family.conf "C" (base ++ l) false) (start (Family.conf "C" (base ++ l) false) [])
      ([.fam .enter, .shut, .fam .traceme, .fam (.see 0), .fam (.exit 7)] ++ (List.replicate 6 own).flatten)) := by
  obtain ⟨c1, c2, c3, c4, c5⟩ := Family.conf_is "C" (base ++ l) false
  obtain ⟨h1, h2, -⟩ := single_case _ c2 c3
  refine C114_returns_partial cmds "C" l hx _ c1 [] (by rw [Sane, c2, c3]; simp) _ _ (.inr ⟨c4.trans (by decide), rfl⟩) (by simp)
    (by rw [h1]; intro q hq; cases hq) ?_
  rw [h2]
  exact rounds_own 6

example (cmds : List Path.Str) (l : List (String × Handler)) (hx : ("C", l) ∈ executors cmds) :
    Returned (run (Family.conf "C" (base ++ l) false) (start (Family.conf "C" (base ++ l) false) [])
      ([.fam .enter, .shut, .fam .traceme, .fam (.see 0)] ++ .limit .out :: (List.replicate 6 own).flatten)) := by
  obtain ⟨c1, c2, c3, c4, c5⟩ := Family.conf_is "C" (base ++ l) false
  obtain ⟨-, -, h3, h4⟩ := single_case _ c2 c3
  refine C114_limit_partial cmds "C" l hx _ c1 [] (by rw [Sane, c2, c3]; simp) _ _ (.inr ⟨c4.trans (by decide), rfl⟩) (by simp) (by simp) .out _ h3
    (by simp) (by decide) ?_
  rw [h4]
  exact rounds_own 6

/-- The history of `C114_window_fails` meets the hypotheses of `C114_complete`. -/
example (cmds : List Path.Str) (l : List (String × Handler)) (hx : ("BASH", l) ∈ executors cmds) (st : Isolate.Stop) (p : Nat) :
    ¬ Holds (run (Family.conf "BASH" (base ++ l) true) (start (Family.conf "BASH" (base ++ l) true) []) (early st ++ [.fam .finish])) p .out :=
  (C114_complete _ [] (early st) _ (by simp [early]) (C114_window_fails cmds "BASH" l hx (by decide) true st).1 p).1

end Verif.Vigil
