import Verif.Spec.Family
import Verif.Props.Policy
import Mathlib.Tactic

/-! # C113: no process of a submission escapes its group or outlives its run -/

namespace Verif.Family
open Verif.Monitor Verif.Policy Verif.Policy.Spec Verif.Family.Spec

/-! ## Calls -/

theorem handler_decides {p : List (String × Handler)} {name : String} {h : Handler} (hh : handler p name = some h) : Decides p name h := by
  unfold handler at hh
  cases hi : idOf name with
  | none => simp [hi] at hh
  | some id =>
    simp only [hi, Option.bind_some] at hh
    exact ((C63_effective p name id hi).1 h).1 hh

theorem executes_possible {cfg : Cfg} {t : Bool} {name : String} {s : Isolate.Stop} (he : executes cfg t name s = true)
    (ht : cfg.seccomp = true ∨ t = true) : Possible cfg.policy name := by
  unfold executes at he
  split_ifs at he with h1 h2
  · cases hh : handler cfg.policy name with
    | none => simp [hh] at he
    | some h =>
      simp only [hh, Option.any_some, decide_eq_true_eq] at he
      exact ⟨h, s, handler_decides hh, he⟩
  · simp only [decide_eq_true_eq] at he
    exact ⟨_, s, handler_decides he, rfl⟩
  · rcases ht with ht | ht <;> contradiction

/-! ## The invariant -/

structure Inv (cfg : Cfg) (quiet : Prop) (s : State) : Prop where
  nodup : (s.procs.map (·.pid)).Nodup
  foreign : ∀ p ∈ s.procs, p.mine = false → p.group ≠ cfg.main ∧ p.traced = false
  early : s.stage ≠ .traced → s.mon.first = true ∧ ∀ e ∈ s.pending, ∃ q, e = .gone q
  alone : s.stage ≠ .traced → ∀ p ∈ s.procs, p.mine = true → p.pid = cfg.main ∧ s.pending = [] ∧ s.mon.finished = false
  untouched : s.stage ≠ .traced → ∀ p ∈ s.procs, p.traced = false
  all : quiet → s.stage = .traced → ∀ p ∈ s.procs, p.mine = true → p.traced = true
  group : cfg.seccomp = true ∨ quiet → s.stage ≠ .forked → ∀ p ∈ s.procs, p.mine = true → p.group = cfg.main
  ended : s.ended = true → s.mon.finished = true ∧ ∀ p ∈ s.procs, p.traced = false
  log : cfg.seccomp = true ∨ quiet → ∀ l ∈ s.log, Possible cfg.policy l.2

theorem inv_start (cfg : Cfg) (quiet : Prop) (others : List (Nat × Nat)) (h : Sane cfg others) : Inv cfg quiet (start cfg others) := by
  obtain ⟨h1, h2, h3⟩ := h
  have hf : ∀ p ∈ (start cfg others).procs, p.traced = false ∧ (p.mine = false → p.group ≠ cfg.main) ∧ (p.mine = true → p.pid = cfg.main) := by
    intro p hp
    simp only [start, List.mem_cons, List.mem_map] at hp
    rcases hp with rfl | ⟨o, ho, rfl⟩
    · simp
    · exact ⟨rfl, fun _ => h3 o ho, fun h => by cases h⟩
  constructor
  · simpa [start, Function.comp_def] using h1
  · exact fun p hp hm => ⟨(hf p hp).2.1 hm, (hf p hp).1⟩
  · exact fun _ => ⟨rfl, fun e he => (nomatch he)⟩
  · exact fun _ p hp hm => ⟨(hf p hp).2.2 hm, rfl, rfl⟩
  · exact fun _ p hp => (hf p hp).1
  · exact fun _ h => (nomatch h)
  · exact fun _ h => absurd rfl h
  · exact fun h => (nomatch h)
  · exact fun _ l hl => (nomatch hl)

theorem inv_die {cfg : Cfg} {quiet : Prop} {s : State} (h : Inv cfg quiet s) (k : Proc → Bool) : Inv cfg quiet (s.die cfg k) := by
  have hsub : ∀ p, p ∈ (s.die cfg k).procs → p ∈ s.procs ∧ k p = false := by
    intro p hp
    simpa [State.die] using hp
  constructor
  · exact h.nodup.sublist (List.Sublist.map _ List.filter_sublist)
  · exact fun p hp => h.foreign p (hsub p hp).1
  · intro hs
    refine ⟨(h.early hs).1, fun e he => ?_⟩
    simp only [State.die, List.mem_append, List.mem_map] at he
    rcases he with he | ⟨p, -, rfl⟩
    · exact (h.early hs).2 e he
    · exact ⟨_, rfl⟩
  · intro hs p hp hm
    obtain ⟨hp1, hk⟩ := hsub p hp
    obtain ⟨a, b, c⟩ := h.alone hs p hp1 hm
    refine ⟨a, ?_, c⟩
    simp only [State.die, b, List.nil_append, List.map_eq_nil_iff, List.filter_eq_nil_iff, List.mem_filter, Bool.or_eq_true, beq_iff_eq, not_or,
      Bool.not_eq_true]
    rintro q ⟨hq, hkq⟩
    refine ⟨h.untouched hs q hq, fun hqm => ?_⟩
    have : q = p := List.inj_on_of_nodup_map h.nodup hq hp1 (hqm.trans a.symm)
    rw [this, hk] at hkq
    cases hkq
  · exact fun hs p hp => h.untouched hs p (hsub p hp).1
  · exact fun hq hs p hp => h.all hq hs p (hsub p hp).1
  · exact fun hq hs p hp => h.group hq hs p (hsub p hp).1
  · exact fun he => ⟨(h.ended he).1, fun p hp => (h.ended he).2 p (hsub p hp).1⟩
  · exact h.log

theorem inv_acts {cfg : Cfg} {quiet : Prop} (as : List Act) : ∀ {s : State}, Inv cfg quiet s → Inv cfg quiet (as.foldl (State.act cfg) s) := by
  induction as with
  | nil => exact fun h => h
  | cons a as ih =>
    intro s h
    refine ih ?_
    cases a <;> first | exact inv_die h _ | exact h

theorem step_finished {C : Type} (c : Monitor.Cfg C) (m : Monitor.State) (e : Monitor.Stop C) (h : m.finished = true) :
    (Monitor.step c m e).1.finished = true := by
  unfold Monitor.step
  rw [if_pos h]
  exact h

theorem find_mem {s : State} {p : Nat} {q : Proc} (h : (s.procs.find? fun q => q.pid == p) = some q) : q ∈ s.procs ∧ q.pid = p :=
  ⟨List.mem_of_find?_eq_some h, by simpa using List.find?_some h⟩

theorem not_taken {s : State} {c : Nat} (h : s.taken c = false) : c ∉ s.procs.map (·.pid) := by
  simp only [State.taken, Bool.or_eq_false_iff, List.any_eq_false, beq_iff_eq] at h
  simp only [List.mem_map, not_exists, not_and]
  exact h.1

theorem inv_step {cfg : Cfg} {quiet : Prop} {s : State} (h : Inv cfg quiet s) (e : Event)
    (hm : ∀ name ∈ movers, ¬ Possible cfg.policy name)
    (hq : quiet → Hides e → (∀ n, 0 < n → room cfg n = false)) : Inv cfg quiet (step cfg s e) := by
  cases e with
  | enter =>
    simp only [step]
    split_ifs with hs
    · have hs' : s.stage ≠ .traced := by rw [hs]; decide
      have hmem : ∀ p, p ∈ (s.procs.map fun p => if p.pid = cfg.main ∧ p.mine then { p with group := cfg.main } else p) →
          ∃ q ∈ s.procs, p.pid = q.pid ∧ p.traced = q.traced ∧ p.mine = q.mine ∧ (q.mine = false → p = q) ∧
            (q.mine = true → q.pid = cfg.main → p.group = cfg.main) := by
        intro p hp
        obtain ⟨q, hq, rfl⟩ := List.mem_map.1 hp
        refine ⟨q, hq, ?_⟩
        split_ifs with hc
        · exact ⟨rfl, rfl, rfl, fun h => by simp [h] at hc, fun _ _ => rfl⟩
        · exact ⟨rfl, rfl, rfl, fun _ => rfl, fun h1 h2 => absurd ⟨h2, h1⟩ hc⟩
      constructor
      · have : ((s.procs.map fun p => if p.pid = cfg.main ∧ p.mine then { p with group := cfg.main } else p).map (·.pid)) = s.procs.map (·.pid) := by
          rw [List.map_map]
          refine List.map_congr_left fun p _ => ?_
          simp only [Function.comp]
          split_ifs <;> rfl
        simpa [this] using h.nodup
      · intro p hp hmine
        obtain ⟨q, hq, a, b, c, d, -⟩ := hmem p hp
        rw [d (c ▸ hmine)]
        exact h.foreign q hq (c ▸ hmine)
      · exact fun _ => h.early hs'
      · intro _ p hp hmine
        obtain ⟨q, hq, a, b, c, -⟩ := hmem p hp
        rw [a]
        exact h.alone hs' q hq (c ▸ hmine)
      · intro _ p hp
        obtain ⟨q, hq, a, b, -⟩ := hmem p hp
        rw [b]
        exact h.untouched hs' q hq
      · exact fun _ h => (nomatch h)
      · intro _ _ p hp hmine
        obtain ⟨q, hq, a, b, c, d, e⟩ := hmem p hp
        exact e (c ▸ hmine) (h.alone hs' q hq (c ▸ hmine)).1
      · intro he
        refine ⟨(h.ended he).1, fun p hp => ?_⟩
        obtain ⟨q, hq, a, b, -⟩ := hmem p hp
        rw [b]
        exact h.untouched hs' q hq
      · exact h.log
    · exact h
  | traceme =>
    simp only [step]
    split_ifs with hs
    · have hs' : s.stage ≠ .traced := by rw [hs]; decide
      have hs2 : s.stage ≠ .forked := by rw [hs]; decide
      have hmem : ∀ p, p ∈ (s.procs.map fun p => if p.pid = cfg.main ∧ p.mine then { p with traced := true } else p) →
          ∃ q ∈ s.procs, p.pid = q.pid ∧ p.group = q.group ∧ p.mine = q.mine ∧ (q.mine = false → p = q) ∧
            (q.mine = true → q.pid = cfg.main → p.traced = true) := by
        intro p hp
        obtain ⟨q, hq, rfl⟩ := List.mem_map.1 hp
        refine ⟨q, hq, ?_⟩
        split_ifs with hc
        · exact ⟨rfl, rfl, rfl, fun h => by simp [h] at hc, fun _ _ => rfl⟩
        · exact ⟨rfl, rfl, rfl, fun _ => rfl, fun h1 h2 => absurd ⟨h2, h1⟩ hc⟩
      constructor
      · have : ((s.procs.map fun p => if p.pid = cfg.main ∧ p.mine then { p with traced := true } else p).map (·.pid)) = s.procs.map (·.pid) := by
          rw [List.map_map]
          refine List.map_congr_left fun p _ => ?_
          simp only [Function.comp]
          split_ifs <;> rfl
        simpa [this] using h.nodup
      · intro p hp hmine
        obtain ⟨q, hq, a, b, c, d, -⟩ := hmem p hp
        rw [d (c ▸ hmine)]
        exact h.foreign q hq (c ▸ hmine)
      · exact fun hn => absurd rfl hn
      · exact fun hn => absurd rfl hn
      · exact fun hn => absurd rfl hn
      · intro _ _ p hp hmine
        obtain ⟨q, hq, a, b, c, d, e⟩ := hmem p hp
        exact e (c ▸ hmine) (h.alone hs' q hq (c ▸ hmine)).1
      · intro hg _ p hp hmine
        obtain ⟨q, hq, a, b, c, d, e⟩ := hmem p hp
        rw [b]
        exact h.group hg hs2 q hq (c ▸ hmine)
      · intro he
        refine ⟨(h.ended he).1, fun p hp => ?_⟩
        obtain ⟨q, hq, a, b, c, d, -⟩ := hmem p hp
        cases hqm : q.mine with
        | true =>
          have := (h.alone hs' q hq hqm).2.2
          rw [(h.ended he).1] at this
          cases this
        | false =>
          rw [d hqm]
          exact h.untouched hs' q hq
      · exact h.log
    · exact h
  | birth p c name f st count =>
    simp only [step]
    split
    · exact h
    · rename_i q hfind
      obtain ⟨hqm, hqp⟩ := find_mem hfind
      split
      · rename_i hc
        obtain ⟨c1, c2, c3, c4, c5, c6, c7⟩ := hc
        have hst : s.stage = .traced := by
          by_contra hn
          rw [(h.early hn).1] at c2
          cases c2
        have hposs : cfg.seccomp = true ∨ quiet → Possible cfg.policy name := fun hg =>
          executes_possible c5 (hg.imp id fun hq' => h.all hq' hst q hqm c1)
        have hvis : quiet → f.untraced = false := by
          intro hq'
          by_contra hu
          have := hq hq' ⟨p, c, name, f, st, count, rfl, by simpa using hu⟩ count c6
          rw [this] at c7
          cases c7
        constructor
        · exact List.nodup_cons.2 ⟨not_taken c3, h.nodup⟩
        · intro r hr hrm
          rcases List.mem_cons.1 hr with rfl | hr
          · cases hrm
          · exact h.foreign r hr hrm
        · exact fun hn => absurd hst hn
        · exact fun hn => absurd hst hn
        · exact fun hn => absurd hst hn
        · intro hq' _ r hr hrm
          rcases List.mem_cons.1 hr with rfl | hr
          · simp [h.all hq' hst q hqm c1, hvis hq']
          · exact h.all hq' hst r hr hrm
        · intro hg hs r hr hrm
          rcases List.mem_cons.1 hr with rfl | hr
          · exact h.group hg hs q hqm c1
          · exact h.group hg hs r hr hrm
        · intro he
          refine ⟨(h.ended he).1, fun r hr => ?_⟩
          rcases List.mem_cons.1 hr with rfl | hr
          · simp [(h.ended he).2 q hqm]
          · exact (h.ended he).2 r hr
        · intro hg l hl
          rcases List.mem_cons.1 hl with rfl | hl
          · exact hposs hg
          · exact h.log hg l hl
      · exact h
  | leave p g name st =>
    simp only [step]
    split
    · exact h
    · rename_i q hfind
      obtain ⟨hqm, hqp⟩ := find_mem hfind
      split_ifs with hc
      · obtain ⟨c1, c2, c3, c4⟩ := hc
        have hst : s.stage = .traced := by
          by_contra hn
          rw [(h.early hn).1] at c2
          cases c2
        have hno : ¬ (cfg.seccomp = true ∨ quiet) := fun hg =>
          hm name c3 (executes_possible c4 (hg.imp id fun hq' => h.all hq' hst q hqm c1))
        have hmem : ∀ r, r ∈ (s.procs.map fun r => if r.pid = p then { r with group := g } else r) →
            ∃ q ∈ s.procs, r.pid = q.pid ∧ r.traced = q.traced ∧ r.mine = q.mine ∧ (q.mine = false → r = q) := by
          intro r hr
          obtain ⟨r', hr', rfl⟩ := List.mem_map.1 hr
          refine ⟨r', hr', ?_⟩
          split_ifs with hp
          · have : r' = q := List.inj_on_of_nodup_map h.nodup hr' hqm (hp.trans hqp.symm)
            exact ⟨rfl, rfl, rfl, fun h => by rw [this, c1] at h; cases h⟩
          · exact ⟨rfl, rfl, rfl, fun _ => rfl⟩
        constructor
        · have : ((s.procs.map fun r => if r.pid = p then { r with group := g } else r).map (·.pid)) = s.procs.map (·.pid) := by
            rw [List.map_map]
            refine List.map_congr_left fun p _ => ?_
            simp only [Function.comp]
            split_ifs <;> rfl
          simpa [this] using h.nodup
        · intro r hr hrm
          obtain ⟨q', hq', a, b, c, d⟩ := hmem r hr
          rw [d (c ▸ hrm)]
          exact h.foreign q' hq' (c ▸ hrm)
        · exact fun hn => absurd hst hn
        · exact fun hn => absurd hst hn
        · exact fun hn => absurd hst hn
        · intro hq' _ r hr hrm
          obtain ⟨q', hq'', a, b, c, d⟩ := hmem r hr
          rw [b]
          exact h.all hq' hst q' hq'' (c ▸ hrm)
        · exact fun hg => absurd hg hno
        · intro he
          refine ⟨(h.ended he).1, fun r hr => ?_⟩
          obtain ⟨q', hq', a, b, -⟩ := hmem r hr
          rw [b]
          exact (h.ended he).2 q' hq'
        · exact fun hg => absurd hg hno
      · exact h
  | call p name st =>
    simp only [step]
    split
    · exact h
    · rename_i q hfind
      obtain ⟨hqm, hqp⟩ := find_mem hfind
      split_ifs with hc
      · obtain ⟨c1, c2, c3, c4, c5⟩ := hc
        have hst : s.stage = .traced := by
          by_contra hn
          rw [(h.early hn).1] at c2
          cases c2
        refine ⟨h.nodup, h.foreign, h.early, h.alone, h.untouched, h.all, h.group, h.ended, fun hg l hl => ?_⟩
        rcases List.mem_cons.1 hl with rfl | hl
        · exact executes_possible c5 (hg.imp id fun hq' => h.all hq' hst q hqm c1)
        · exact h.log hg l hl
      · exact h
  | exit p => exact inv_die h _
  | foreign p g =>
    simp only [step]
    split_ifs with hc
    · obtain ⟨c1, c2⟩ := hc
      have hnew : ∀ r, r ∈ (⟨p, g, false, false⟩ :: s.procs : List Proc) → r.mine = true → r ∈ s.procs := by
        intro r hr hrm
        rcases List.mem_cons.1 hr with rfl | hr
        · cases hrm
        · exact hr
      have hold : ∀ r, r ∈ (⟨p, g, false, false⟩ :: s.procs : List Proc) → r.traced = true → r ∈ s.procs := by
        intro r hr hrm
        rcases List.mem_cons.1 hr with rfl | hr
        · cases hrm
        · exact hr
      constructor
      · exact List.nodup_cons.2 ⟨not_taken c1, h.nodup⟩
      · intro r hr hrm
        rcases List.mem_cons.1 hr with rfl | hr
        · exact ⟨c2, rfl⟩
        · exact h.foreign r hr hrm
      · exact h.early
      · exact fun hs r hr hrm => h.alone hs r (hnew r hr hrm) hrm
      · intro hs r hr
        rcases List.mem_cons.1 hr with rfl | hr
        · rfl
        · exact h.untouched hs r hr
      · exact fun hq' hs r hr hrm => h.all hq' hs r (hnew r hr hrm) hrm
      · exact fun hg hs r hr hrm => h.group hg hs r (hnew r hr hrm) hrm
      · intro he
        refine ⟨(h.ended he).1, fun r hr => ?_⟩
        rcases List.mem_cons.1 hr with rfl | hr
        · rfl
        · exact (h.ended he).2 r hr
      · exact h.log
    · exact h
  | killpg => exact inv_die h _
  | see i =>
    simp only [step]
    split
    · exact h
    · rename_i e hi
      refine inv_acts _ ?_
      have hmem : e ∈ s.pending := List.mem_of_getElem? hi
      have hsub : ∀ x ∈ s.pending.eraseIdx i, x ∈ s.pending := fun x hx => List.mem_of_mem_eraseIdx hx
      refine ⟨h.nodup, h.foreign, ?_, ?_, h.untouched, h.all, h.group, ?_, h.log⟩
      · intro hs
        obtain ⟨a, b⟩ := h.early hs
        refine ⟨?_, fun x hx => b x (hsub x hx)⟩
        obtain ⟨q, rfl⟩ := b e hmem
        simp only [Monitor.step]
        split
        · exact a
        · rw [if_pos (.inl a)]
          exact a
      · intro hs p hp hpm
        have := (h.alone hs p hp hpm).2.1
        rw [this] at hmem
        cases hmem
      · exact fun he => ⟨step_finished _ _ _ (h.ended he).1, (h.ended he).2⟩
  | finish =>
    simp only [step]
    split_ifs with hf
    · have hd := inv_die h (·.traced)
      refine ⟨hd.nodup, hd.foreign, hd.early, hd.alone, hd.untouched, hd.all, hd.group, fun _ => ⟨hf, fun p hp => ?_⟩, hd.log⟩
      simpa [State.die] using (List.mem_filter.1 hp).2
    · exact h

theorem inv_run {cfg : Cfg} {quiet : Prop} (hm : ∀ name ∈ movers, ¬ Possible cfg.policy name) (es : List Event)
    (hq : quiet → ∀ e ∈ es, Hides e → (∀ n, 0 < n → room cfg n = false)) :
    ∀ {s : State}, Inv cfg quiet s → Inv cfg quiet (run cfg s es) := by
  induction es with
  | nil => exact fun h => h
  | cons e es ih =>
    intro s h
    exact ih (fun q e' he' => hq q e' (List.mem_cons_of_mem _ he')) (inv_step h e hm (fun q => hq q e List.mem_cons_self))

theorem stage_step {cfg : Cfg} (s : State) (e : Event) : s.stage ≠ .forked → (step cfg s e).stage ≠ .forked := by
  intro h
  have hact : ∀ (as : List Act) (s : State), (as.foldl (State.act cfg) s).stage = s.stage := by
    intro as
    induction as with
    | nil => exact fun _ => rfl
    | cons a as ih => intro s; rw [List.foldl_cons, ih]; cases a <;> rfl
  cases e <;> simp only [step]
  case see i =>
    split
    · exact h
    · rw [hact]; exact h
  all_goals first
    | exact h
    | (repeat' split) <;> first | exact h | (intro hc; cases hc)

theorem stage_run {cfg : Cfg} (es : List Event) : ∀ s : State, .enter ∈ es → (run cfg s es).stage ≠ .forked := by
  have keep : ∀ (es : List Event) (s : State), s.stage ≠ .forked → (run cfg s es).stage ≠ .forked := by
    intro es
    induction es with
    | nil => exact fun _ h => h
    | cons e es ih => exact fun s h => ih _ (stage_step s e h)
  induction es with
  | nil => exact fun _ h => (nomatch h)
  | cons e es ih =>
    intro s h
    rcases List.mem_cons.1 h with rfl | h
    · refine keep es _ ?_
      by_cases hs : s.stage = .forked
      · show (step cfg s .enter).stage ≠ _
        simp [step, hs]
      · exact stage_step s _ hs
    · exact ih _ h

/-! ## One process -/

/-- Nobody has room for another process. -/
theorem only_main {cfg : Cfg} (hr : ∀ n, 0 < n → room cfg n = false) (es : List Event) : ∀ {s : State},
    (∀ p ∈ s.procs, p.mine = true → p.pid = cfg.main) → ∀ p ∈ (run cfg s es).procs, p.mine = true → p.pid = cfg.main := by
  induction es with
  | nil => exact fun h => h
  | cons e es ih =>
    intro s h
    refine ih (s := step cfg s e) ?_
    have hdie : ∀ (s : State) k, (∀ p ∈ s.procs, p.mine = true → p.pid = cfg.main) → ∀ p ∈ (s.die cfg k).procs, p.mine = true → p.pid = cfg.main :=
      fun s k h p hp => h p (List.mem_filter.1 hp).1
    have hact : ∀ (as : List Act) (s : State), (∀ p ∈ s.procs, p.mine = true → p.pid = cfg.main) →
        ∀ p ∈ (as.foldl (State.act cfg) s).procs, p.mine = true → p.pid = cfg.main := by
      intro as
      induction as with
      | nil => exact fun _ h => h
      | cons a as ih =>
        intro s h
        refine ih _ ?_
        cases a <;> first | exact hdie _ _ h | exact h
    cases e <;> simp only [step]
    case enter =>
      split
      · intro p hp
        obtain ⟨q, hq, rfl⟩ := List.mem_map.1 hp
        have := h q hq
        split_ifs <;> exact this
      · exact h
    case traceme =>
      split
      · intro p hp
        obtain ⟨q, hq, rfl⟩ := List.mem_map.1 hp
        have := h q hq
        split_ifs <;> exact this
      · exact h
    case birth =>
      split
      · exact h
      · split
        · rename_i hc
          rw [hr _ hc.2.2.2.2.2.1] at hc
          simp at hc
        · exact h
    case leave =>
      split
      · exact h
      · split
        · intro p hp
          obtain ⟨q, hq, rfl⟩ := List.mem_map.1 hp
          have := h q hq
          split_ifs <;> exact this
        · exact h
    case call =>
      split
      · exact h
      · split <;> exact h
    case exit => exact hdie _ _ h
    case foreign =>
      split
      · intro p hp hm
        rcases List.mem_cons.1 hp with rfl | hp
        · cases hm
        · exact h p hp hm
      · exact h
    case killpg => exact hdie _ _ h
    case see =>
      split
      · exact h
      · exact hact _ _ h
    case finish =>
      split
      · exact hdie _ _ h
      · exact h

/-! ## The property -/

theorem movers_no (cmds : List Path.Str) (x : String) (l : List (String × Handler)) (hx : (x, l) ∈ executors cmds) :
    ∀ name ∈ movers, ¬ Possible (base ++ l) name := by
  intro name hn
  refine C63_escape cmds x l hx name ?_
  simp only [movers, List.mem_cons, List.not_mem_nil, or_false] at hn
  rcases hn with rfl | rfl <;> decide +kernel

/-- **C113**: from its first act on, the processes of a submission in any language are exactly those in its group: none leaves it,
whatever they do, and no other process is in it. Without the in-kernel filter this is so as long as no process nobody traces is made. -/
theorem C113_group (cmds : List Path.Str) (x : String) (l : List (String × Handler)) (hx : (x, l) ∈ executors cmds) (cfg : Cfg)
    (hp : cfg.policy = base ++ l) (others : List (Nat × Nat)) (hs : Sane cfg others) (es : List Event)
    (hh : cfg.seccomp = true ∨ ∀ e ∈ es, ¬ Hides e) (he : .enter ∈ es) :
    ∀ p ∈ (run cfg (start cfg others) es).procs, p.mine = true ↔ p.group = cfg.main := by
  have hg := stage_run (cfg := cfg) es (start cfg others) he
  have hi : Inv cfg (∀ e ∈ es, ¬ Hides e) (run cfg (start cfg others) es) :=
    inv_run (by rw [hp]; exact movers_no cmds x l hx) es (fun q e he hd => absurd hd (q e he)) (inv_start cfg _ others hs)
  intro p hpm
  refine ⟨hi.group hh hg p hpm, fun hgr => ?_⟩
  by_contra hn
  exact (hi.foreign p hpm (by simpa using hn)).1 hgr

/-- **C113**: so killing the group, which is how the judge enforces its limits, ends everything the submission has started and hits
nothing else. -/
theorem C113_killed (cmds : List Path.Str) (x : String) (l : List (String × Handler)) (hx : (x, l) ∈ executors cmds) (cfg : Cfg)
    (hp : cfg.policy = base ++ l) (others : List (Nat × Nat)) (hs : Sane cfg others) (es : List Event)
    (hh : cfg.seccomp = true ∨ ∀ e ∈ es, ¬ Hides e) (he : .enter ∈ es) :
    (run cfg (start cfg others) (es ++ [.killpg])).procs = (run cfg (start cfg others) es).procs.filter fun p => !p.mine := by
  have h := C113_group cmds x l hx cfg hp others hs es hh he
  rw [run, List.foldl_append]
  show (State.killpg cfg (run cfg (start cfg others) es)).procs = _
  refine List.filter_congr fun p hpm => ?_
  have := h p hpm
  cases hm : p.mine
  · simp [hm] at this; simpa using this
  · simp [hm] at this; simpa using this

/-- **C113**: whether traced or not, under the in-kernel filter no process of a submission ever executes a call that its policy refuses;
without the filter this is so as long as no process nobody traces is made. -/
theorem C113_checked (cmds : List Path.Str) (x : String) (l : List (String × Handler)) (hx : (x, l) ∈ executors cmds) (cfg : Cfg)
    (hp : cfg.policy = base ++ l) (others : List (Nat × Nat)) (hs : Sane cfg others) (es : List Event)
    (hh : cfg.seccomp = true ∨ ∀ e ∈ es, ¬ Hides e) :
    ∀ call ∈ (run cfg (start cfg others) es).log, Possible (base ++ l) call.2 := by
  have hi : Inv cfg (∀ e ∈ es, ¬ Hides e) (run cfg (start cfg others) es) :=
    inv_run (by rw [hp]; exact movers_no cmds x l hx) es (fun q e he hd => absurd hd (q e he)) (inv_start cfg _ others hs)
  rw [← hp]
  exact hi.log hh

theorem over_of {cfg : Cfg} {quiet : Prop} {s : State} (hi : Inv cfg quiet s) (hq : quiet) (he : s.ended = true) : Over s := by
  intro p hpm
  by_contra hn
  have hmine : p.mine = true := by simpa using hn
  by_cases hst : s.stage = .traced
  · have := hi.all hq hst p hpm hmine
    rw [(hi.ended he).2 p hpm] at this
    cases this
  · have := (hi.alone hst p hpm hmine).2.2
    rw [(hi.ended he).1] at this
    cases this

/-- **C113**, in part: when the judge has done with a program, nothing of it is left, unless it made a process nobody traces.
(Missing: such processes, see `C113_survivor_fails`.) -/
theorem C113_over_partial (cmds : List Path.Str) (x : String) (l : List (String × Handler)) (hx : (x, l) ∈ executors cmds) (cfg : Cfg)
    (hp : cfg.policy = base ++ l) (others : List (Nat × Nat)) (hs : Sane cfg others) (es : List Event) (hh : ∀ e ∈ es, ¬ Hides e)
    (he : (run cfg (start cfg others) es).ended = true) : Over (run cfg (start cfg others) es) := by
  have hi : Inv cfg (∀ e ∈ es, ¬ Hides e) (run cfg (start cfg others) es) :=
    inv_run (by rw [hp]; exact movers_no cmds x l hx) es (fun q e he hd => absurd hd (q e he)) (inv_start cfg _ others hs)
  exact over_of hi hh he

theorem no_room (cfg : Cfg) (h : cfg.nproc = 0) (hr : cfg.privileged = false) : ∀ n, 0 < n → room cfg n = false := by
  intro n hn
  simp only [room, hr, h, Bool.false_or, Bool.or_eq_false_iff, decide_eq_false_iff_not]
  omega

/-- **C113**: in the languages with a limit on processes the program is one process all the time, and it is gone when the judge has done
with it, whatever it did. -/
theorem C113_single (cmds : List Path.Str) (x : String) (l : List (String × Handler)) (hx : (x, l) ∈ executors cmds) (cfg : Cfg)
    (hp : cfg.policy = base ++ l) (hn : cfg.nproc = nprocOf x) (h0 : nprocOf x = 0) (hr : cfg.privileged = false)
    (others : List (Nat × Nat)) (hs : Sane cfg others) (es : List Event) :
    (∀ p ∈ (run cfg (start cfg others) es).procs, p.mine = true → p.pid = cfg.main) ∧
    ((run cfg (start cfg others) es).ended = true → Over (run cfg (start cfg others) es)) := by
  have hroom := no_room cfg (hn.trans h0) hr
  constructor
  · refine only_main hroom es ?_
    intro p hpm hmine
    simp only [start, List.mem_cons, List.mem_map] at hpm
    rcases hpm with rfl | ⟨o, -, rfl⟩
    · rfl
    · cases hmine
  · have hi : Inv cfg True (run cfg (start cfg others) es) :=
      inv_run (by rw [hp]; exact movers_no cmds x l hx) es (fun _ _ _ _ => hroom) (inv_start cfg _ others hs)
    exact over_of hi trivial

/-- The languages without such a limit. -/
theorem C113_languages (cmds : List Path.Str) (x : String) (l : List (String × Handler)) (_hx : (x, l) ∈ executors cmds) :
    nprocOf x = 0 ∨ nprocOf x = -1 ∧ x ∈ ["BASH", "COFFEE", "DART", "GO", "GROOVY", "JAVA10", "JAVA11", "JAVA15", "JAVA8", "JAVA9", "KOTLIN",
      "MONOCS", "MONOFS", "MONOVB", "RUBY2", "SCALA", "TCL", "V8JS"] := by
  unfold nprocOf
  split
  · rename_i h
    right
    refine ⟨rfl, ?_⟩
    simp only [List.mem_cons, List.not_mem_nil, or_false] at h ⊢
    tauto
  · exact .inl rfl

/-! ## Where it fails -/

theorem clone_known (cmds : List Path.Str) (x : String) (l : List (String × Handler)) (hx : (x, l) ∈ executors cmds) :
    handler (base ++ l) "clone" = some (.std .allow) := by
  have h1 : (idOf "clone").isSome = true := C63_names cmds x l hx ("clone", .std .allow) (List.mem_append_left _ (by decide +kernel))
  obtain ⟨id, hid⟩ := Option.isSome_iff_exists.1 h1
  unfold handler
  have h2 := ((C63_effective (base ++ l) "clone" id hid).1 (.std .allow)).2 (C63_clone_fails cmds x l hx).1
  rw [hid, Option.bind_some, h2]

theorem clone_runs (cmds : List Path.Str) (x : String) (l : List (String × Handler)) (hx : (x, l) ∈ executors cmds) (cfg : Cfg)
    (hp : cfg.policy = base ++ l) (t : Bool) (st : Isolate.Stop) : executes cfg t "clone" st = true := by
  unfold executes
  rw [hp, clone_known cmds x l hx]
  cases t <;> simp [Handler.run, Isolate.run]

theorem nproc_free {x : String} (h0 : nprocOf x ≠ 0) : nprocOf x = -1 := by
  unfold nprocOf at h0 ⊢
  split
  · rfl
  · rename_i h; rw [if_neg h] at h0; exact absurd rfl h0

/-- A run of a program with number 7 under a judge in group 1. -/
def conf (x : String) (p : List (String × Handler)) (seccomp : Bool) : Cfg := ⟨p, seccomp, 7, 1, nprocOf x, false⟩

theorem conf_is (x : String) (p : List (String × Handler)) (seccomp : Bool) : (conf x p seccomp).policy = p ∧ (conf x p seccomp).main = 7 ∧
    (conf x p seccomp).judge = 1 ∧ (conf x p seccomp).nproc = nprocOf x ∧ (conf x p seccomp).seccomp = seccomp := ⟨rfl, rfl, rfl, rfl, rfl⟩

theorem run_cons (cfg : Cfg) (s : State) (e : Event) (es : List Event) : run cfg s (e :: es) = run cfg (step cfg s e) es := rfl

theorem birth_step {cfg : Cfg} {s : State} {p c : Nat} {name : String} {f : Flags} {st : Isolate.Stop} {n : Nat} {q : Proc}
    (h1 : (s.procs.find? fun q => q.pid == p) = some q) (h2 : q.mine = true) (h3 : s.mon.first = false) (h4 : s.taken c = false)
    (h5 : name ∈ makers) (h6 : executes cfg q.traced name st = true) (h7 : 0 < n) (h8 : room cfg n = true) :
    step cfg s (.birth p c name f st n) =
      { s with procs := ⟨c, q.group, q.traced && !f.untraced, true⟩ :: s.procs,
               pending := if q.traced && !f.untraced then s.pending ++ [.trap p (event f c)] else s.pending,
               log := (p, name) :: s.log } := by
  simp only [step, h1]
  exact if_pos ⟨h2, h3, h4, h5, h6, h7, h8⟩

theorem call_step {cfg : Cfg} {s : State} {p : Nat} {name : String} {st : Isolate.Stop} {q : Proc}
    (h1 : (s.procs.find? fun q => q.pid == p) = some q) (h2 : q.mine = true) (h3 : s.mon.first = false)
    (h4 : name ∉ makers) (h5 : name ∉ movers) (h6 : executes cfg q.traced name st = true) :
    step cfg s (.call p name st) = { s with log := (p, name) :: s.log } := by
  simp only [step, h1]
  exact if_pos ⟨h2, h3, h4, h5, h6⟩

theorem leave_step {cfg : Cfg} {s : State} {p g : Nat} {name : String} {st : Isolate.Stop} {q : Proc}
    (h1 : (s.procs.find? fun q => q.pid == p) = some q) (h2 : q.mine = true) (h3 : s.mon.first = false)
    (h5 : name ∈ movers) (h6 : executes cfg q.traced name st = true) :
    step cfg s (.leave p g name st) =
      { s with procs := s.procs.map fun r => if r.pid = p then { r with group := g } else r, log := (p, name) :: s.log } := by
  simp only [step, h1]
  exact if_pos ⟨h2, h3, h5, h6⟩

/-- The program at its start. -/
def begun : State :=
  { stage := .traced, procs := [⟨7, 7, true, true⟩], mon := { first := false, toggle := upd (fun _ => false) 7 false }, pending := [] }

theorem begin_run (cfg : Cfg) (hc : cfg.main = 7) (hj : cfg.judge = 1) :
    run cfg (start cfg []) [.enter, .traceme, .see 0] = begun := by
  simp [run, start, step, hc, hj, Monitor.step, Cfg.loop, State.act, begun]

theorem run_begin (cfg : Cfg) (hc : cfg.main = 7) (hj : cfg.judge = 1) (es : List Event) :
    run cfg (start cfg []) (.enter :: .traceme :: .see 0 :: es) = run cfg begun es := by
  rw [← begin_run cfg hc hj]
  rfl

theorem free_room (cfg : Cfg) (hn : cfg.nproc = -1) (n : Nat) : room cfg n = true := by simp [room, hn]

theorem clone_maker : "clone" ∈ makers := by simp [makers]

theorem first_birth (cfg : Cfg) (hn : ∀ n, room cfg n = true) (f : Flags) (st : Isolate.Stop) (he : ∀ t, executes cfg t "clone" st = true) :
    step cfg begun (.birth 7 8 "clone" f st 1) =
      { begun with procs := [⟨8, 7, !f.untraced, true⟩, ⟨7, 7, true, true⟩],
                   pending := if !f.untraced then [.trap 7 (event f 8)] else [], log := [(7, "clone")] } := by
  rw [birth_step (q := ⟨7, 7, true, true⟩) (by simp [begun]) rfl rfl (by simp [begun, State.taken]) clone_maker (he _) (by decide) (hn _)]
  cases f.untraced <;> simp [begun]

/-- The program makes a process nobody traces and ends. -/
def lurking (st : Isolate.Stop) : List Event :=
  [.enter, .traceme, .see 0, .birth 7 8 "clone" { untraced := true } st 1, .exit 7, .see 0, .finish]

theorem lurk (cfg : Cfg) (hc : cfg.main = 7) (hj : cfg.judge = 1) (hn : ∀ n, room cfg n = true) (st : Isolate.Stop)
    (he : ∀ t, executes cfg t "clone" st = true) :
    (run cfg (start cfg []) (lurking st)).ended = true ∧ (run cfg (start cfg []) (lurking st)).procs = [⟨8, 7, false, true⟩] := by
  rw [lurking, run_begin cfg hc hj, run_cons, first_birth cfg hn _ st he]
  simp [begun, run, step, Cfg.loop, Monitor.step, State.die, State.act, hc]

/-- In every language without a limit on processes a program can leave one behind that lives on when the judge has done with it: no policy
looks at the flags of `clone`. -/
theorem C113_survivor_fails (cmds : List Path.Str) (x : String) (l : List (String × Handler)) (hx : (x, l) ∈ executors cmds)
    (h0 : nprocOf x ≠ 0) (seccomp : Bool) (st : Isolate.Stop) :
    (run (conf x (base ++ l) seccomp) (start (conf x (base ++ l) seccomp) []) (lurking st)).ended = true ∧
    ¬ Over (run (conf x (base ++ l) seccomp) (start (conf x (base ++ l) seccomp) []) (lurking st)) := by
  obtain ⟨c1, c2, c3, c4, c5⟩ := conf_is x (base ++ l) seccomp
  obtain ⟨h1, h2⟩ := lurk (conf x (base ++ l) seccomp) c2 c3 (free_room _ (c4.trans (nproc_free h0))) st (fun t => clone_runs cmds x l hx _ c1 t st)
  refine ⟨h1, fun ho => ?_⟩
  have := ho ⟨8, 7, false, true⟩ (by rw [h2]; exact List.mem_cons_self)
  cases this

/-- With the privileges of an administrator so it is in every language: the limit on processes does not hold then (a judge does not start as such, C83). -/
theorem C113_privileged_fails (cmds : List Path.Str) (x : String) (l : List (String × Handler)) (hx : (x, l) ∈ executors cmds) (seccomp : Bool)
    (st : Isolate.Stop) (cfg : Cfg) (hc : cfg = { conf x (base ++ l) seccomp with privileged := true }) :
    (run cfg (start cfg []) (lurking st)).ended = true ∧ ¬ Over (run cfg (start cfg []) (lurking st)) := by
  obtain ⟨c1, c2, c3, c4, c5⟩ := conf_is x (base ++ l) seccomp
  obtain ⟨h1, h2⟩ := lurk cfg (by rw [hc]; exact c2) (by rw [hc]; exact c3) (fun n => by simp [room, hc]) st
    (fun t => clone_runs cmds x l hx cfg (by rw [hc]; exact c1) t st)
  refine ⟨h1, fun ho => ?_⟩
  have := ho ⟨8, 7, false, true⟩ (by rw [h2]; exact List.mem_cons_self)
  cases this

/-- A process nobody traces leaves the group, by either call, and uses the network. -/
def escaping (mover : String) (st : Isolate.Stop) : List Event :=
  [.enter, .traceme, .see 0, .birth 7 8 "clone" { untraced := true } st 1, .call 8 "socket" st, .leave 8 8 mover st, .killpg]

theorem escape (cfg : Cfg) (hc : cfg.main = 7) (hj : cfg.judge = 1) (hn : cfg.nproc = -1) (mover : String) (hv : mover ∈ movers) (st : Isolate.Stop)
    (he : ∀ t, executes cfg t "clone" st = true) (h2 : ∀ n, executes cfg false n st = true) :
    (run cfg (start cfg []) (escaping mover st)).procs = [⟨8, 8, false, true⟩] ∧ (8, "socket") ∈ (run cfg (start cfg []) (escaping mover st)).log := by
  rw [escaping, run_begin cfg hc hj, run_cons, first_birth cfg (free_room cfg hn) _ st he, run_cons,
    call_step (q := ⟨8, 7, false, true⟩) (by simp) rfl rfl (by simp [makers]) (by simp [movers]) (h2 _), run_cons,
    leave_step (q := ⟨8, 7, false, true⟩) (by simp) rfl rfl hv (h2 _)]
  simp [begun, run, step, State.killpg, State.die, hc]

/-- Without the in-kernel filter, in every such language: it executes calls that no policy permits and cannot be killed with the
group. -/
theorem C113_escape_fails (cmds : List Path.Str) (x : String) (l : List (String × Handler)) (hx : (x, l) ∈ executors cmds)
    (h0 : nprocOf x ≠ 0) (mover : String) (hv : mover = "setpgid" ∨ mover = "setsid") (st : Isolate.Stop) :
    (∃ call ∈ (run (conf x (base ++ l) false) (start (conf x (base ++ l) false) []) (escaping mover st)).log, ¬ Possible (base ++ l) call.2) ∧
    ¬ Over (run (conf x (base ++ l) false) (start (conf x (base ++ l) false) []) (escaping mover st)) := by
  obtain ⟨c1, c2, c3, c4, c5⟩ := conf_is x (base ++ l) false
  obtain ⟨h1, h2⟩ := escape (conf x (base ++ l) false) c2 c3 (c4.trans (nproc_free h0)) mover (by rcases hv with rfl | rfl <;> simp [movers]) st (fun t => clone_runs cmds x l hx _ c1 t st)
    (fun n => by rw [executes, c5]; rfl)
  refine ⟨⟨_, h2, C63_escape cmds x l hx _ (by decide +kernel)⟩, fun ho => ?_⟩
  have := ho ⟨8, 8, false, true⟩ (by rw [h1]; exact List.mem_cons_self)
  cases this

theorem early_run (cfg : Cfg) (hc : cfg.main = 7) (hj : cfg.judge = 1) :
    (run cfg (start cfg []) [.killpg, .enter, .traceme, .see 0]).procs = [⟨7, 7, true, true⟩] := by
  simp [run, start, step, State.killpg, State.die, hc, hj, State.act, Monitor.step, Cfg.loop]

/-- A program killed before its first act is not killed: it is still in the judge's group. It then runs, in any language. -/
theorem C113_early_fails (cmds : List Path.Str) (x : String) (l : List (String × Handler)) (_hx : (x, l) ∈ executors cmds) (seccomp : Bool) :
    (run (conf x (base ++ l) seccomp) (start (conf x (base ++ l) seccomp) []) [.killpg, .enter, .traceme, .see 0]).procs =
      [⟨7, 7, true, true⟩] :=
  early_run _ (conf_is x (base ++ l) seccomp).2.1 (conf_is x (base ++ l) seccomp).2.2.1

/-- The program makes a process whose end is not announced by `SIGCHLD` and ends. -/
def late (st : Isolate.Stop) : List Event :=
  [.enter, .traceme, .see 0, .birth 7 8 "clone" { sigchld := false } st 1, .see 0, .exit 7, .see 0]

theorem late_run (cfg : Cfg) (hc : cfg.main = 7) (hj : cfg.judge = 1) (hn : cfg.nproc = -1) (st : Isolate.Stop)
    (he : ∀ t, executes cfg t "clone" st = true) :
    (run cfg (start cfg []) (late st)).mon.finished = true ∧ (run cfg (start cfg []) (late st)).procs = [⟨8, 7, true, true⟩] ∧
      (run cfg (start cfg []) (late st ++ [.finish])).procs = [] := by
  have h : late st ++ [.finish] = .enter :: .traceme :: .see 0 :: .birth 7 8 "clone" { sigchld := false } st 1 ::
    [.see 0, .exit 7, .see 0, .finish] := rfl
  rw [h, late]
  refine ⟨?_, ?_, ?_⟩ <;>
  · rw [run_begin cfg hc hj, run_cons, first_birth cfg (free_room cfg hn) _ st he]
    simp [begun, run, step, Cfg.loop, Monitor.step, State.die, State.act, hc, event]

/-- "Children are not permitted to outlive parent" (ptproc.cpp:352) is not what that loop achieves: a process made by `clone` with another
signal than `SIGCHLD` is not in its list, and lives on until the tracing thread ends. -/
theorem C113_late_fails (cmds : List Path.Str) (x : String) (l : List (String × Handler)) (hx : (x, l) ∈ executors cmds)
    (h0 : nprocOf x ≠ 0) (seccomp : Bool) (st : Isolate.Stop) :
    (run (conf x (base ++ l) seccomp) (start (conf x (base ++ l) seccomp) []) (late st)).mon.finished = true ∧
    ¬ Over (run (conf x (base ++ l) seccomp) (start (conf x (base ++ l) seccomp) []) (late st)) ∧
    Over (run (conf x (base ++ l) seccomp) (start (conf x (base ++ l) seccomp) []) (late st ++ [.finish])) := by
  obtain ⟨c1, c2, c3, c4, c5⟩ := conf_is x (base ++ l) seccomp
  obtain ⟨h1, h2, h3⟩ := late_run (conf x (base ++ l) seccomp) c2 c3 (c4.trans (nproc_free h0)) st (fun t => clone_runs cmds x l hx _ c1 t st)
  refine ⟨h1, fun ho => ?_, fun p hp => ?_⟩
  · have := ho ⟨8, 7, true, true⟩ (by rw [h2]; exact List.mem_cons_self)
    cases this
  · rw [h3] at hp
    cases hp

/-- The end of a process is seen before its beginning; its number is given to another process, and the program ends. -/
def stale (st : Isolate.Stop) : List Event :=
  [.enter, .traceme, .see 0, .birth 7 8 "clone" {} st 1, .exit 8, .see 1, .see 0, .foreign 8 3, .exit 7]

theorem stale_run (cfg : Cfg) (hc : cfg.main = 7) (hj : cfg.judge = 1) (hn : cfg.nproc = -1) (st : Isolate.Stop)
    (he : ∀ t, executes cfg t "clone" st = true) :
    (run cfg (start cfg []) (stale st)).procs = [⟨8, 3, false, false⟩] ∧ (run cfg (start cfg []) (stale st ++ [.see 0])).procs = [] := by
  have h : stale st ++ [.see 0] = .enter :: .traceme :: .see 0 :: .birth 7 8 "clone" {} st 1 ::
    [.exit 8, .see 1, .see 0, .foreign 8 3, .exit 7, .see 0] := rfl
  rw [h, stale]
  constructor <;>
  · rw [run_begin cfg hc hj, run_cons, first_birth cfg (free_room cfg hn) _ st he]
    simp [begun, run, step, Cfg.loop, Monitor.step, State.die, State.act, hc, event, State.taken]

/-- What is seen out of order leaves a number in that list for good: when the program ends, a process that has nothing to do with it may be
killed. -/
theorem C113_stale_fails (cmds : List Path.Str) (x : String) (l : List (String × Handler)) (hx : (x, l) ∈ executors cmds)
    (h0 : nprocOf x ≠ 0) (seccomp : Bool) (st : Isolate.Stop) :
    ∃ p ∈ (run (conf x (base ++ l) seccomp) (start (conf x (base ++ l) seccomp) []) (stale st)).procs, p.mine = false ∧
      p ∉ (run (conf x (base ++ l) seccomp) (start (conf x (base ++ l) seccomp) []) (stale st ++ [.see 0])).procs := by
  obtain ⟨c1, c2, c3, c4, c5⟩ := conf_is x (base ++ l) seccomp
  obtain ⟨h1, h2⟩ := stale_run (conf x (base ++ l) seccomp) c2 c3 (c4.trans (nproc_free h0)) st (fun t => clone_runs cmds x l hx _ c1 t st)
  exact ⟨⟨8, 3, false, false⟩, by rw [h1]; exact List.mem_cons_self, rfl, by rw [h2]; simp⟩

/-! ## Cases -/

/-- A shell with a child next to the judge; both are killed, the judge is not. -/
theorem family_case (cfg : Cfg) (hc : cfg.main = 7) (hj : cfg.judge = 1) (hn : cfg.nproc = -1) (st : Isolate.Stop)
    (he : ∀ t, executes cfg t "clone" st = true) :
    (run cfg (start cfg []) [.enter, .traceme, .see 0, .birth 7 8 "clone" {} st 1, .foreign 9 1]).procs =
      [⟨9, 1, false, false⟩, ⟨8, 7, true, true⟩, ⟨7, 7, true, true⟩] := by
  rw [run_begin cfg hc hj, run_cons, first_birth cfg (free_room cfg hn) _ st he]
  simp [begun, run, step, State.taken, hc]

example (cmds : List Path.Str) (l : List (String × Handler)) (hx : ("BASH", l) ∈ executors cmds) (st : Isolate.Stop) :
    (run (conf "BASH" (base ++ l) true) (start (conf "BASH" (base ++ l) true) [])
      ([.enter, .traceme, .see 0, .birth 7 8 "clone" {} st 1, .foreign 9 1] ++ [.killpg])).procs = [⟨9, 1, false, false⟩] := by
  obtain ⟨c1, c2, c3, c4, c5⟩ := conf_is "BASH" (base ++ l) true
  rw [C113_killed cmds "BASH" l hx _ c1 [] (by rw [Sane, c2, c3]; simp) _ (.inl c5) List.mem_cons_self,
    family_case _ c2 c3 (c4.trans (nproc_free (by decide))) st (fun t => clone_runs cmds _ l hx _ c1 t st)]
  rfl

/-- A program in C that has ended. -/
theorem ending_case (cfg : Cfg) (hc : cfg.main = 7) (hj : cfg.judge = 1) :
    (run cfg (start cfg []) [.enter, .traceme, .see 0, .exit 7, .see 0, .finish]).ended = true := by
  rw [run_begin cfg hc hj]
  simp [begun, run, step, Cfg.loop, Monitor.step, State.die, State.act, hc]

example (cmds : List Path.Str) (l : List (String × Handler)) (hx : ("C", l) ∈ executors cmds) :
    Over (run (conf "C" (base ++ l) false) (start (conf "C" (base ++ l) false) []) [.enter, .traceme, .see 0, .exit 7, .see 0, .finish]) := by
  obtain ⟨c1, c2, c3, c4, c5⟩ := conf_is "C" (base ++ l) false
  exact (C113_single cmds "C" l hx _ c1 c4 (by decide) rfl [] (by rw [Sane, c2, c3]; simp) _).2 (ending_case _ c2 c3)

end Verif.Family
