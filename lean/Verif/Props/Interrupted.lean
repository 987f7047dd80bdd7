import Verif.Spec.Interrupted

/-!
# C119: a wait that fails
-/

namespace Verif.Props
open Verif.Monitor Verif.Interrupted

namespace InterruptedL
variable {C : Type}

theorem mrun_finished (cfg : Cfg C) : ∀ (es : List (Stop C)) (m : State), m.finished = true →
    (Monitor.run cfg m es).1 = m ∧ (Monitor.run cfg m es).2.flatten = []
  | [], m, _ => by simp [Monitor.run]
  | e :: es, m, h => by
    have hs : Monitor.step cfg m e = (m, []) := by simp [Monitor.step, h]
    simp [Monitor.run, hs, mrun_finished cfg es m h]

theorem irun_finished (cfg : Cfg C) : ∀ (ws : List (Wait C)) (s : St C), s.base.finished = true → Interrupted.run cfg s ws = (s, [])
  | [], s, _ => rfl
  | w :: ws, s, h => by
    have hs : Interrupted.step cfg s w = (s, []) := by cases w <;> simp [Interrupted.step, h]
    simp [Interrupted.run, hs, irun_finished cfg ws s h]

theorem irun_lost (cfg : Cfg C) : ∀ (ws : List (Wait C)) (s : St C), s.lost = true → Interrupted.run cfg s ws = (s, [])
  | [], s, _ => rfl
  | w :: ws, s, h => by
    have hs : Interrupted.step cfg s w = (s, []) := by cases w <;> simp [Interrupted.step, h]
    simp [Interrupted.run, hs, irun_lost cfg ws s h]

/-- After the first stop a failed wait leaves everything as it was, but for `stray`. -/
theorem failed_step (cfg : Cfg C) (s : St C) (j : Junk) (hl : s.last ≠ none) :
    ∃ t, Interrupted.step cfg s (.failed j) = ({ s with stray := t }, []) ∧
      (t = s.stray ∨ (s.base.finished = false ∧ (∃ e c, s.last = some e ∧ born e = some c) ∧ t = j.npid :: s.stray.filter (· ≠ j.npid))) := by
  obtain ⟨e, he⟩ := Option.ne_none_iff_exists'.mp hl
  by_cases hf : (s.base.finished || s.lost) = true
  · exact ⟨s.stray, by simp only [Interrupted.step, hf, if_true], .inl rfl⟩
  · have hf' : s.base.finished = false := by cases h : s.base.finished <;> simp_all
    cases e with
    | trap p t =>
      cases t with
      | fork c =>
        exact ⟨_, by simp only [Interrupted.step, hf, he, if_false, Bool.false_eq_true],
          .inr ⟨hf', ⟨_, c, he, rfl⟩, rfl⟩⟩
      | vfork c =>
        exact ⟨_, by simp only [Interrupted.step, hf, he, if_false, Bool.false_eq_true],
          .inr ⟨hf', ⟨_, c, he, rfl⟩, rfl⟩⟩
      | _ => exact ⟨s.stray, by simp only [Interrupted.step, hf, he, if_false, Bool.false_eq_true]; rw [← he], .inl rfl⟩
    | _ => exact ⟨s.stray, by simp only [Interrupted.step, hf, he, if_false, Bool.false_eq_true]; rw [← he], .inl rfl⟩

theorem acts_append (a b : List Out) : acts (a ++ b) = acts a ++ acts b := by simp [acts, List.filterMap_append]
theorem acts_map (l : List Act) : acts (l.map .act) = l := by
  simp [acts, List.filterMap_map, Function.comp_def]
theorem acts_stray (l : List Int) : acts (l.map .killStray) = [] := by
  simp [acts, List.filterMap_map, Function.comp_def]

theorem same_acts (cfg : Cfg C) : ∀ (ws : List (Wait C)) (s : St C), s.lost = false → (s.last ≠ none ∨ Begun ws ∨ ws = []) →
    (Interrupted.run cfg s ws).1.base = (Monitor.run cfg s.base (stops ws)).1 ∧
      acts (Interrupted.run cfg s ws).2 = (Monitor.run cfg s.base (stops ws)).2.flatten
  | [], s, _, _ => by simp [Interrupted.run, stops, Monitor.run, acts]
  | .stop e :: ws, s, hl, _ => by
    by_cases hf : s.base.finished = true
    · rw [irun_finished cfg _ s hf]
      have := mrun_finished cfg (stops (.stop e :: ws)) s.base hf
      simp [this, acts]
    · have hf' : s.base.finished = false := by simpa using hf
      have ih := same_acts cfg ws (Interrupted.step cfg s (.stop e)).1 (by simp [Interrupted.step, hf', hl]) (.inl (by simp [Interrupted.step, hf', hl]))
      have hb : (Interrupted.step cfg s (.stop e)).1.base = (Monitor.step cfg s.base e).1 := by simp [Interrupted.step, hf', hl]
      have ho : acts (Interrupted.step cfg s (.stop e)).2 = (Monitor.step cfg s.base e).2 := by
        simp only [Interrupted.step, hf', hl, Bool.or_self, Bool.false_eq_true, if_false]
        rw [acts_append, acts_map]
        split
        · rw [acts_stray, List.nil_append]
        · simp [acts]
      rw [hb] at ih
      simp only [Interrupted.run, stops, Monitor.run, acts_append, ho, List.flatten_cons]
      exact ⟨ih.1, by rw [ih.2]⟩
  | .unsaid p c n :: ws, s, hl, h => by
    by_cases hf : s.base.finished = true
    · rw [irun_finished cfg _ s hf]
      have := mrun_finished cfg (stops (.unsaid p c n :: ws)) s.base hf
      simp [this, acts]
    · have hf' : s.base.finished = false := by simpa using hf
      have ih := same_acts cfg ws (Interrupted.step cfg s (.unsaid p c n)).1 (by simp [Interrupted.step, hf', hl])
        (.inl (by simp [Interrupted.step, hf', hl]))
      have hb : (Interrupted.step cfg s (.unsaid p c n)).1.base = (Monitor.step cfg s.base (.trap p .plain)).1 := by
        simp [Interrupted.step, hf', hl]
      have ho : acts (Interrupted.step cfg s (.unsaid p c n)).2 = (Monitor.step cfg s.base (.trap p .plain)).2 := by
        simp only [Interrupted.step, hf', hl, Bool.or_self, Bool.false_eq_true, if_false]
        rw [acts_map]
      rw [hb] at ih
      simp only [Interrupted.run, stops, Monitor.run, acts_append, ho, List.flatten_cons]
      exact ⟨ih.1, by rw [ih.2]⟩
  | .failed j :: ws, s, hl, h => by
    have hlast : s.last ≠ none := by
      rcases h with h | ⟨_, _, h⟩ | h
      · exact h
      · cases h
      · cases h
    obtain ⟨t, ht, _⟩ := failed_step cfg s j hlast
    have ih := same_acts cfg ws { s with stray := t } hl (.inl hlast)
    simp only [Interrupted.run, ht, stops, List.nil_append]
    exact ih

/-- All strays are children anyway. -/
def Covered (s : St C) : Prop :=
  s.base.finished = false → (∀ n ∈ s.stray, ∃ c ∈ s.base.children, n = (c : Int)) ∧
    ∀ e c, s.last = some e → born e = some c → c ∈ s.base.children

theorem finish_children (cfg : Cfg C) (m : State) (p : Nat) (v : View C) (en : Bool) (n : Option Int) :
    (finish cfg m p v en n).1.children = m.children := by
  simp only [finish]
  split <;> split <;> rfl

theorem sys_children (cfg : Cfg C) (m : State) (p : Nat) (v : View C) : (sysStep cfg m p v).1.children = m.children := by
  simp only [sysStep]
  repeat' split
  all_goals simp [finish_children, State.faultAt, State.register]

theorem step_children (cfg : Cfg C) (m : State) (e : Stop C) (hf : m.finished = false) :
    (∀ c ∈ m.children, (∀ p, e = .gone p → c ≠ p) → c ∈ (Monitor.step cfg m e).1.children) ∧
      (∀ c, born e = some c → c ∈ (Monitor.step cfg m e).1.children) := by
  cases e with
  | gone p =>
    constructor
    · intro c hc h
      have := h p rfl
      simp only [Monitor.step, hf, Bool.false_eq_true, if_false]
      split
      · exact hc
      · simp [hc, this]
    · simp [born]
  | sys p v => simp [Monitor.step, hf, sys_children, born]
  | continued p => simp [Monitor.step, hf, born]
  | signal p n => simp [Monitor.step, hf, born]
  | trap p t =>
    cases t <;> simp [Monitor.step, hf, born]
    all_goals exact fun c hc => (Classical.em _).imp id fun h => ⟨hc, h⟩

theorem covered_stop (cfg : Cfg C) (s : St C) (e : Stop C) (hl : s.lost = false) (hc : Covered s) :
    Covered (Interrupted.step cfg s (.stop e)).1 := by
  by_cases hf : s.base.finished = true
  · simpa [Interrupted.step, hf] using hc
  have hf' : s.base.finished = false := by simpa using hf
  intro _
  obtain ⟨h1, h2⟩ := step_children cfg s.base e hf'
  obtain ⟨c1, _⟩ := hc hf'
  simp only [Interrupted.step, hf', hl, Bool.or_self, Bool.false_eq_true, if_false]
  refine ⟨?_, ?_⟩
  · intro n hn
    have hn' : n ∈ s.stray ∧ ∀ p, e = .gone p → n ≠ (p : Int) := by
      cases e <;> simp_all [erased]
    obtain ⟨c, hcm, rfl⟩ := c1 n hn'.1
    refine ⟨c, h1 c hcm fun p hp => ?_, rfl⟩
    have := hn'.2 p hp
    intro h; exact this (by rw [h])
  · intro e' c he' hb
    simp only [Option.some.injEq] at he'
    subst he'
    exact h2 c hb

theorem no_stray (cfg : Cfg C) (s : St C) (e : Stop C) (hl : s.lost = false) (hc : Covered s) :
    ∀ n, .killStray n ∉ (Interrupted.step cfg s (.stop e)).2 := by
  intro n hn
  by_cases hf : s.base.finished = true
  · simp [Interrupted.step, hf] at hn
  have hf' : s.base.finished = false := by simpa using hf
  obtain ⟨c1, _⟩ := hc hf'
  simp only [Interrupted.step, hf', hl, Bool.or_self, Bool.false_eq_true, if_false, List.mem_append] at hn
  rcases hn with hn | hn
  · split at hn
    · obtain ⟨m, hm, he⟩ := List.mem_map.mp hn
      simp only [List.mem_filter, Bool.not_eq_true', decide_eq_false_iff_not] at hm
      obtain ⟨c, hcm, rfl⟩ := c1 m hm.1
      exact hm.2 (List.mem_map.mpr ⟨c, hcm, rfl⟩)
    · simp at hn
  · obtain ⟨a, _, ha⟩ := List.mem_map.mp hn
    cases ha

theorem run_no_stray (cfg : Cfg C) : ∀ (ws : List (Wait C)) (s : St C), s.lost = false → (s.last ≠ none ∨ Begun ws ∨ ws = []) → Covered s →
    Kept s.last ws → ∀ n, .killStray n ∉ (Interrupted.run cfg s ws).2
  | [], s, _, _, _, _ => by simp [Interrupted.run]
  | .stop e :: ws, s, hl, _, hc, hk => by
    by_cases hf : s.base.finished = true
    · simp [irun_finished cfg _ s hf]
    have hf' : s.base.finished = false := by simpa using hf
    intro n hn
    simp only [Interrupted.run, List.mem_append] at hn
    rcases hn with hn | hn
    · exact no_stray cfg s e hl hc n hn
    · exact run_no_stray cfg ws _ (by simp [Interrupted.step, hf', hl]) (.inl (by simp [Interrupted.step, hf', hl])) (covered_stop cfg s e hl hc)
        (by simpa [Interrupted.step, hf', hl, Kept] using hk) n hn
  | .unsaid _ _ _ :: _, _, _, _, _, hk => hk.elim
  | .failed j :: ws, s, hl, h, hc, hk => by
    have hlast : s.last ≠ none := by
      rcases h with h | ⟨_, _, h⟩ | h
      · exact h
      · cases h
      · cases h
    obtain ⟨t, ht, hor⟩ := failed_step cfg s j hlast
    simp only [Interrupted.run, ht, List.nil_append]
    refine run_no_stray cfg ws _ hl (.inl hlast) ?_ hk.2
    rcases hor with rfl | ⟨hf, ⟨e, c, he, hb⟩, rfl⟩
    · exact hc
    · intro _
      obtain ⟨c1, c2⟩ := hc hf
      refine ⟨?_, c2⟩
      intro n hn
      rcases List.mem_cons.mp hn with rfl | hn
      · exact ⟨c, c2 e c he hb, hk.1 e c he hb⟩
      · exact c1 n (List.mem_filter.mp hn).1

theorem kept_of_apart : ∀ (ws : List (Wait C)) (l : Option (Stop C)), Apart l ws → Kept l ws
  | [], _, _ => trivial
  | .stop e :: ws, _, h => kept_of_apart ws (some e) h
  | .unsaid _ _ _ :: _, _, h => h.elim
  | .failed j :: ws, l, h => ⟨fun e c he hb => absurd hb (by simp [h.1 e he]), kept_of_apart ws l h.2⟩

theorem eq_of_acts (os : List Out) (h : ∀ n, .killStray n ∉ os) : os = (acts os).map .act := by
  induction os with
  | nil => rfl
  | cons o os ih =>
    have ih := ih fun n hn => h n (List.mem_cons_of_mem _ hn)
    cases o with
    | act a =>
      have : acts (.act a :: os) = a :: acts os := by simp [acts]
      rw [this, List.map_cons, ← ih]
    | killStray n => exact absurd (List.mem_cons_self ..) (h n)

end InterruptedL

open InterruptedL

/-- **C119**: if the first wait succeeds, waits that fail later, any number of them and anywhere but directly after the stop of a `fork`, change nothing:
the program sees, the judge is told, and the end is exactly what it is without them. -/
theorem C119_harmless {C : Type} (cfg : Cfg C) (ws : List (Wait C)) (hb : Begun ws) (ha : Apart none ws) :
    (Interrupted.run cfg {} ws).1.base = (Monitor.run cfg {} (stops ws)).1 ∧
      (Interrupted.run cfg {} ws).2 = (Monitor.run cfg {} (stops ws)).2.flatten.map .act := by
  have h := same_acts cfg ws {} rfl (.inr (.inl hb))
  refine ⟨h.1, ?_⟩
  rw [← h.2]
  exact eq_of_acts _ (run_no_stray cfg ws {} rfl (.inr (.inl hb)) (fun _ => ⟨nofun, nofun⟩) (kept_of_apart ws none ha))

/-- **C119**: the same with failures directly after the stop of a `fork`, as long as the variable there, which is not assigned, still has the value of
the last time it was. -/
theorem C119_kept {C : Type} (cfg : Cfg C) (ws : List (Wait C)) (hb : Begun ws) (hk : Kept none ws) :
    (Interrupted.run cfg {} ws).1.base = (Monitor.run cfg {} (stops ws)).1 ∧
      (Interrupted.run cfg {} ws).2 = (Monitor.run cfg {} (stops ws)).2.flatten.map .act := by
  have h := same_acts cfg ws {} rfl (.inr (.inl hb))
  refine ⟨h.1, ?_⟩
  rw [← h.2]
  exact eq_of_acts _ (run_no_stray cfg ws {} rfl (.inr (.inl hb)) (fun _ => ⟨nofun, nofun⟩) hk)

/-- **C119** (partial): whatever the variable holds, all that concerns the program and the verdict is the same. What is missing is that nothing else is
killed: `C119_stray_fails`. -/
theorem C119_program_partial {C : Type} (cfg : Cfg C) (ws : List (Wait C)) (hb : Begun ws) :
    (Interrupted.run cfg {} ws).1.base = (Monitor.run cfg {} (stops ws)).1 ∧
      acts (Interrupted.run cfg {} ws).2 = (Monitor.run cfg {} (stops ws)).2.flatten :=
  same_acts cfg ws {} rfl (.inr (.inl hb))

/-- **C119** fails: a wait that fails directly after the stop of a `fork` can make the judge kill, when the program ends, whatever process the
indeterminate number names, or with -1 all processes it may. -/
theorem C119_stray_fails {C : Type} (cfg : Cfg C) (n : Int) (c : Nat) (hn : n ≠ c) :
    (Interrupted.run cfg {} [.stop (.signal cfg.main 19), .stop (.trap cfg.main (.fork c)), .failed ⟨false, n⟩, .stop (.gone cfg.main)]).2 =
      [.act (.resume cfg.main none none 0), .act (.signalEvent 5), .act (.resume cfg.main none none 0), .killStray n, .act (.killChild c),
       .act (.exited false)] := by
  simp [Interrupted.run, Interrupted.step, Monitor.step, SIGTRAP, hn, erased]

/-- **C119** fails: the same without any failing wait, if a program is killed while it makes a process. -/
theorem C119_killed_fails {C : Type} (cfg : Cfg C) (n : Int) (c : Nat) :
    (Interrupted.run cfg {} [.stop (.signal cfg.main 19), .unsaid cfg.main c n, .stop (.gone cfg.main)]).2 =
      [.act (.resume cfg.main none none 0), .act (.signalEvent 5), .act (.resume cfg.main none none 0), .killStray n, .act (.exited false)] := by
  simp [Interrupted.run, Interrupted.step, Monitor.step, SIGTRAP, erased]

/-- **C119** fails: if the first wait fails, either the end of the program is reported although it has not ended, or it is never looked at again. -/
theorem C119_first_fails {C : Type} (cfg : Cfg C) (j : Junk) (ws : List (Wait C)) :
    (j.ended = true → (Interrupted.run cfg {} (.failed j :: ws)).1.base.finished = true ∧ (Interrupted.run cfg {} (.failed j :: ws)).2 = [.act (.exited false)]) ∧
      (j.ended = false → (Interrupted.run cfg {} (.failed j :: ws)).1.base.finished = false ∧ (Interrupted.run cfg {} (.failed j :: ws)).2 = []) := by
  constructor
  · intro h
    have hs : Interrupted.step cfg ({} : St C) (.failed j) = (({ base := { finished := true } } : St C), [.act (.exited false)]) := by
      simp [Interrupted.step, h]
    simp only [Interrupted.run, hs]
    rw [irun_finished cfg ws _ rfl]
    exact ⟨rfl, rfl⟩
  · intro h
    have hs : Interrupted.step cfg ({} : St C) (.failed j) = (({ base := { first := false }, lost := true } : St C), []) := by
      simp [Interrupted.step, h]
    simp only [Interrupted.run, hs]
    rw [irun_lost cfg ws _ rfl]
    exact ⟨rfl, rfl⟩

/-- A run whose waits fail after a signal, after a call and after a `fork`. -/
def interrupted : List (Wait Unit) :=
  [.stop (.signal 7 19), .failed ⟨true, 0⟩, .stop (.sys 7 { nr := 59 }), .failed ⟨false, 3⟩, .failed ⟨false, 3⟩, .stop (.trap 7 (.fork 8)),
   .stop (.signal 8 19), .failed ⟨false, -1⟩, .stop (.gone 8), .failed ⟨false, -1⟩, .stop (.gone 7)]

example : Begun interrupted ∧ Apart none interrupted :=
  ⟨⟨_, _, rfl⟩, by simp [interrupted, Apart, born]⟩

example : Kept none ([.stop (.signal 7 19), .stop (.trap 7 (.fork 8)), .failed ⟨false, 8⟩, .stop (.gone 8), .stop (.gone 7)] : List (Wait Unit)) ∧
    ¬ Kept none ([.stop (.signal 7 19), .stop (.trap 7 (.fork 8)), .failed ⟨false, -1⟩] : List (Wait Unit)) := by
  refine ⟨⟨fun e c he hb => ?_, trivial⟩, fun h => ?_⟩
  · cases he; cases hb; rfl
  · exact absurd (h.1 _ 8 rfl rfl) (by decide)

end Verif.Props
