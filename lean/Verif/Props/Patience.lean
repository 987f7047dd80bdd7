import Verif.Model.Patience
import Verif.Props.Watchdog
import Mathlib.Tactic.Linarith
import Mathlib.Data.Rat.Floor
import Mathlib.Algebra.Order.Field.Rat

/-! # C99: the judge's patience with its worker -/

namespace Verif.Props
open Verif Patience Judge Worker

/-! ## The shape of what a worker does -/

/-- Messages, and cases each followed by a message. -/
private inductive Closed : List Act → Prop
  | nil : Closed []
  | send (e : Event) {r : List Act} : Closed r → Closed (.send e :: r)
  | case (n : Nat) (e : Event) {r : List Act} : Closed r → Closed (.exec n :: .send e :: r)

private theorem Closed.append {a b : List Act} (ha : Closed a) (hb : Closed b) : Closed (a ++ b) := by
  induction ha with
  | nil => exact hb
  | send e _ ih => exact .send e ih
  | case n e _ ih => exact .case n e ih

/-- The same, with a case at the end that did not finish. -/
private def Open (a : List Act) : Prop := Closed a ∨ ∃ b n, a = b ++ [.exec n] ∧ Closed b

private theorem Open.append {a b : List Act} (ha : Closed a) (hb : Open b) : Open (a ++ b) := by
  rcases hb with hb | ⟨b, n, rfl, hb⟩
  · exact .inl (ha.append hb)
  · exact .inr ⟨a ++ b, n, by simp, ha.append hb⟩

private def CtlOpen (a : List Act) : Ctl → Prop
  | .next s => ∃ b, s.acts = a ++ b ∧ Closed b
  | .stop x => ∃ b, x = a ++ b ∧ Open b

private theorem ctl_trans {a b : List Act} {c : Ctl} (hb : Closed b) (h : CtlOpen (a ++ b) c) : CtlOpen a c := by
  cases c with
  | next s => obtain ⟨x, e, hx⟩ := h; exact ⟨b ++ x, by simp [e], hb.append hx⟩
  | stop s => obtain ⟨x, e, hx⟩ := h; exact ⟨b ++ x, by simp [e], Open.append hb hx⟩

private theorem case_open (w : World) (bn : Option Nat) (cs : List TestCase) (s : St) : CtlOpen s.acts (caseLoop w bn cs s) := by
  induction cs generalizing s with
  | nil => exact ⟨[], by simp, .nil⟩
  | cons c cs ih =>
    rw [caseLoop]
    dsimp only
    split
    · exact ctl_trans (.send _ .nil) (ih _)
    · split
      · exact ⟨_, rfl, .inr ⟨[], _, rfl, .nil⟩⟩
      · split
        · exact ⟨_, rfl, .inl (.case _ _ .nil)⟩
        · exact ctl_trans (.case _ _ .nil) (ih _)

private theorem group_open (w : World) (gs : List (Option Nat × List TestCase)) (s : St) : CtlOpen s.acts (groupLoop w gs s) := by
  induction gs generalizing s with
  | nil => exact ⟨[], by simp, .nil⟩
  | cons g gs ih =>
    obtain ⟨bn, cs⟩ := g
    rw [groupLoop]
    dsimp only
    have h0 : ∃ b, (if truthy bn then { s with acts := s.acts ++ [.send (.batchBegin (bn.getD 0))] } else s).acts = s.acts ++ b ∧ Closed b := by
      split
      · exact ⟨_, rfl, .send _ .nil⟩
      · exact ⟨[], by simp, .nil⟩
    obtain ⟨b, e, hb⟩ := h0
    have h1 := case_open w bn cs (if truthy bn then { s with acts := s.acts ++ [.send (.batchBegin (bn.getD 0))] } else s)
    rw [e] at h1
    replace h1 := ctl_trans hb h1
    split
    · rename_i a ha; rw [ha] at h1; exact h1
    · rename_i s2 h2
      rw [h2] at h1
      obtain ⟨b2, e2, hb2⟩ := h1
      have h3 : ∃ b, (if truthy bn then { s2 with acts := s2.acts ++ [.send (.batchEnd (bn.getD 0))], sc := s2.sc && s2.enabled }
          else s2).acts = s.acts ++ b ∧ Closed b := by
        split
        · exact ⟨b2 ++ [.send (.batchEnd (bn.getD 0))], by simp [e2], hb2.append (.send _ .nil)⟩
        · exact ⟨b2, e2, hb2⟩
      obtain ⟨b3, e3, hb3⟩ := h3
      have h4 := ih (if truthy bn then { s2 with acts := s2.acts ++ [.send (.batchEnd (bn.getD 0))], sc := s2.sc && s2.enabled } else s2)
      rw [e3] at h4
      exact ctl_trans hb3 h4

private theorem grade_open (w : World) (sc : Bool) (b : Build) : ∃ e r, gradeCases w sc b = .send e :: r ∧ Open r := by
  cases b with
  | compileError => exact ⟨_, [], rfl, .inl .nil⟩
  | ok warning pretested items =>
    rw [gradeCases]
    have h := group_open w (groupBy (flatten 0 items)) ⟨(if warning then [.send .compileMessage] else []) ++ [.send (.gradingBegin pretested)], 0, false, sc⟩
    have key : ∀ x, Open x → ∃ e r, ((if warning then [Act.send .compileMessage] else []) ++ [.send (.gradingBegin pretested)]) ++ x = .send e :: r ∧ Open r := by
      intro x hx
      cases warning
      · exact ⟨_, _, rfl, hx⟩
      · exact ⟨_, _, rfl, Open.append (.send _ .nil) hx⟩
    split
    · rename_i a ha
      rw [ha] at h
      obtain ⟨x, e, hx⟩ := h
      rw [e]; exact key x hx
    · rename_i s hs
      rw [hs] at h
      obtain ⟨x, e, hx⟩ := h
      rw [e, List.append_assoc]
      exact key _ (.inl (hx.append (.send _ .nil)))

/-! ## What it sends, in time -/

/-- A worker that finishes: messages and then BYE. -/
private def Whole (L : Rat) (ms : List Msg) (tl : List (Rat × Line)) : Prop :=
  ∃ xs : List (Rat × Msg), ∃ g, tl = xs.map (fun x => (x.1, Line.msg x.2)) ++ [(g, .bye)] ∧ xs.map (·.2) = ms ∧ g ≤ L ∧ ∀ x ∈ xs, x.1 ≤ L

private theorem Whole.cons {L g : Rat} {m : Msg} {ms : List Msg} {tl : List (Rat × Line)} (hg : g ≤ L) (h : Whole L ms tl) :
    Whole L (m :: ms) ((g, .msg m) :: tl) := by
  obtain ⟨xs, g', e, h1, h2, h3⟩ := h
  refine ⟨(g, m) :: xs, g', by simp [e], by simp [h1], h2, ?_⟩
  intro x hx
  rcases List.mem_cons.1 hx with rfl | hx
  · exact hg
  · exact h3 x hx

/-- The worker gets on: no step takes longer than the judge waits, where reading the list of cases and the first of them count together. -/
structure Brisk (L : Rat) (p : Pace) : Prop where
  start : ∃ t, p.start = some t ∧ t ≤ L
  build : ∃ t, p.build = some t ∧ t ≤ L
  cases : ∃ t, p.resolve = some t ∧ 0 ≤ t ∧ t ≤ L ∧ ∀ n, ∃ a b c, p.input n = some a ∧ p.run n = some b ∧ p.check n = some c ∧ t + (a + b + c) ≤ L

private theorem diary_whole {L t : Rat} {p : Pace} {raised : Bool} (h0 : 0 ≤ t) (hL : t ≤ L) (hr : p.resolve = some t)
    (hc : ∀ n, ∃ c, p.case n = some c ∧ t + c ≤ L) (a : List Act) (ha : Open a) (hx : raised = true → ∃ b n, a = b ++ [.exec n] ∧ Closed b)
    (hy : raised = false → Closed a) (since : Rat) (hs : since = t ∨ since = 0) :
    Whole L (sends a ++ if raised then [.unhandled] else []) (diary p raised since a) := by
  have hsL : since ≤ L := by rcases hs with rfl | rfl <;> linarith
  have hcs : ∀ since n, since = t ∨ since = 0 → ∃ c, p.case n = some c ∧ since + c ≤ L := by
    intro since n hs
    obtain ⟨c, e, h⟩ := hc n
    exact ⟨c, e, by rcases hs with rfl | rfl <;> linarith⟩
  have hafter : ∀ e : Event, ∃ u, p.after e = some u ∧ (u = t ∨ u = 0) := by
    intro e
    cases e <;> simp [Pace.after, hr]
  cases raised with
  | false =>
    have hcl := hy rfl
    clear hy hx ha
    induction hcl generalizing since with
    | nil => exact ⟨[], since, by simp [diary], by simp [sends], hsL, by simp⟩
    | send e _ ih =>
      obtain ⟨u, hu, hut⟩ := hafter e
      rw [diary, hu, sends, List.cons_append]
      exact Whole.cons hsL (ih u hut (by rcases hut with rfl | rfl <;> linarith))
    | case n e _ ih =>
      obtain ⟨u, hu, hut⟩ := hafter e
      obtain ⟨c, hc1, hc2⟩ := hcs since n hs
      rw [diary, hc1, sends, sends, List.cons_append]
      dsimp only
      rw [diary, hu]
      exact Whole.cons hc2 (ih u hut (by rcases hut with rfl | rfl <;> linarith))
  | true =>
    obtain ⟨b, n, rfl, hcl⟩ := hx rfl
    clear hy hx ha
    induction hcl generalizing since with
    | nil =>
      obtain ⟨c, hc1, hc2⟩ := hcs since n hs
      rw [List.nil_append, diary, hc1]
      exact Whole.cons hc2 ⟨[], 0, by simp, by simp, by linarith, by simp⟩
    | send e _ ih =>
      obtain ⟨u, hu, hut⟩ := hafter e
      rw [List.cons_append, diary, hu, sends, List.cons_append]
      exact Whole.cons hsL (ih u hut (by rcases hut with rfl | rfl <;> linarith))
    | case m e _ ih =>
      obtain ⟨u, hu, hut⟩ := hafter e
      obtain ⟨c, hc1, hc2⟩ := hcs since m hs
      rw [List.cons_append, List.cons_append, diary, hc1, sends, sends, List.cons_append]
      dsimp only
      rw [diary, hu]
      exact Whole.cons hc2 (ih u hut (by rcases hut with rfl | rfl <;> linarith))

private theorem closed_raised {a : List Act} (h : Closed a) : Judge.raised a = false := by
  have key : ∀ n, a.getLast? ≠ some (.exec n) := by
    intro n
    induction h with
    | nil => simp
    | send e _ ih =>
      rename_i r _
      cases r with
      | nil => simp
      | cons x r => rw [List.getLast?_cons_cons]; exact ih
    | case m e _ ih =>
      rename_i r _
      cases r with
      | nil => simp
      | cons x r => rw [List.getLast?_cons_cons, List.getLast?_cons_cons]; exact ih
  unfold Judge.raised
  split
  · rename_i n hn; exact absurd hn (key n)
  · rfl

private theorem open_raised {e : Event} {r : List Act} (h : Open r) :
    (Judge.raised (.send e :: r) = true → ∃ b n, r = b ++ [.exec n] ∧ Closed b) ∧ (Judge.raised (.send e :: r) = false → Closed r) := by
  rcases h with h | ⟨b, n, rfl, h⟩
  · have := closed_raised (Closed.send e h)
    exact ⟨fun h' => absurd (this.symm.trans h') (by simp), fun _ => h⟩
  · refine ⟨fun _ => ⟨b, n, rfl, h⟩, fun h' => ?_⟩
    simp [Judge.raised, List.getLast?_cons] at h'

private theorem timeline_whole {L : Rat} {p : Pace} {r : WorkerRun} (h : Brisk L p) : Whole L (workerMsgs r) (timeline p r) := by
  obtain ⟨⟨s, hs, hsL⟩, ⟨b, hb, hbL⟩, ⟨t, ht, ht0, htL, hc⟩⟩ := h
  have hL : (0 : Rat) ≤ L := le_trans ht0 htL
  have hc' : ∀ n, ∃ c, p.case n = some c ∧ t + c ≤ L := by
    intro n
    obtain ⟨x, y, z, h1, h2, h3, h4⟩ := hc n
    exact ⟨x + y + z, by simp [Pace.case, h1, h2, h3], h4⟩
  have last : ∀ g, g ≤ L → Whole L [.unhandled] [(g, .msg .unhandled), (0, .bye)] :=
    fun g hg => Whole.cons hg ⟨[], 0, rfl, rfl, hL, by simp⟩
  rw [timeline, hs, within, hb]
  cases r with
  | failedEarly => exact Whole.cons hsL (last b hbL)
  | badCases warning q =>
    dsimp only [within]
    rw [ht]
    cases warning
    · exact Whole.cons hsL (Whole.cons hbL (last t htL))
    · exact Whole.cons hsL (Whole.cons hbL (Whole.cons hL (last t htL)))
  | graded w sc c =>
    obtain ⟨e, r, he, hr⟩ := grade_open w sc c
    obtain ⟨h1, h2⟩ := open_raised (e := e) hr
    dsimp only [within]
    rw [workerMsgs, he, diary, sends]
    refine Whole.cons hsL ?_
    change Whole L (toMsg e :: (sends r ++ _)) _
    refine Whole.cons hbL ?_
    have ha : ∃ u, p.after e = some u ∧ (u = t ∨ u = 0) := by cases e <;> simp [Pace.after, ht]
    obtain ⟨u, hu, hut⟩ := ha
    rw [hu]
    exact diary_whole ht0 htL ht hc' r hr h1 h2 u hut

/-! ## What the judge reads -/

private theorem hear (L : Rat) (xs : List (Rat × Msg)) (g : Rat) (hg : g ≤ L) (hx : ∀ x ∈ xs, x.1 ≤ L) :
    ∀ (busy : List Rat) (ready last : Rat), (∀ b ∈ busy, 0 ≤ b) → last ≤ ready →
      (communicate L busy ready last (xs.map (fun x => (x.1, Line.msg x.2)) ++ [(g, .bye)])).1.map (·.2) = xs.map (·.2) ∧
      ∃ t, (communicate L busy ready last (xs.map (fun x => (x.1, Line.msg x.2)) ++ [(g, .bye)])).2 = .bye t := by
  induction xs with
  | nil =>
    intro busy ready last _ hl
    rw [List.map_nil, List.nil_append, communicate, if_pos (by linarith)]
    exact ⟨rfl, _, rfl⟩
  | cons x xs ih =>
    intro busy ready last hb hl
    have h1 : x.1 ≤ L := hx x List.mem_cons_self
    rw [List.map_cons, List.cons_append, communicate, if_pos (by linarith)]
    dsimp only
    have hh : 0 ≤ busy.headD 0 := by
      cases busy with
      | nil => simp
      | cons a l => exact hb a List.mem_cons_self
    obtain ⟨i1, i2⟩ := ih (fun y hy => hx y (List.mem_cons_of_mem _ hy)) busy.tail (max ready (last + x.1) + busy.headD 0) (last + x.1)
      (fun b hb' => hb b (List.mem_of_mem_tail hb')) (by have := le_max_right ready (last + x.1); linarith)
    exact ⟨by rw [List.map_cons, i1, List.map_cons], i2⟩

/-- How long the judge waits: a minute, or twice the time limit in whole seconds if that is more. -/
theorem C99_patience (timeLimit : Rat) :
    60 ≤ patience timeLimit ∧ (0 ≤ timeLimit → 2 * timeLimit - 1 < patience timeLimit) ∧ patience timeLimit ≤ max 60 (2 * timeLimit) := by
  unfold patience trunc
  refine ⟨le_max_left _ _, fun h => ?_, ?_⟩
  · rw [if_neg (by linarith)]
    refine lt_of_lt_of_le ?_ (le_max_right _ _)
    have := Int.lt_floor_add_one (2 * timeLimit)
    have e : (2 * timeLimit).floor = ⌊2 * timeLimit⌋ := rfl
    rw [e]; push_cast; linarith
  · apply max_le (le_max_left _ _)
    split
    · rename_i h
      have : ((-(-(2 * timeLimit)).floor : Int) : Rat) ≤ 0 := by
        have e : 0 ≤ ⌊-(2 * timeLimit)⌋ := Int.floor_nonneg.2 (by linarith)
        have e' : (-(2 * timeLimit)).floor = ⌊-(2 * timeLimit)⌋ := rfl
        rw [e']
        exact_mod_cast Int.neg_nonpos_of_nonneg e
      exact le_trans this (le_trans (by norm_num) (le_max_left _ _))
    · have := Int.floor_le (2 * timeLimit)
      have e : (2 * timeLimit).floor = ⌊2 * timeLimit⌋ := rfl
      rw [e]
      exact le_trans this (le_max_right _ _)

/-- A worker that gets on is heard to the end, whatever it says and however long the judge takes for each message: no message is lost, and the
judge never kills it. -/
theorem C99_heard (timeLimit : Rat) (busy : List Rat) (p : Pace) (r : WorkerRun) (hb : ∀ b ∈ busy, 0 ≤ b) (h : Brisk (patience timeLimit) p) :
    (listen timeLimit busy p r).1.map (·.2) = workerMsgs r ∧ ∃ t, (listen timeLimit busy p r).2 = .bye t := by
  obtain ⟨xs, g, e, h1, h2, h3⟩ := timeline_whole (r := r) h
  have := hear (patience timeLimit) xs g h2 h3 busy 0 0 hb (le_refl _)
  rw [listen, e, ← h1]
  exact this

/-- The judge is never stuck with a worker, whatever that does: from one message to the next, and to the end, it takes no longer than its patience
and what it does with the message. -/
theorem C99_never_stuck (limit B : Rat) (busy : List Rat) (ready last : Rat) (tl : List (Rat × Line)) (hB : 0 ≤ B) (hL : 0 ≤ limit)
    (hb : ∀ b ∈ busy, b ≤ B) :
    List.IsChain (fun a b => b ≤ a + (B + limit)) (ready :: ((communicate limit busy ready last tl).1.map (·.1) ++ [(communicate limit busy ready last tl).2.at])) := by
  have key : ∀ (tl : List (Rat × Line)) (busy : List Rat) (ready from_ last : Rat), (∀ b ∈ busy, b ≤ B) → ready ≤ from_ + B →
      List.IsChain (fun a b => b ≤ a + (B + limit))
        (from_ :: ((communicate limit busy ready last tl).1.map (·.1) ++ [(communicate limit busy ready last tl).2.at])) := by
    intro tl
    induction tl with
    | nil =>
      intro busy ready from_ last _ hr
      simp only [communicate, List.map_nil, List.nil_append, End.at]
      exact .cons_cons (by linarith) (.singleton _)
    | cons x tl ih =>
      intro busy ready from_ last hb hr
      obtain ⟨g, l⟩ := x
      have h1 : List.IsChain (fun a b => b ≤ a + (B + limit)) (from_ :: ([] ++ [ready + limit])) :=
        .cons_cons (by linarith) (.singleton _)
      cases l with
      | bye =>
        rw [communicate]
        split
        · rename_i hle
          have hm : max ready (last + g) ≤ ready + limit := max_le (by linarith) hle
          exact .cons_cons (by dsimp only [End.at]; linarith) (.singleton _)
        · exact h1
      | msg m =>
        rw [communicate]
        split
        · rename_i hle
          have hm : max ready (last + g) ≤ ready + limit := max_le (by linarith) hle
          dsimp only
          rw [List.map_cons, List.cons_append]
          refine .cons_cons (by dsimp only; linarith) (ih _ _ _ _ (fun b h => hb b (List.mem_of_mem_tail h)) ?_)
          cases busy with
          | nil => simpa using hB
          | cons b _ => have := hb b List.mem_cons_self; simpa using this
        · exact h1
  exact key tl busy ready ready last hb (by linarith)

/-- A silence longer than its patience, and the judge gives up: what was sent before it is read, nothing after. -/
theorem C99_silence (limit : Rat) (hL : 0 ≤ limit) (xs : List (Rat × Msg)) (g : Rat) (l : Line) (rest : List (Rat × Line)) (hx : ∀ x ∈ xs, 0 ≤ x.1 ∧ x.1 ≤ limit)
    (hg : limit < g) :
    (communicate limit [] 0 0 (xs.map (fun x => (x.1, Line.msg x.2)) ++ (g, l) :: rest)).1.map (·.2) = xs.map (·.2) ∧
    (communicate limit [] 0 0 (xs.map (fun x => (x.1, Line.msg x.2)) ++ (g, l) :: rest)).2 = .timeout ((xs.map (·.1)).sum + limit) := by
  have key : ∀ (xs : List (Rat × Msg)) (t : Rat), (∀ x ∈ xs, 0 ≤ x.1 ∧ x.1 ≤ limit) →
      (communicate limit [] t t (xs.map (fun x => (x.1, Line.msg x.2)) ++ (g, l) :: rest)).1.map (·.2) = xs.map (·.2) ∧
      (communicate limit [] t t (xs.map (fun x => (x.1, Line.msg x.2)) ++ (g, l) :: rest)).2 = .timeout (t + (xs.map (·.1)).sum + limit) := by
    intro xs
    induction xs with
    | nil =>
      intro t _
      cases l <;> rw [List.map_nil, List.nil_append, communicate, if_neg (by linarith)] <;> simp
    | cons x xs ih =>
      intro t hx
      obtain ⟨h0, h1⟩ := hx x List.mem_cons_self
      rw [List.map_cons, List.cons_append, communicate, if_pos (by linarith)]
      dsimp only
      have e : max t (t + x.1) + ([] : List Rat).headD 0 = t + x.1 := by
        rw [max_eq_right (by linarith)]; simp
      rw [e, List.tail_nil]
      obtain ⟨i1, i2⟩ := ih (t + x.1) (fun y hy => hx y (List.mem_cons_of_mem _ hy))
      refine ⟨by rw [List.map_cons, i1, List.map_cons], ?_⟩
      rw [i2, List.map_cons, List.sum_cons]
      congr 1
      ring
  have := key xs 0 hx
  rw [zero_add] at this
  exact this

/-- A worker that says nothing more, ever, is given up after the same time; it does not count as finished. -/
theorem C99_hung (limit : Rat) (hL : 0 ≤ limit) (xs : List (Rat × Msg)) (hx : ∀ x ∈ xs, 0 ≤ x.1 ∧ x.1 ≤ limit) :
    (communicate limit [] 0 0 (xs.map (fun x => (x.1, Line.msg x.2)))).1.map (·.2) = xs.map (·.2) ∧
    (communicate limit [] 0 0 (xs.map (fun x => (x.1, Line.msg x.2)))).2 = .timeout ((xs.map (·.1)).sum + limit) := by
  have key : ∀ (xs : List (Rat × Msg)) (t : Rat), (∀ x ∈ xs, 0 ≤ x.1 ∧ x.1 ≤ limit) →
      (communicate limit [] t t (xs.map (fun x => (x.1, Line.msg x.2)))).1.map (·.2) = xs.map (·.2) ∧
      (communicate limit [] t t (xs.map (fun x => (x.1, Line.msg x.2)))).2 = .timeout (t + (xs.map (·.1)).sum + limit) := by
    intro xs
    induction xs with
    | nil =>
      intro t _
      rw [List.map_nil, communicate]
      simp
    | cons x xs ih =>
      intro t hx
      obtain ⟨h0, h1⟩ := hx x List.mem_cons_self
      rw [List.map_cons, communicate, if_pos (by linarith)]
      dsimp only
      have e : max t (t + x.1) + ([] : List Rat).headD 0 = t + x.1 := by
        rw [max_eq_right (by linarith)]; simp
      rw [e, List.tail_nil]
      obtain ⟨i1, i2⟩ := ih (t + x.1) (fun y hy => hx y (List.mem_cons_of_mem _ hy))
      refine ⟨by rw [List.map_cons, i1, List.map_cons], ?_⟩
      rw [i2, List.map_cons, List.sum_cons]
      congr 1
      ring
  have := key xs 0 hx
  rw [zero_add] at this
  exact this

example : (communicate 60 [] 0 0 ([(1, Msg.hello)].map (fun x => (x.1, Line.msg x.2)))).2 = .timeout 61 := by
  rw [(C99_hung 60 (by norm_num) [(1, Msg.hello)] (by norm_num)).2]
  norm_num

/-! ## Programs under the watchdog -/

/-- Time is only lost as far as the watchdog lets it. For a problem with a time limit and a wall clock limit (both in milliseconds), if every case's
program is watched by threads that are not starved for more than `σ`, the judge hears everything the worker says, as long as the wall clock limit,
five times `σ`, and what goes into the cases, the inputs and the checking together stay within its patience. -/
theorem C99_limits (time wallTime σ : Nat) (ht : time ≠ 0) (busy : List Rat) (p : Pace) (r : WorkerRun) (history : Nat → List Watchdog.Act)
    (extra : Nat → Rat) (listing others : Rat) (hb : ∀ b ∈ busy, 0 ≤ b)
    (hs : ∃ t, p.start = some t ∧ t ≤ 60) (hc : ∃ t, p.build = some t ∧ t ≤ 60) (hl : p.resolve = some listing) (hl0 : 0 ≤ listing)
    (hf : ∀ n, Watchdog.Found (history n)) (hp : ∀ n, Watchdog.Prompt σ (history n))
    (hr : ∀ n, p.run n = some (wall ⟨time, wallTime⟩ (history n) + extra n))
    (ho : ∀ n, ∃ a c, p.input n = some a ∧ p.check n = some c ∧ 0 ≤ a + extra n + c ∧ a + extra n + c ≤ others)
    (hfit : listing + others + ((wallTime + 5 * σ : Nat) : Rat) / 1000 ≤ patience ((time : Rat) / 1000)) :
    (listen ((time : Rat) / 1000) busy p r).1.map (·.2) = workerMsgs r ∧ ∃ t, (listen ((time : Rat) / 1000) busy p r).2 = .bye t := by
  have h60 := (C99_patience ((time : Rat) / 1000)).1
  refine C99_heard _ busy p r hb ⟨?_, ?_, ?_⟩
  · obtain ⟨t, e, h⟩ := hs; exact ⟨t, e, le_trans h h60⟩
  · obtain ⟨t, e, h⟩ := hc; exact ⟨t, e, le_trans h h60⟩
  · have hw : ∀ n, wall ⟨time, wallTime⟩ (history n) ≤ ((wallTime + 5 * σ : Nat) : Rat) / 1000 := by
      intro n
      have := Watchdog.C65_bounded ⟨time, wallTime⟩ (history n) σ ht (hf n) (hp n)
      unfold wall
      have h : ((Watchdog.run ⟨time, wallTime⟩ (history n)).wall : Rat) ≤ ((wallTime + 5 * σ : Nat) : Rat) := by exact_mod_cast this
      linarith
    have h0 : (0 : Rat) ≤ ((wallTime + 5 * σ : Nat) : Rat) / 1000 := by positivity
    refine ⟨listing, hl, hl0, ?_, fun n => ?_⟩
    · obtain ⟨a, c, _, _, h1, h2⟩ := ho 0
      linarith
    · obtain ⟨a, c, e1, e2, _, h2⟩ := ho n
      have := hw n
      exact ⟨a, _, c, e1, hr n, e2, by linarith⟩

/-- With the usual wall clock limit of three times the time limit, problems of up to thirteen seconds are safe if each of the judge's threads makes
its four steps in 2.2 seconds (two rounds of the shocker thread) and everything else about a case takes no more than ten seconds. -/
theorem C99_usual (time : Nat) (ht : time ≠ 0) (hle : time ≤ 13000) (busy : List Rat) (p : Pace) (r : WorkerRun) (history : Nat → List Watchdog.Act)
    (extra : Nat → Rat) (listing others : Rat) (hb : ∀ b ∈ busy, 0 ≤ b)
    (hs : ∃ t, p.start = some t ∧ t ≤ 60) (hc : ∃ t, p.build = some t ∧ t ≤ 60) (hl : p.resolve = some listing) (hl0 : 0 ≤ listing)
    (hf : ∀ n, Watchdog.Found (history n)) (hp : ∀ n, Watchdog.Prompt 2200 (history n))
    (hr : ∀ n, p.run n = some (wall ⟨time, 3 * time⟩ (history n) + extra n))
    (ho : ∀ n, ∃ a c, p.input n = some a ∧ p.check n = some c ∧ 0 ≤ a + extra n + c ∧ a + extra n + c ≤ others)
    (hfit : listing + others ≤ 10) :
    (listen ((time : Rat) / 1000) busy p r).1.map (·.2) = workerMsgs r ∧ ∃ t, (listen ((time : Rat) / 1000) busy p r).2 = .bye t := by
  refine C99_limits time (3 * time) 2200 ht busy p r history extra listing others hb hs hc hl hl0 hf hp hr ho ?_
  have h60 := (C99_patience ((time : Rat) / 1000)).1
  have : ((3 * time + 5 * 2200 : Nat) : Rat) ≤ ((3 * 13000 + 5 * 2200 : Nat) : Rat) := by exact_mod_cast (by omega)
  push_cast at *
  linarith

/-- The hypotheses of `C99_usual`: two cases of a second each, read and checked in a second, on a judge that is slow with the site. -/
example : ∃ (p : Pace) (history : Nat → List Watchdog.Act) (extra : Nat → Rat),
    (∀ n, Watchdog.Found (history n)) ∧ (∀ n, Watchdog.Prompt 2200 (history n)) ∧
    (∀ n, p.run n = some (wall ⟨2000, 3 * 2000⟩ (history n) + extra n)) ∧ p.run 1 = some 1 ∧
    (∀ n, ∃ a c, p.input n = some a ∧ p.check n = some c ∧ 0 ≤ a + extra n + c ∧ a + extra n + c ≤ 3) ∧
    (∃ t, p.start = some t ∧ t ≤ 60) ∧ (∃ t, p.build = some t ∧ t ≤ 60) ∧ p.resolve = some 1 := by
  refine ⟨⟨some 1, some 5, some 1, fun _ => some 1, fun _ => some 1, fun _ => some 1⟩,
    fun _ => [.spawn true, .shocker true, .time 900 900, .exit 0, .monitor, .monitor, .monitor, .monitor], fun _ => 1 / 10, ?_, ?_, ?_, rfl, ?_,
    ⟨1, rfl, by norm_num⟩, ⟨5, rfl, by norm_num⟩, rfl⟩
  · intro n; unfold Watchdog.Found; dsimp only; decide
  · intro n xs ys zs e hp
    have h : Watchdog.passes (xs ++ ys ++ zs) = 900 := by rw [← e]; rfl
    rw [Watchdog.passes_append, Watchdog.passes_append] at h
    omega
  · intro n
    have : (Watchdog.run ⟨2000, 3 * 2000⟩ [.spawn true, .shocker true, .time 900 900, .exit 0, .monitor, .monitor, .monitor, .monitor]).wall = 900 := by
      decide
    simp only [wall, this]
    norm_num
  · exact fun _ => ⟨1, 1, rfl, rfl, by norm_num, by norm_num⟩

/-- Where the usual limits go wrong: for every time limit over twenty seconds there is a right program, within its time limit and its wall clock limit
and ended by itself, that is never judged. The judge kills its worker and reports an internal error. -/
theorem C99_slow_fails (time : Nat) (h : 20000 < time) : ∃ (as : List Watchdog.Act) (p : Pace) (w : World),
    (Watchdog.run ⟨time, 3 * time⟩ as).ran ≤ time ∧ (Watchdog.run ⟨time, 3 * time⟩ as).wall ≤ 3 * time ∧
    (Watchdog.run ⟨time, 3 * time⟩ as).tle = false ∧ (Watchdog.run ⟨time, 3 * time⟩ as).ret = some 0 ∧
    p.run 1 = some (wall ⟨time, 3 * time⟩ as) ∧ w.grade 1 = some ⟨Result.AC, 1⟩ ∧ w.aborted 1 = false ∧
    p.start = some 0 ∧ p.build = some 0 ∧ p.resolve = some 0 ∧ p.input 1 = some 0 ∧ p.check 1 = some 0 ∧
    workerMsgs (.graded w false (.ok false false [.one ⟨0, 0, 1⟩])) = [.hello, .gradingBegin, .result 1, .gradingEnd] ∧
    listen ((time : Rat) / 1000) [] p (.graded w false (.ok false false [.one ⟨0, 0, 1⟩])) =
      ([(0, .hello), (0, .gradingBegin)], .timeout (patience ((time : Rat) / 1000))) := by
  refine ⟨[.spawn true, .shocker true, .time time (3 * time), .exit 0, .monitor, .monitor, .monitor, .monitor],
    ⟨some 0, some 0, some 0, fun _ => some 0, fun _ => some (3 * (time : Rat) / 1000), fun _ => some 0⟩,
    ⟨fun _ => some ⟨Result.AC, 1⟩, fun _ => false⟩, ?_⟩
  have hr : Watchdog.run ⟨time, 3 * time⟩ [.spawn true, .shocker true, .time time (3 * time), .exit 0, .monitor, .monitor, .monitor, .monitor] =
      { mon := .done, shock := .loop, dead := some 0, spawned := true, died := true, tle := false, ret := some 0, ran := time, exec := time,
        wall := 3 * time } := by
    simp [Watchdog.run, Watchdog.init, Watchdog.step, Watchdog.monitorStep, Watchdog.shockerStep, show time ≠ 0 by omega]
  have hp : patience ((time : Rat) / 1000) < 3 * (time : Rat) / 1000 := by
    have h20 : (20000 : Rat) < time := by exact_mod_cast h
    exact lt_of_le_of_lt (C99_patience _).2.2 (max_lt (by linarith) (by linarith))
  have h0 : (0 : Rat) ≤ patience ((time : Rat) / 1000) := le_trans (by norm_num) (C99_patience _).1
  rw [hr]
  refine ⟨le_refl _, le_refl _, rfl, rfl, ?_, rfl, rfl, rfl, rfl, rfl, rfl, rfl, ?_, ?_⟩
  · simp [wall, hr]
  · decide +kernel
  · have hg : gradeCases ⟨fun _ => some ⟨Result.AC, 1⟩, fun _ => false⟩ false (.ok false false [.one ⟨0, 0, 1⟩]) =
        [.send (.gradingBegin false), .exec 1, .send (.result none 1 ⟨Result.AC, 1⟩), .send .gradingEnd] := by decide +kernel
    simp [listen, timeline, within, hg, diary, Pace.after, Pace.case, toMsg, communicate, h0, not_le.mpr hp]

/-- A worker that never says anything is given up on after a minute. -/
example : listen 2 [] ⟨none, none, none, fun _ => none, fun _ => none, fun _ => none⟩ .failedEarly = ([], .timeout 60) := by decide +kernel

/-- A compiler that takes too long. -/
example : listen 2 [1] ⟨some 1, some 70, none, fun _ => none, fun _ => none, fun _ => none⟩ .failedEarly = ([(1, .hello)], .timeout 62) := by decide +kernel

/-- The hypotheses of `C99_silence`. -/
example : communicate 60 [] 0 0 [(1, .msg .hello), (5, .msg .gradingBegin), (61, .msg (.result 1)), (0, .bye)] =
    ([(1, .hello), (6, .gradingBegin)], .timeout 66) := by decide +kernel

end Verif.Props
