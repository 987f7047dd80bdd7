import Verif.Model.Abort
import Verif.Props.Worker

/-! # C100: aborting a grading -/

namespace Verif.Props
open Verif Abort Worker

namespace Abt

/-! ## What is left to do -/

/-- What a world has answered so far. -/
def Agrees (w : World) (log : List (Nat × Option Res × Bool)) : Prop := ∀ e ∈ log, w.grade e.1 = e.2.1 ∧ w.aborted e.1 = e.2.2

def outerRest (w : World) (gs : List (Option Nat × List TestCase)) (l : Worker.St) : List Act :=
  match groupLoop w gs l with
  | .stop a => a
  | .next s => s.acts ++ [.send .gradingEnd]

def close (bn : Option Nat) (l : Worker.St) : Worker.St :=
  if truthy bn then { l with acts := l.acts ++ [.send (.batchEnd (bn.getD 0))], sc := l.sc && l.enabled } else l

def innerRest (w : World) (bn : Option Nat) (cs : List TestCase) (gs : List (Option Nat × List TestCase)) (l : Worker.St) : List Act :=
  match caseLoop w bn cs l with
  | .stop a => a
  | .next s => outerRest w gs (close bn s)

theorem outer_cons (w : World) (bn : Option Nat) (cs : List TestCase) (gs : List (Option Nat × List TestCase)) (l : Worker.St) :
    outerRest w ((bn, cs) :: gs) l =
      innerRest w bn cs gs (if truthy bn then { l with acts := l.acts ++ [.send (.batchBegin (bn.getD 0))] } else l) := by
  simp only [outerRest, innerRest, groupLoop]
  generalize (if truthy bn = true then _ else l : Worker.St) = l'
  cases caseLoop w bn cs l' <;> rfl

def Pre (a : List Act) : Ctl → Prop
  | .stop b => a <+: b
  | .next s => a <+: s.acts

theorem Pre.mono {a b : List Act} (h : a <+: b) {x : Ctl} (hx : Pre b x) : Pre a x := by
  cases x <;> exact h.trans hx

theorem case_prefix (w : World) (bn : Option Nat) (cs : List TestCase) (l : Worker.St) : Pre l.acts (caseLoop w bn cs l) := by
  induction cs generalizing l with
  | nil => exact List.prefix_refl _
  | cons t cs ih =>
    rw [caseLoop]
    dsimp only
    split
    · exact .mono (List.prefix_append _ _) (ih _)
    · split
      · exact List.prefix_append _ _
      · split
        · exact List.prefix_append _ _
        · exact .mono (List.prefix_append _ _) (ih _)

theorem close_prefix (bn : Option Nat) (l : Worker.St) : l.acts <+: (close bn l).acts := by
  unfold close; split <;> simp

theorem outer_prefix (w : World) (gs : List (Option Nat × List TestCase)) (l : Worker.St) : l.acts <+: outerRest w gs l := by
  induction gs generalizing l with
  | nil => exact List.prefix_append _ _
  | cons g gs ih =>
    obtain ⟨bn, cs⟩ := g
    rw [outer_cons]
    have h0 : l.acts <+: (if truthy bn then { l with acts := l.acts ++ [.send (.batchBegin (bn.getD 0))] } else l : Worker.St).acts := by
      split <;> simp
    generalize (if truthy bn = true then _ else l : Worker.St) = l' at *
    have h1 := case_prefix w bn cs l'
    refine h0.trans ?_
    simp only [innerRest]
    revert h1
    cases caseLoop w bn cs l' with
    | stop a => exact id
    | next s => exact fun h => (h.trans (close_prefix bn s)).trans (ih _)

theorem inner_prefix (w : World) (bn : Option Nat) (cs : List TestCase) (gs : List (Option Nat × List TestCase)) (l : Worker.St) :
    l.acts <+: innerRest w bn cs gs l := by
  have h1 := case_prefix w bn cs l
  simp only [innerRest]
  revert h1
  cases caseLoop w bn cs l with
  | stop a => exact id
  | next s => exact fun h => (h.trans (close_prefix bn s)).trans (outer_prefix w gs _)

/-- Everything done in the end, for the rest of this world. -/
def total (w : World) (c : Abort.Cfg) (s : Abort.St) : List Act :=
  match s.pc with
  | .building => gradeCases w c.sc c.build
  | .outer gs l => outerRest w gs l
  | .inner bn cs gs l => innerRest w bn cs gs l
  | .grading _ bn t cs gs l => innerRest w bn (t :: cs) gs l
  | .ended => s.acts

/-- The number of the last case given to the grader, before the current one. -/
def past : Pc → Nat
  | .outer _ l | .inner _ _ _ l | .grading _ _ _ _ _ l => l.caseNo
  | _ => 0

structure Inv (c : Abort.Cfg) (s : Abort.St) : Prop where
  acts : match s.pc with
    | .building => s.acts = []
    | .outer _ l | .inner _ _ _ l => s.acts = l.acts
    | .grading _ _ _ _ _ l => s.acts = l.acts ++ [.exec (l.caseNo + 1)] ∧ l.sc = false
    | .ended => True
  live : s.pc ≠ .ended → s.early = false ∧ s.cut = false ∧ ∀ w, Agrees w s.log → total w c s = gradeCases w c.sc c.build
  ended : s.pc = .ended → ∀ w, Agrees w s.log → s.acts <+: gradeCases w c.sc c.build ∧ (s.early = false → s.cut = false → s.acts = gradeCases w c.sc c.build)
  order : s.log.Pairwise fun a b => a.1 < b.1 ∧ (a.2.2 = true → b.2.2 = true)
  upto : s.pc ≠ .ended → ∀ e ∈ s.log, e.1 ≤ past s.pc
  flag : ∀ e ∈ s.log, e.2.2 = true → s.flag = true

theorem inv_init (c : Abort.Cfg) : Inv c {} := by
  constructor <;> simp [total]

theorem agrees_append {w : World} {l : List (Nat × Option Res × Bool)} {e : Nat × Option Res × Bool} (h : Agrees w (l ++ [e])) :
    Agrees w l ∧ w.grade e.1 = e.2.1 ∧ w.aborted e.1 = e.2.2 :=
  ⟨fun x hx => h x (List.mem_append_left _ hx), h e (by simp)⟩

theorem inner_sc (w : World) (bn : Option Nat) (t : TestCase) (cs : List TestCase) (gs : List (Option Nat × List TestCase)) (l : Worker.St)
    (h : l.sc = true) : innerRest w bn (t :: cs) gs l =
      innerRest w bn cs gs { l with acts := l.acts ++ [.send (.result bn (l.caseNo + 1) ⟨Result.SC, 0⟩)], caseNo := l.caseNo + 1 } := by
  simp only [innerRest, caseLoop, h, if_true]

theorem inner_raise (w : World) (bn : Option Nat) (t : TestCase) (cs : List TestCase) (gs : List (Option Nat × List TestCase)) (l : Worker.St)
    (h : l.sc = false) (hg : w.grade (l.caseNo + 1) = none) : innerRest w bn (t :: cs) gs l = l.acts ++ [.exec (l.caseNo + 1)] := by
  simp [innerRest, caseLoop, h, hg]

theorem inner_abort (w : World) (bn : Option Nat) (t : TestCase) (cs : List TestCase) (gs : List (Option Nat × List TestCase)) (l : Worker.St)
    (h : l.sc = false) (r : Res) (hg : w.grade (l.caseNo + 1) = some r) (ha : w.aborted (l.caseNo + 1) = true) :
    innerRest w bn (t :: cs) gs l = l.acts ++ [.exec (l.caseNo + 1), .send .gradingAborted] := by
  simp [innerRest, caseLoop, h, hg, ha]

theorem inner_result (w : World) (bn : Option Nat) (t : TestCase) (cs : List TestCase) (gs : List (Option Nat × List TestCase)) (l : Worker.St)
    (h : l.sc = false) (r : Res) (hg : w.grade (l.caseNo + 1) = some r) (ha : w.aborted (l.caseNo + 1) = false) :
    innerRest w bn (t :: cs) gs l =
      let wa := decide (r.flag &&& Result.WA ≠ 0)
      let enabled := if wa then l.enabled || decide (t.points = 0) else l.enabled
      let sc := if wa then l.sc || (bn.isSome || enabled) else l.sc
      innerRest w bn cs gs ⟨l.acts ++ [.exec (l.caseNo + 1), .send (.result bn (l.caseNo + 1) r)], l.caseNo + 1, sc, enabled⟩ := by
  rw [innerRest, caseLoop]
  dsimp only
  rw [if_neg (by simp [h]), hg]
  dsimp only
  rw [if_neg (by simp [ha])]
  rfl

theorem grading_prefix (w : World) (bn : Option Nat) (t : TestCase) (cs : List TestCase) (gs : List (Option Nat × List TestCase)) (l : Worker.St)
    (h : l.sc = false) : l.acts ++ [.exec (l.caseNo + 1)] <+: innerRest w bn (t :: cs) gs l := by
  cases hg : w.grade (l.caseNo + 1) with
  | none => rw [inner_raise w bn t cs gs l h hg]; exact List.prefix_refl _
  | some r =>
    cases ha : w.aborted (l.caseNo + 1) with
    | true => rw [inner_abort w bn t cs gs l h r hg ha]; exact ⟨[.send .gradingAborted], by simp⟩
    | false =>
      rw [inner_result w bn t cs gs l h r hg ha]
      refine List.IsPrefix.trans ?_ (inner_prefix _ _ _ _ _)
      exact ⟨[.send (.result bn (l.caseNo + 1) r)], by simp⟩

/-- What has been done is the beginning of what will be. -/
theorem so_far {c : Abort.Cfg} {s : Abort.St} (h : Inv c s) (w : World) (hw : Agrees w s.log) : s.acts <+: gradeCases w c.sc c.build := by
  by_cases he : s.pc = .ended
  · exact (h.ended he w hw).1
  · rw [← (h.live he).2.2 w hw]
    have ha := h.acts
    unfold total
    revert ha
    cases s.pc with
    | building => intro ha; rw [ha]; exact List.nil_prefix
    | outer gs l => intro ha; rw [ha]; exact outer_prefix w gs l
    | inner bn cs gs l => intro ha; rw [ha]; exact inner_prefix w bn cs gs l
    | grading p bn t cs gs l => intro ha; rw [ha.1]; exact grading_prefix w bn t cs gs l ha.2
    | ended => intro; exact List.prefix_refl _

theorem inv_send {c : Abort.Cfg} {s : Abort.St} (es : List Event) (k : Abort.St → Abort.St)
    (hp : ∀ w, Agrees w s.log → s.acts <+: gradeCases w c.sc c.build) (ho : s.log.Pairwise fun a b => a.1 < b.1 ∧ (a.2.2 = true → b.2.2 = true))
    (hf : ∀ e ∈ s.log, e.2.2 = true → s.flag = true) (hk : Inv c (k { s with acts := s.acts ++ es.map .send })) : Inv c (s.send es k) := by
  unfold St.send
  split
  · refine ⟨trivial, fun h => absurd rfl h, fun _ w hw => ⟨hp w hw, fun _ h => by simp at h⟩, ho, fun h => absurd rfl h, hf⟩
  · exact hk

theorem inv_finish {c : Abort.Cfg} {s : Abort.St} (hc : s.early = false) (he : ∀ w, Agrees w s.log → s.acts = gradeCases w c.sc c.build)
    (ho : s.log.Pairwise fun a b => a.1 < b.1 ∧ (a.2.2 = true → b.2.2 = true)) (hf : ∀ e ∈ s.log, e.2.2 = true → s.flag = true) : Inv c s.finish :=
  ⟨trivial, fun h => absurd rfl h, fun _ w hw => ⟨by rw [show s.finish.acts = s.acts from rfl, he w hw]; exact List.prefix_refl _, fun _ _ => he w hw⟩, ho,
    fun h => absurd rfl h, hf⟩

theorem log_append {log : List (Nat × Option Res × Bool)} {n : Nat} {o : Option Res} {f : Bool}
    (ho : log.Pairwise fun a b => a.1 < b.1 ∧ (a.2.2 = true → b.2.2 = true)) (hn : ∀ e ∈ log, e.1 ≤ n) (hf : ∀ e ∈ log, e.2.2 = true → f = true) :
    (log ++ [(n + 1, o, f)]).Pairwise fun a b => a.1 < b.1 ∧ (a.2.2 = true → b.2.2 = true) := by
  rw [List.pairwise_append]
  refine ⟨ho, by simp, fun a ha b hb => ?_⟩
  rw [List.mem_singleton] at hb
  subst hb
  exact ⟨Nat.lt_succ_of_le (hn a ha), hf a ha⟩

theorem inv_main {c : Abort.Cfg} {s : Abort.St} (h : Inv c s) : Inv c (mainStep c s) := by
  have hpre := so_far h
  obtain ⟨ha, hl, he, ho, hu, hf⟩ := h
  unfold mainStep
  cases hp : s.pc with
  | building =>
    rw [hp] at ha hl hu
    obtain ⟨l1, l2, l3⟩ := hl (by simp)
    simp only [past, Nat.le_zero_eq] at hu
    dsimp only at ha ⊢
    cases hb : c.build with
    | compileError =>
      refine inv_send _ _ hpre ho hf (inv_finish l1 ?_ ho hf)
      intro w _
      simp [ha, gradeCases, hb]
    | ok warning pretested items =>
      dsimp only
      refine inv_send _ _ hpre ho hf ⟨rfl, fun _ => ⟨l1, l2, fun w hw => ?_⟩, fun x => by simp at x, ho, fun _ => ?_, hf⟩
      · have e : ([] : List Act) ++ ((if warning then [Event.compileMessage] else []) ++ [Event.gradingBegin pretested]).map Act.send =
            (if warning then [.send .compileMessage] else []) ++ [.send (.gradingBegin pretested)] := by cases warning <;> rfl
        simp only [total, ha, outerRest, gradeCases, hb, e]
        rfl
      · intro e he'
        exact Nat.le_of_eq (hu (by simp) e he')
  | outer gs l =>
    rw [hp] at ha hl hu
    obtain ⟨l1, l2, l3⟩ := hl (by simp)
    simp only [total, hp] at l3
    dsimp only at ha
    cases gs with
    | nil =>
      refine inv_send _ _ hpre ho hf (inv_finish l1 ?_ ho hf)
      intro w hw
      rw [← l3 w hw]
      simp [outerRest, groupLoop, ha]
    | cons g gs =>
      obtain ⟨bn, cs⟩ := g
      dsimp only
      refine inv_send _ _ hpre ho hf ⟨rfl, fun _ => ⟨l1, l2, fun w hw => ?_⟩, fun x => by simp at x, ho, fun _ => hu (by simp), hf⟩
      rw [← l3 w hw, outer_cons]
      simp only [total, ha]
      congr 1
      split <;> simp
  | inner bn cs gs l =>
    rw [hp] at ha hl hu
    obtain ⟨l1, l2, l3⟩ := hl (by simp)
    simp only [total, hp] at l3
    dsimp only at ha
    cases cs with
    | nil =>
      dsimp only
      refine inv_send _ _ hpre ho hf ⟨rfl, fun _ => ⟨l1, l2, fun w hw => ?_⟩, fun x => by simp at x, ho, fun _ => hu (by simp), hf⟩
      rw [← l3 w hw]
      simp only [total, ha, innerRest, caseLoop, close]
      congr 1
      split <;> simp
    | cons t cs =>
      dsimp only
      split
      · rename_i hsc
        refine inv_send _ _ hpre ho hf ⟨rfl, fun _ => ⟨l1, l2, fun w hw => ?_⟩, fun x => by simp at x, ho, fun _ => ?_, hf⟩
        · rw [← l3 w hw, inner_sc w bn t cs gs l hsc]
          simp only [total, ha, List.map_cons, List.map_nil]
        · intro e he'
          exact Nat.le_succ_of_le (hu (by simp) e he')
      · rename_i hsc
        exact ⟨⟨by rw [ha], by simpa using hsc⟩, fun _ => ⟨l1, l2, l3⟩, fun x => by simp at x, ho, fun _ => hu (by simp), hf⟩
  | grading p bn t cs gs l =>
    rw [hp] at ha hl hu
    obtain ⟨l1, l2, l3⟩ := hl (by simp)
    simp only [total, hp] at l3
    dsimp only at ha
    cases p with
    | input => exact ⟨ha, fun _ => ⟨l1, l2, l3⟩, fun x => by simp at x, ho, fun _ => hu (by simp), hf⟩
    | launched => exact ⟨ha, fun _ => ⟨l1, l2, l3⟩, fun x => by simp at x, ho, fun _ => hu (by simp), hf⟩
    | running =>
      dsimp only
      split
      · exact ⟨ha, fun _ => ⟨l1, l2, l3⟩, fun x => by simp at x, ho, fun _ => hu (by simp), hf⟩
      · refine ⟨by rw [hp]; exact ha, fun _ => ⟨l1, l2, fun w hw => ?_⟩, fun x => by simp [hp] at x, ho, fun _ => ?_, hf⟩
        · simp only [total, hp]; exact l3 w hw
        · rw [hp]; exact hu (by simp)
    | checking =>
      refine ⟨by rw [hp]; exact ha, fun _ => ⟨l1, l2, fun w hw => ?_⟩, fun x => by simp [hp] at x, ho, fun _ => ?_, hf⟩
      · simp only [total, hp]; exact l3 w hw
      · rw [hp]; exact hu (by simp)
    | look r =>
      dsimp only
      have ho' := log_append (o := some r) (f := s.flag) ho (hu (by simp)) hf
      have hf' : ∀ e ∈ s.log ++ [(l.caseNo + 1, some r, s.flag)], e.2.2 = true → s.flag = true := by
        intro e he' ht
        rcases List.mem_append.1 he' with h | h
        · exact hf e h ht
        · rw [List.mem_singleton] at h; subst h; exact ht
      have hpre' : ∀ w, Agrees w (s.log ++ [(l.caseNo + 1, some r, s.flag)]) → s.acts <+: gradeCases w c.sc c.build :=
        fun w hw => hpre w (agrees_append hw).1
      split
      · rename_i hfl
        refine inv_send _ _ hpre' ho' hf' (inv_finish l1 ?_ ho' hf')
        intro w hw
        obtain ⟨a1, a2, a3⟩ := agrees_append hw
        rw [← l3 w a1, inner_abort w bn t cs gs l ha.2 r a2 (a3.trans hfl)]
        simp [ha.1]
      · rename_i hfl
        refine inv_send _ _ hpre' ho' hf' ⟨rfl, fun _ => ⟨l1, l2, fun w hw => ?_⟩, fun x => by simp at x, ho', fun _ => ?_, hf'⟩
        · obtain ⟨a1, a2, a3⟩ := agrees_append hw
          rw [← l3 w a1, inner_result w bn t cs gs l ha.2 r a2 (a3.trans (by simpa using hfl))]
          simp only [total, ha.1, List.map_cons, List.map_nil, List.append_assoc, List.cons_append, List.nil_append]
        · intro e he'
          rcases List.mem_append.1 he' with h | h
          · exact Nat.le_succ_of_le (hu (by simp) e h)
          · rw [List.mem_singleton] at h; subst h; exact Nat.le_refl _
  | ended =>
    dsimp only
    exact ⟨by rw [hp]; trivial, fun x => absurd hp x, he, ho, fun x => absurd hp x, hf⟩

theorem inv_step {c : Abort.Cfg} {s : Abort.St} (h : Inv c s) (a : Action) : Inv c (step c s a) := by
  cases a with
  | main => exact inv_main h
  | checked r =>
    simp only [step]
    split
    · rename_i bn t cs gs l hp
      obtain ⟨ha, hl, he, ho, hu, hf⟩ := h
      rw [hp] at ha hl hu
      obtain ⟨l1, l2, l3⟩ := hl (by simp)
      simp only [total, hp] at l3
      exact ⟨ha, fun _ => ⟨l1, l2, l3⟩, fun x => by simp at x, ho, fun _ => hu (by simp), hf⟩
    · exact h
  | raises =>
    have hpre := so_far h
    simp only [step]
    split
    · rename_i hp
      exact ⟨trivial, fun x => absurd rfl x, fun _ w hw => ⟨hpre w hw, fun x => by simp at x⟩, h.order, fun x => absurd rfl x, h.flag⟩
    · exact h
    · rename_i p bn t cs gs l _ hp
      obtain ⟨ha, hl, he, ho, hu, hf⟩ := h
      rw [hp] at ha hl hu
      obtain ⟨l1, l2, l3⟩ := hl (by simp)
      simp only [total, hp] at l3
      refine ⟨trivial, fun x => absurd rfl x, fun _ w hw => ?_, log_append ho (hu (by simp)) hf, fun x => absurd rfl x, ?_⟩
      · obtain ⟨a1, a2, a3⟩ := agrees_append hw
        refine ⟨hpre w a1, fun _ _ => ?_⟩
        rw [← l3 w a1, inner_raise w bn t cs gs l ha.2 a2]
        exact ha.1
      · intro e he' ht
        rcases List.mem_append.1 he' with h | h
        · exact hf e h ht
        · rw [List.mem_singleton] at h; subst h; exact ht
    · exact h
  | exit => exact ⟨h.acts, h.live, h.ended, h.order, h.upto, h.flag⟩
  | request =>
    simp only [step]
    split
    · exact ⟨h.acts, h.live, h.ended, h.order, h.upto, fun _ _ _ => rfl⟩
    · exact h
  | hangup => exact ⟨h.acts, h.live, h.ended, h.order, h.upto, h.flag⟩
  | listener =>
    simp only [step, listenerStep]
    have base : ∀ (rpc : RPc) (prog : Option Nat) (killed : List Nat), Inv c { s with rpc := rpc, prog := prog, killed := killed } :=
      fun _ _ _ => ⟨h.acts, h.live, h.ended, h.order, h.upto, h.flag⟩
    cases s.rpc with
    | recv =>
      dsimp only
      split
      · exact ⟨h.acts, h.live, h.ended, h.order, h.upto, fun _ _ _ => rfl⟩
      · exact h
    | flagged => dsimp only; split <;> exact base _ _ _
    | grader => dsimp only; split <;> exact base _ _ _
    | kill n => dsimp only; split <;> exact base _ _ _
    | gone => exact h

theorem inv (c : Abort.Cfg) (as : List Action) : Inv c (run c as) := by
  have : ∀ (as : List Action) (s : Abort.St), Inv c s → Inv c (as.foldl (step c) s) := by
    intro as
    induction as with
    | nil => exact fun _ h => h
    | cons a as ih => exact fun s h => ih _ (inv_step h a)
  exact this as _ (inv_init c)

/-- The world of a history. -/
def world (log : List (Nat × Option Res × Bool)) : World :=
  ⟨fun n => (log.find? (·.1 == n)).bind (·.2.1), fun n => log.any fun e => e.2.2 && decide (e.1 ≤ n)⟩

theorem world_agrees {log : List (Nat × Option Res × Bool)} (h : log.Pairwise fun a b => a.1 < b.1 ∧ (a.2.2 = true → b.2.2 = true)) :
    Agrees (world log) log := by
  induction log with
  | nil => simp [Agrees]
  | cons e l ih =>
    obtain ⟨h1, h2⟩ := List.pairwise_cons.1 h
    have ih := ih h2
    intro x hx
    rcases List.mem_cons.1 hx with rfl | hx
    · refine ⟨by simp [world], ?_⟩
      have : (l.any fun e => e.2.2 && decide (e.1 ≤ x.1)) = false := by
        rw [List.any_eq_false]
        intro y hy
        have := (h1 y hy).1
        simp; omega
      simp [world, this]
    · obtain ⟨i1, i2⟩ := ih x hx
      obtain ⟨l1, l2⟩ := h1 x hx
      have hne : (e.1 == x.1) = false := by simp; omega
      refine ⟨?_, ?_⟩
      · simp only [world, List.find?_cons, hne] at *
        exact i1
      · simp only [world, List.any_cons] at *
        rw [i2]
        cases hf : e.2.2 with
        | false => simp
        | true => rw [l2 hf]; simp

/-! ## Requests, programs, numbers -/

/-- Whether the main thread is between the start and the end of a case. -/
def busy : Pc → Bool
  | .grading _ _ _ _ _ _ => true
  | _ => false

theorem run_append (c : Abort.Cfg) (as bs : List Action) : run c (as ++ bs) = bs.foldl (step c) (run c as) := by
  rw [run, List.foldl_append, run]

theorem fold {c : Abort.Cfg} {P : Abort.St → Prop} (as : List Action) (hs : ∀ s, ∀ a ∈ as, P s → P (step c s a)) :
    ∀ s, P s → P (as.foldl (step c) s) := by
  induction as with
  | nil => exact fun _ h => h
  | cons a as ih => exact fun s h => ih (fun s b hb => hs s b (List.mem_cons_of_mem _ hb)) _ (hs s a List.mem_cons_self h)

/-- How the flag comes to be set, and how the abort is told. -/
structure Asked (as : List Action) (s : Abort.St) : Prop where
  hung : s.hung = true → Action.hangup ∈ as
  flag : s.flag = true → s.hung = true ∨ Action.request ∈ as
  told : Act.send .gradingAborted ∈ s.acts → Action.request ∈ as
  cut : s.cut = true → Action.hangup ∈ as
  early : s.early = true → s.pc = .ended ∧ s.acts = []
  start : s.pc = .building → s.acts = []
  set : s.pc ≠ .building → s.pc ≠ .ended → s.grader = true
  seen : s.seen = true → s.hung = true
  rpc : s.rpc ≠ .recv → s.rpc ≠ .gone → s.flag = true

theorem asked_step {c : Abort.Cfg} {as : List Action} {s : Abort.St} {a : Action} (ha : a ∈ as) (h : Asked as s) : Asked as (step c s a) := by
  obtain ⟨h1, h2, h3, h4, h5, h6, h7, h8, h9⟩ := h
  cases a with
  | main =>
    simp only [step, mainStep]
    cases hp : s.pc with
    | building => cases hb : c.build <;> simp only [St.send, St.finish] <;> constructor <;> grind
    | outer gs l => cases gs <;> simp only [St.send, St.finish] <;> constructor <;> grind
    | inner bn cs gs l => cases cs <;> simp only [St.send, St.finish] <;> constructor <;> grind
    | grading p bn t cs gs l => cases p <;> simp only [St.send, St.finish] <;> constructor <;> grind
    | ended => simp only; constructor <;> grind
  | checked r => simp only [step]; constructor <;> grind
  | raises => simp only [step, St.finish]; constructor <;> grind
  | exit => simp only [step]; constructor <;> grind
  | request => simp only [step]; constructor <;> grind
  | hangup => simp only [step]; constructor <;> grind
  | listener => simp only [step, listenerStep]; constructor <;> grind

theorem asked (c : Abort.Cfg) (as : List Action) : Asked as (run c as) :=
  fold as (fun _ _ ha h => asked_step ha h) {} (by constructor <;> simp)

/-- The program, and who may be killed. -/
structure Progs (s : Abort.St) : Prop where
  told : s.pc ≠ .ended → ∀ bn n r, Act.send (.result bn n r) ∈ s.acts → n ≤ past s.pc
  prog : ∀ n, s.prog = some n → (∀ bn r, Act.send (.result bn n r) ∉ s.acts) ∧ (s.pc ≠ .ended → n = past s.pc + 1 ∧ busy s.pc = true)
  killed : ∀ n ∈ s.killed, (∀ bn r, Act.send (.result bn n r) ∉ s.acts) ∧ s.flag = true ∧ (s.pc ≠ .ended → n = past s.pc + 1 ∧ busy s.pc = true)
  rpc : s.rpc ≠ .recv → s.rpc ≠ .gone → s.flag = true
  start : s.pc = .building → s.acts = []
  acts : ∀ bn n r, Act.send (.result bn n r) ∈ s.acts → 0 < n
  dead : ∀ p bn t cs gs l, s.pc = .grading p bn t cs gs l → (p = .checking ∨ ∃ r, p = .look r) → s.prog = none
  cur : ∀ bn t cs gs l, s.pc = .grading .running bn t cs gs l → s.cur = some (l.caseNo + 1)

theorem progs_step {c : Abort.Cfg} {s : Abort.St} {a : Action} (h : Progs s) : Progs (step c s a) := by
  obtain ⟨h1, h2, h3, h4, h5, h6, h7, h8⟩ := h
  cases a with
  | main =>
    simp only [step, mainStep]
    cases hp : s.pc with
    | building => cases hb : c.build <;> simp only [St.send, St.finish] <;> constructor <;> grind [past, busy]
    | outer gs l => cases gs <;> simp only [St.send, St.finish] <;> constructor <;> grind [past, busy]
    | inner bn cs gs l => cases cs <;> simp only [St.send, St.finish] <;> constructor <;> grind [past, busy]
    | grading p bn t cs gs l => cases p <;> simp only [St.send, St.finish] <;> constructor <;> grind [past, busy]
    | ended => simp only; constructor <;> grind [past, busy]
  | checked r => simp only [step]; constructor <;> grind [past, busy]
  | raises => simp only [step, St.finish]; constructor <;> grind [past, busy]
  | exit => simp only [step]; constructor <;> grind [past, busy]
  | request => simp only [step]; constructor <;> grind [past, busy]
  | hangup => simp only [step]; constructor <;> grind [past, busy]
  | listener => simp only [step, listenerStep]; constructor <;> grind [past, busy]

theorem progs (c : Abort.Cfg) (as : List Action) : Progs (run c as) :=
  fold as (fun _ _ _ h => progs_step h) {} (by constructor <;> simp)

/-! ## After the abort -/

/-- Cases given to the grader. -/
def execs (acts : List Act) : Nat := acts.countP fun a => match a with | .exec _ => true | _ => false

/-- Room for one more. -/
def room : Pc → Nat
  | .grading _ _ _ _ _ _ => 0
  | .ended => 0
  | _ => 1

/-- What may still be told. -/
def Quiet (old new : List Act) : Prop := ∃ x, new = old ++ x ∧ ∀ bn n r, Act.send (.result bn n r) ∈ x → r = ⟨Result.SC, 0⟩

theorem Quiet.refl (a : List Act) : Quiet a a := ⟨[], by simp, by simp⟩

theorem Quiet.add {a b x : List Act} (h : Quiet a b) (hx : ∀ bn n r, Act.send (.result bn n r) ∈ x → r = ⟨Result.SC, 0⟩) : Quiet a (b ++ x) := by
  obtain ⟨y, rfl, hy⟩ := h
  exact ⟨y ++ x, by simp, fun bn n r hm => (List.mem_append.1 hm).elim (hy bn n r) (hx bn n r)⟩

theorem execs_send (a : List Act) (es : List Event) : execs (a ++ es.map .send) = execs a := by
  simp [execs, List.countP_append, List.countP_eq_zero]

structure After (a0 : List Act) (n : Nat) (s : Abort.St) : Prop where
  flag : s.flag = true ∨ s.hung = true
  quiet : Quiet a0 s.acts
  execs : execs s.acts + room s.pc ≤ n

theorem after_send {a0 : List Act} {n : Nat} {s : Abort.St} (es : List Event) (k : Abort.St → Abort.St) (hf : s.flag = true ∨ s.hung = true)
    (hq : Quiet a0 s.acts) (he : execs s.acts + room s.pc ≤ n) (hr : s.hung = true ∨ ∀ bn m r, Event.result bn m r ∈ es → r = ⟨Result.SC, 0⟩)
    (hk : ∀ t : Abort.St, (k t).flag = t.flag ∧ (k t).hung = t.hung ∧ (k t).acts = t.acts)
    (hm : (s.hung = true ∧ es ≠ []) ∨ execs s.acts + room (k { s with acts := s.acts ++ es.map .send }).pc ≤ n) : After a0 n (s.send es k) := by
  unfold St.send
  split
  · exact ⟨hf, hq, by simp only [St.finish, room]; omega⟩
  · rename_i hc
    have hm := hm.resolve_left fun h => hc (by simp [h.1, h.2])
    obtain ⟨k1, k2, k3⟩ := hk { s with acts := s.acts ++ es.map .send }
    refine ⟨by rw [k1, k2]; exact hf, ?_, by rw [k3, execs_send]; exact hm⟩
    rw [k3]
    refine hq.add fun bn m r hx => ?_
    simp only [List.mem_map, Act.send.injEq] at hx
    obtain ⟨e, hx, rfl⟩ := hx
    rcases hr with hr | hr
    · rw [hr] at hc
      cases es <;> simp at hc hx
    · exact hr bn m r hx

theorem after_step {c : Abort.Cfg} {a0 : List Act} {n : Nat} {s : Abort.St} {a : Action} (h : After a0 n s) : After a0 n (step c s a) := by
  have h0 := h
  obtain ⟨h1, h2, h3⟩ := h
  cases a with
  | main =>
    simp only [step, mainStep]
    cases hp : s.pc with
    | building =>
      cases hb : c.build with
      | compileError =>
        exact after_send _ _ h1 h2 (by first | exact h3 | (simp only [hp] at *; exact h3)) (.inr (by simp)) (fun _ => ⟨rfl, rfl, rfl⟩) (by right; rw [hp] at h3; simp only [room, St.finish] at *; omega)
      | ok a b d =>
        refine after_send _ _ h1 h2 (by first | exact h3 | (simp only [hp] at *; exact h3)) (.inr ?_) (fun _ => ⟨rfl, rfl, rfl⟩) (by right; rw [hp] at h3; simp only [room] at *; omega)
        cases a <;> simp
    | outer gs l =>
      cases gs with
      | nil => exact after_send _ _ h1 h2 (by first | exact h3 | (simp only [hp] at *; exact h3)) (.inr (by simp)) (fun _ => ⟨rfl, rfl, rfl⟩) (by right; rw [hp] at h3; simp only [room, St.finish] at *; omega)
      | cons g gs =>
        refine after_send _ _ h1 h2 (by first | exact h3 | (simp only [hp] at *; exact h3)) (.inr ?_) (fun _ => ⟨rfl, rfl, rfl⟩) (by right; rw [hp] at h3; simp only [room] at *; omega)
        split <;> simp
    | inner bn cs gs l =>
      cases cs with
      | nil =>
        refine after_send _ _ h1 h2 (by first | exact h3 | (simp only [hp] at *; exact h3)) (.inr ?_) (fun _ => ⟨rfl, rfl, rfl⟩) (by right; rw [hp] at h3; simp only [room] at *; omega)
        split <;> simp
      | cons t cs =>
        dsimp only
        split
        · exact after_send _ _ h1 h2 (by first | exact h3 | (simp only [hp] at *; exact h3)) (.inr (by simp)) (fun _ => ⟨rfl, rfl, rfl⟩) (by right; rw [hp] at h3; simp only [room] at *; omega)
        · refine ⟨h1, h2.add (by simp), ?_⟩
          rw [hp] at h3
          simp only [room, Abt.execs, List.countP_append, List.countP_cons, List.countP_nil] at *
          simpa using h3
    | grading p bn t cs gs l =>
      rw [hp] at h3
      cases p with
      | input => exact ⟨h1, h2, h3⟩
      | launched => exact ⟨h1, h2, h3⟩
      | running =>
        dsimp only
        split
        · exact ⟨h1, h2, h3⟩
        · exact h0
      | checking => exact h0
      | look r =>
        dsimp only
        split
        · refine after_send _ _ h1 h2 (by first | exact h3 | (simp only [hp] at *; exact h3)) (.inr (by simp)) (fun _ => ⟨rfl, rfl, rfl⟩) ?_
          right; simp only [room, St.finish] at *; omega
        · rename_i hf
          have hh : s.hung = true := h1.resolve_left hf
          exact after_send _ _ h1 h2 (by first | exact h3 | (simp only [hp] at *; exact h3)) (.inl hh) (fun _ => ⟨rfl, rfl, rfl⟩) (.inl ⟨hh, by simp⟩)
    | ended => exact h0
  | checked r =>
    simp only [step]
    split
    · rename_i hp; rw [hp] at h3; exact ⟨h1, h2, h3⟩
    · exact h0
  | raises =>
    simp only [step]
    split
    · exact ⟨h1, h2, by simp only [St.finish, room]; omega⟩
    · exact h0
    · exact ⟨h1, h2, by simp only [St.finish, room]; omega⟩
    · exact h0
  | exit => exact ⟨h1, h2, h3⟩
  | request =>
    simp only [step]
    split
    · exact ⟨.inl rfl, h2, h3⟩
    · exact h0
  | hangup => exact ⟨.inr rfl, h2, h3⟩
  | listener =>
    simp only [step, listenerStep]
    cases s.rpc with
    | recv => dsimp only; split; · exact ⟨.inl rfl, h2, h3⟩
              · exact h0
    | flagged => dsimp only; split <;> exact ⟨h1, h2, h3⟩
    | grader => dsimp only; split <;> exact ⟨h1, h2, h3⟩
    | kill n => dsimp only; split <;> exact ⟨h1, h2, h3⟩
    | gone => exact h0

/-- How far the listener is from the kill. -/
def away (n : Nat) : RPc → Option Nat
  | .flagged => some 3
  | .grader => some 2
  | .kill m => if m = n then some 1 else none
  | _ => none

/-- The main thread is past the launch of the program of case `n`. -/
def launched (n : Nat) : Pc → Bool
  | .ended => true
  | .grading .running _ _ _ _ l | .grading .checking _ _ _ _ l | .grading (.look _) _ _ _ _ l => decide (n ≤ l.caseNo + 1)
  | .grading _ _ _ _ _ l | .outer _ l | .inner _ _ _ l => decide (n ≤ l.caseNo)
  | .building => false

def waiting (n : Nat) : Pc → Bool
  | .grading .running _ _ _ _ l => decide (n = l.caseNo + 1)
  | _ => false

/-- The program of case `n` is gone, or will be after this many steps of the listener. -/
def Doomed (n k : Nat) (s : Abort.St) : Prop :=
  (s.prog ≠ some n ∧ launched n s.pc = true) ∨
  (s.prog = some n ∧ waiting n s.pc = true ∧ s.grader = true ∧ s.cur = some n ∧ ∃ d, away n s.rpc = some d ∧ d ≤ k)

theorem doomed_other {c : Abort.Cfg} {n k : Nat} {s : Abort.St} {a : Action} (h : Doomed n k s) (h1 : a ≠ .raises) (h2 : a ≠ .listener) :
    Doomed n k (step c s a) := by
  unfold Doomed at *
  cases a with
  | main =>
    simp only [step, mainStep]
    cases hp : s.pc with
    | building => cases hb : c.build <;> simp only [St.send, St.finish] <;> grind [launched, waiting]
    | outer gs l => cases gs <;> simp only [St.send, St.finish] <;> grind [launched, waiting]
    | inner bn cs gs l => cases cs <;> simp only [St.send, St.finish] <;> grind [launched, waiting]
    | grading p bn t cs gs l => cases p <;> simp only [St.send, St.finish] <;> grind [launched, waiting]
    | ended => simp only; grind [launched, waiting]
  | checked r => simp only [step]; grind [launched, waiting]
  | raises => exact absurd rfl h1
  | exit =>
    simp only [step]
    have : waiting n s.pc = true → launched n s.pc = true := by
      cases s.pc with
      | grading p bn t cs gs l => cases p <;> simp [launched, waiting]; omega
      | _ => simp [waiting]
    grind
  | request => simp only [step]; grind [away]
  | hangup => simp only [step]; grind
  | listener => exact absurd rfl h2

theorem doomed_listener {c : Abort.Cfg} {n k : Nat} {s : Abort.St} (h : Doomed n (k + 1) s) : Doomed n k (step c s .listener) := by
  have : waiting n s.pc = true → launched n s.pc = true := by
    cases s.pc with
    | grading p bn t cs gs l => cases p <;> simp [launched, waiting]; omega
    | _ => simp [waiting]
  unfold Doomed at *
  simp only [step, listenerStep]
  grind [away]

theorem doomed {c : Abort.Cfg} {n : Nat} (bs : List Action) : ∀ (k : Nat) (s : Abort.St), Doomed n k s → Action.raises ∉ bs → k ≤ bs.count .listener →
    (bs.foldl (step c) s).prog ≠ some n := by
  induction bs with
  | nil =>
    intro k s h _ hk
    simp only [List.count_nil, Nat.le_zero] at hk
    subst hk
    rcases h with h | ⟨-, -, -, -, d, h1, h2⟩
    · exact h.1
    · cases hr : s.rpc <;> grind [away]
  | cons a bs ih =>
    intro k s h hr hk
    rw [List.foldl_cons]
    by_cases ha : a = .listener
    · subst ha
      rw [List.count_cons_self] at hk
      cases k with
      | zero => exact ih 0 _ (doomed_listener (h.imp id fun ⟨a, b, c, d, e, f, g⟩ => ⟨a, b, c, d, e, f, by omega⟩)) (fun h => hr (List.mem_cons_of_mem _ h)) (Nat.zero_le _)
      | succ k => exact ih k _ (doomed_listener h) (fun h => hr (List.mem_cons_of_mem _ h)) (by omega)
    · rw [List.count_cons_of_ne ha] at hk
      exact ih k _ (doomed_other h (fun e => hr (e ▸ List.mem_cons_self)) ha) (fun h => hr (List.mem_cons_of_mem _ h)) hk

end Abt

open Abt

/-- C100.  The two threads together do what the main thread does alone (`gradeCases`, C11 to C13) in a world where an abort, once seen, stays: however
their steps, requests, the end of the program and of the judge are interleaved. As long as the judge is there, and unless building fails, nothing is
missing in the end. -/
theorem C100_refines (c : Abort.Cfg) (as : List Action) : ∃ w : World, (∀ n m, n ≤ m → w.aborted n = true → w.aborted m = true) ∧
    (∀ n, w.aborted n = true → Action.request ∈ as ∨ Action.hangup ∈ as) ∧ (run c as).acts <+: gradeCases w c.sc c.build ∧
    ((run c as).pc = .ended → Action.hangup ∉ as → (run c as).acts ≠ [] → (run c as).acts = gradeCases w c.sc c.build) := by
  have hi := inv c as
  have hq := asked c as
  generalize run c as = s at *
  refine ⟨world s.log, fun n m hnm h => ?_, fun n h => ?_, so_far hi _ (world_agrees hi.order), fun he hh ha => ?_⟩
  · simp only [world, List.any_eq_true, Bool.and_eq_true, decide_eq_true_eq] at h ⊢
    obtain ⟨e, he, h1, h2⟩ := h
    exact ⟨e, he, h1, Nat.le_trans h2 hnm⟩
  · simp only [world, List.any_eq_true, Bool.and_eq_true, decide_eq_true_eq] at h
    obtain ⟨e, he, h1, -⟩ := h
    exact (hq.flag (hi.flag e he h1)).elim (fun h => .inr (hq.hung h)) .inl
  · refine (hi.ended he _ (world_agrees hi.order)).2 ?_ ?_
    · rw [Bool.eq_false_iff]; exact fun h => ha (hq.early h).2
    · rw [Bool.eq_false_iff]; exact fun h => hh (hq.cut h)

/-- C100.  The site is told of an abort only if it asked for one: not when the judge is gone, and not for any other reason. -/
theorem C100_only_asked (c : Abort.Cfg) (as : List Action) (h : Act.send .gradingAborted ∈ (run c as).acts) : Action.request ∈ as :=
  (asked c as).told h

/-- C100.  Once the flag is set, or the judge is gone, at most one more case is begun, and no verdict is told but that of cases that are skipped. -/
theorem C100_one_more (c : Abort.Cfg) (as bs : List Action) (h : (run c as).flag = true ∨ (run c as).hung = true) :
    execs (run c (as ++ bs)).acts ≤ execs (run c as).acts + 1 ∧
    ∃ x, (run c (as ++ bs)).acts = (run c as).acts ++ x ∧ ∀ bn n r, Act.send (.result bn n r) ∈ x → r = ⟨Result.SC, 0⟩ := by
  have h0 : After (run c as).acts (execs (run c as).acts + 1) (run c as) := by
    refine ⟨h, .refl _, ?_⟩
    cases (run c as).pc <;> simp [room]
  rw [run_append]
  obtain ⟨-, h2, h3⟩ := fold bs (fun _ _ _ h => after_step h) _ h0
  exact ⟨by omega, h2⟩

/-- C100.  If this happens during a case, no other is begun, and all that is told after it is the abort: whatever the outcome, unless the judge is gone
or grading the case fails. -/
theorem C100_told (c : Abort.Cfg) (as bs : List Action) (p : Part) (bn : Option Nat) (t : TestCase) (cs : List TestCase)
    (gs : List (Option Nat × List TestCase)) (l : Worker.St) (hp : (run c as).pc = .grading p bn t cs gs l) (hf : (run c as).flag = true)
    (hh : Action.hangup ∉ as ++ bs) (hr : Action.raises ∉ bs) (he : (run c (as ++ bs)).pc = .ended) :
    (run c (as ++ bs)).acts = (run c as).acts ++ [.send .gradingAborted] := by
  have key : ∀ s : Abort.St, ∀ a ∈ bs, (s.flag = true ∧ s.hung = false ∧ ((busy s.pc = true ∧ s.acts = (run c as).acts) ∨
      (s.pc = .ended ∧ s.acts = (run c as).acts ++ [.send .gradingAborted]))) →
      ((step c s a).flag = true ∧ (step c s a).hung = false ∧ ((busy (step c s a).pc = true ∧ (step c s a).acts = (run c as).acts) ∨
      ((step c s a).pc = .ended ∧ (step c s a).acts = (run c as).acts ++ [.send .gradingAborted]))) := by
    intro s a ha h
    have hr' : a ≠ .raises := fun e => hr (e ▸ ha)
    have hh' : a ≠ .hangup := fun e => hh (by simp [← e, ha])
    cases a with
    | main =>
      simp only [step, mainStep]
      cases hp : s.pc with
      | grading p bn t cs gs l => cases p <;> simp only [St.send, St.finish] <;> grind [busy]
      | ended => simp only; grind
      | _ => grind [busy]
    | checked r => simp only [step]; grind [busy]
    | raises => exact absurd rfl hr'
    | exit => simp only [step]; grind
    | request => simp only [step]; grind
    | hangup => exact absurd rfl hh'
    | listener => simp only [step, listenerStep]; grind
  have h0 : (run c as).hung = false := by
    rw [Bool.eq_false_iff]; exact fun h => hh (List.mem_append_left _ ((asked c as).hung h))
  have := fold bs key (run c as) ⟨hf, h0, .inl ⟨by rw [hp]; rfl, rfl⟩⟩
  rw [← run_append] at this
  rcases this.2.2 with h | h
  · rw [he] at h; exact absurd h.1 (by simp [busy])
  · exact h.2

/-- C100.  The program of the case is killed at once: three steps of the listener after the request it is dead, whatever the main thread does meanwhile.
(The program must be assigned, and the grader must not fail meanwhile: see `C100_window_fails`.) -/
theorem C100_killed_partial (c : Abort.Cfg) (as bs : List Action) (bn : Option Nat) (t : TestCase) (cs : List TestCase)
    (gs : List (Option Nat × List TestCase)) (l : Worker.St) (hp : (run c as).pc = .grading .running bn t cs gs l) (hl : (run c as).rpc = .recv)
    (hh : (run c as).hung = false) (hr : Action.raises ∉ bs) (hb : 3 ≤ bs.count .listener) :
    (run c (as ++ .request :: bs)).prog ≠ some (l.caseNo + 1) := by
  rw [run_append, List.foldl_cons]
  refine doomed bs 3 _ ?_ hr hb
  have hg := (asked c as).set (by rw [hp]; simp) (by rw [hp]; simp)
  have hc := (progs c as).cur _ _ _ _ _ hp
  simp only [step, hl, hh, and_self, if_true, Doomed, hp, launched, waiting, hg, hc, away]
  by_cases h : (run c as).prog = some (l.caseNo + 1)
  · exact .inr ⟨h, by simp, trivial, trivial, 3, rfl, Nat.le_refl _⟩
  · exact .inl ⟨h, by simp⟩

/-- C100.  Nobody is judged by what an abort did to them: the verdict of a program that was killed for it is never told. -/
theorem C100_no_verdict (c : Abort.Cfg) (as : List Action) (n : Nat) (h : n ∈ (run c as).killed) (bn : Option Nat) (r : Res) :
    Act.send (.result bn n r) ∉ (run c as).acts :=
  ((progs c as).killed n h).1 bn r

/-- C100.  When the judge is gone nothing is sent any more. -/
theorem C100_hangup (c : Abort.Cfg) (as bs : List Action) (h : (run c as).hung = true) :
    ∀ e, (run c (as ++ bs)).acts.count (.send e) = (run c as).acts.count (.send e) := by
  intro e
  have key : ∀ s : Abort.St, ∀ a ∈ bs, (s.hung = true ∧ s.acts.count (.send e) = (run c as).acts.count (.send e)) →
      ((step c s a).hung = true ∧ (step c s a).acts.count (.send e) = (run c as).acts.count (.send e)) := by
    intro s a ha h
    obtain ⟨h1, h2⟩ := h
    have hsend : ∀ (s : Abort.St) (es : List Event) (k : Abort.St → Abort.St), s.hung = true → s.acts.count (.send e) = (run c as).acts.count (.send e) →
        (∀ t, (k t).hung = t.hung ∧ (k t).acts = t.acts) →
        ((s.send es k).hung = true ∧ (s.send es k).acts.count (.send e) = (run c as).acts.count (.send e)) := by
      intro s es k h1 h2 hk
      unfold St.send
      cases es with
      | nil => simp [hk, h1, h2]
      | cons x es => simp [h1, h2, St.finish]
    cases a with
    | main =>
      simp only [step, mainStep]
      cases hp : s.pc with
      | building => cases hb : c.build <;> exact hsend _ _ _ h1 h2 (fun _ => ⟨rfl, rfl⟩)
      | outer gs l => cases gs <;> exact hsend _ _ _ h1 h2 (fun _ => ⟨rfl, rfl⟩)
      | inner bn cs gs l =>
        cases cs with
        | nil => exact hsend _ _ _ h1 h2 (fun _ => ⟨rfl, rfl⟩)
        | cons t cs =>
          dsimp only
          split
          · exact hsend _ _ _ h1 h2 (fun _ => ⟨rfl, rfl⟩)
          · exact ⟨h1, by simp [h2]⟩
      | grading p bn t cs gs l =>
        cases p with
        | look r => dsimp only; split <;> exact hsend _ _ _ h1 h2 (fun _ => ⟨rfl, rfl⟩)
        | running => dsimp only; split <;> exact ⟨h1, h2⟩
        | _ => exact ⟨h1, h2⟩
      | ended => exact ⟨h1, h2⟩
    | checked r => simp only [step]; split <;> exact ⟨h1, h2⟩
    | raises => simp only [step]; split <;> exact ⟨h1, h2⟩
    | exit => exact ⟨h1, h2⟩
    | request => simp only [step]; split <;> exact ⟨h1, h2⟩
    | hangup => exact ⟨rfl, h2⟩
    | listener =>
      simp only [step, listenerStep]
      cases s.rpc with
      | recv => dsimp only; split <;> exact ⟨h1, h2⟩
      | flagged => dsimp only; split <;> exact ⟨h1, h2⟩
      | grader => dsimp only; split <;> exact ⟨h1, h2⟩
      | kill n => dsimp only; split <;> exact ⟨h1, h2⟩
      | gone => exact ⟨h1, h2⟩
  rw [run_append]
  exact (fold bs key _ ⟨h, rfl⟩).2

/-! ## Where it goes wrong -/

/-- One case of a point, and two. -/
private def one : Abort.Cfg := ⟨.ok false false [.one ⟨0, 0, 1⟩], false⟩
private def two : Abort.Cfg := ⟨.ok false false [.one ⟨0, 0, 1⟩, .one ⟨1, 0, 1⟩], true⟩

/-- C100.  A request between the start of a program and the assignment of `_current_proc` (or any time between the end of the program of the case before
and that) does not reach the program: it lives on, and nothing is told, until it ends by itself or for its limits. -/
theorem C100_window_fails : ∃ (c : Abort.Cfg) (as : List Action), (run c as).flag = true ∧ (run c as).rpc = .recv ∧ (run c as).prog = some 1 ∧
    ∀ bs, Action.exit ∉ bs → Action.request ∉ bs → Action.hangup ∉ bs →
      (run c (as ++ bs)).prog = some 1 ∧ (run c (as ++ bs)).acts = (run c as).acts := by
  refine ⟨one, [.main, .main, .main, .main, .request, .listener, .listener], rfl, rfl, rfl, fun bs h1 h2 h3 => ?_⟩
  rw [run_append]
  generalize hA : (run one [.main, .main, .main, .main, .request, .listener, .listener]).acts = A
  have key : ∀ s : Abort.St, ∀ a ∈ bs, (s.prog = some 1 ∧ s.acts = A ∧ s.rpc = .recv ∧ s.hung = false ∧
      (s.pc = .ended ∨ ∃ p bn t cs gs l, s.pc = .grading p bn t cs gs l ∧ (p = .launched ∨ p = .running))) →
      ((step one s a).prog = some 1 ∧ (step one s a).acts = A ∧ (step one s a).rpc = .recv ∧ (step one s a).hung = false ∧
      ((step one s a).pc = .ended ∨ ∃ p bn t cs gs l, (step one s a).pc = .grading p bn t cs gs l ∧ (p = .launched ∨ p = .running))) := by
    intro s a ha h
    obtain ⟨k1, k2, k3, k4, k5⟩ := h
    cases a with
    | main =>
      simp only [step, mainStep]
      rcases k5 with k5 | ⟨p, bn, t, cs, gs, l, k5, rfl | rfl⟩ <;> rw [k5] <;> dsimp only
      · exact ⟨k1, k2, k3, k4, .inl k5⟩
      · exact ⟨k1, k2, k3, k4, .inr ⟨_, _, _, _, _, _, rfl, .inr rfl⟩⟩
      · rw [if_neg (by simp [k1])]
        exact ⟨k1, k2, k3, k4, .inr ⟨_, _, _, _, _, _, k5, .inr rfl⟩⟩
    | checked r =>
      simp only [step]
      rcases k5 with k5 | ⟨p, bn, t, cs, gs, l, k5, rfl | rfl⟩ <;> rw [k5] <;> dsimp only
      · exact ⟨k1, k2, k3, k4, .inl k5⟩
      · exact ⟨k1, k2, k3, k4, .inr ⟨_, _, _, _, _, _, k5, .inl rfl⟩⟩
      · exact ⟨k1, k2, k3, k4, .inr ⟨_, _, _, _, _, _, k5, .inr rfl⟩⟩
    | raises =>
      simp only [step]
      rcases k5 with k5 | ⟨p, bn, t, cs, gs, l, k5, rfl | rfl⟩ <;> rw [k5] <;> dsimp only
      · exact ⟨k1, k2, k3, k4, .inl k5⟩
      · exact ⟨k1, k2, k3, k4, .inl rfl⟩
      · exact ⟨k1, k2, k3, k4, .inl rfl⟩
    | exit => exact absurd ha h1
    | request => exact absurd ha h2
    | hangup => exact absurd ha h3
    | listener =>
      simp only [step, listenerStep, k3, k4]
      exact ⟨k1, k2, k3, k4, k5⟩
  have h0 : (run one [.main, .main, .main, .main, .request, .listener, .listener]).pc =
      .grading .launched none ⟨0, 0, 1⟩ [] [] ⟨[.send (.gradingBegin false)], 0, false, false⟩ := rfl
  have := fold bs key _ ⟨rfl, hA, rfl, rfl, .inr ⟨_, _, _, _, _, _, h0, .inl rfl⟩⟩
  exact ⟨this.1, this.2.1⟩

/-- C100.  A request while the submission is compiled reaches nothing either: after all of it is dealt with, the first program is started all the same. -/
theorem C100_compile_fails : ∃ (c : Abort.Cfg) (as bs : List Action), (run c as).pc = .building ∧ (run c as).flag = true ∧ (run c as).rpc = .recv ∧
    Action.request ∉ bs ∧ (run c (as ++ bs)).prog = some 1 :=
  ⟨one, [.request, .listener], [.main, .main, .main, .main], rfl, rfl, rfl, by decide, rfl⟩

/-- C100.  A request after the last case that is graded is lost: the grading is told to have ended, although cases were left. -/
theorem C100_lost_fails : ∃ (c : Abort.Cfg) (as bs : List Action), (run c as).flag = true ∧ (run c as).rpc = .recv ∧ Action.hangup ∉ as ++ bs ∧
    (run c (as ++ bs)).acts = (run c as).acts ++ [.send (.result none 2 ⟨Result.SC, 0⟩), .send .gradingEnd] :=
  ⟨two, [.main, .main, .main, .main, .main, .exit, .main, .checked ⟨Result.WA, 0⟩, .main, .request, .listener, .listener, .listener],
    [.main, .main, .main, .main, .main], rfl, rfl, by decide, by decide +kernel⟩

/-- C100.  An abort can be reported as an internal error: if grading the case of a killed program fails, that is what is told. -/
theorem C100_error_fails : ∃ (c : Abort.Cfg) (as : List Action), (run c as).killed = [1] ∧ Action.hangup ∉ as ∧ (run c as).pc = .ended ∧
    Act.send .gradingAborted ∉ (run c as).acts :=
  ⟨one, [.main, .main, .main, .main, .main, .request, .listener, .listener, .listener, .main, .raises], rfl, by decide, rfl, by decide +kernel⟩

/-! ## Examples -/

/-- A program killed by an abort, and the site told. -/
example : (run two [.main, .main, .main, .main, .main, .request, .listener, .listener, .listener, .main, .checked ⟨Result.WA, 0⟩, .main]).acts =
    [.send (.gradingBegin false), .exec 1, .send .gradingAborted] ∧
    (run two [.main, .main, .main, .main, .main, .request, .listener, .listener, .listener, .main, .checked ⟨Result.WA, 0⟩, .main]).killed = [1] := by
  decide +kernel

/-- The hypotheses of `C100_killed_partial` and `C100_told`. -/
example : (∃ bn t cs gs l, (run two [.main, .main, .main, .main, .main]).pc = .grading .running bn t cs gs l) ∧
    (run two [.main, .main, .main, .main, .main]).prog = some 1 ∧ (run two [.main, .main, .main, .main, .main]).rpc = .recv ∧
    (run two [.main, .main, .main, .main, .main]).hung = false :=
  ⟨⟨_, _, _, _, _, rfl⟩, rfl, rfl, rfl⟩

/-- The judge is gone: the case is finished, nothing is sent. -/
example : (run two [.main, .main, .main, .main, .hangup, .main, .listener, .listener, .listener, .listener, .main, .checked ⟨0, 1⟩, .main]).acts =
    [.send (.gradingBegin false), .exec 1] ∧
    (run two [.main, .main, .main, .main, .hangup, .main, .listener, .listener, .listener, .listener, .main, .checked ⟨0, 1⟩, .main]).cut = true := by
  decide +kernel

end Verif.Props
