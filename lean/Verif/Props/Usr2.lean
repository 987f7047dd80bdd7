import Verif.Spec.Usr2
import Mathlib.Tactic.ByContra

/-!
# C121: an update of the problems asked for by signal
-/

namespace Verif.Props
open Verif.Usr2

namespace Usr2L

def inside (p : SPc) : Bool := decide (p ≠ .acquire)

def uInside : UPc → Bool
  | .wCheck | .wRelease | .cWrite | .cRelease => true
  | _ => false

structure Inv (s : St) : Prop where
  main : s.main.countP inside = if s.owner = some .main then 1 else 0
  oth : ∀ n, (∃ p, s.others n = some p ∧ inside p = true) ↔ s.owner = some (.other n)
  upd : uInside s.upd = true ↔ s.owner = some .updater
  due : s.due = true → s.flag = true ∨ s.upd = .cRelease ∨ s.upd = .done
  wake : s.upd = .asleep → s.flag = true → s.woken = true ∨ SPc.notify ∈ s.main ∨ ∃ n, s.others n = some .notify
  done : s.upd = .done → s.exit = true

theorem inv_init : Inv {} :=
  ⟨rfl, by simp, by simp [uInside], by simp, by simp, by simp⟩

theorem within_iff {s : St} (h : Inv s) : Within s ↔ s.owner = some .main := by
  have := h.main
  constructor
  · rintro ⟨p, hp, hn⟩
    by_contra hc
    rw [if_neg hc, List.countP_eq_zero] at this
    exact this p hp (by simpa [inside] using hn)
  · intro ho
    rw [if_pos ho] at this
    have hpos : 0 < s.main.countP inside := by omega
    obtain ⟨p, hp, hi⟩ := List.countP_pos_iff.mp hpos
    exact ⟨p, hp, by simpa [inside] using hi⟩

theorem inv_main (s : St) (h : Inv s) : Inv (act s (.step .main)) := by
  obtain ⟨h1, h2, h3, h4, h5, h6⟩ := h
  cases hm : s.main with
  | nil => simp only [act, hm]; exact ⟨h1, h2, h3, h4, h5, h6⟩
  | cons p ps =>
    rw [hm] at h1 h5
    cases p with
    | acquire =>
      by_cases ho : s.owner = none
      · simp only [act, hm, setStep, ho, if_true]
        refine ⟨?_, ?_, ?_, h4, ?_, h6⟩
        · simp [inside, List.countP_cons, ho] at h1 ⊢; exact h1
        · intro n; have := h2 n; simp [ho] at this ⊢; exact this
        · simp [ho] at h3 ⊢; exact h3
        · intro a b; rcases h5 a b with h | h | h
          · exact .inl h
          · exact .inr (.inl (by simpa using h))
          · exact .inr (.inr h)
      · simp only [act, hm, setStep, ho, if_false]
        exact ⟨by rw [hm]; exact h1, h2, h3, h4, by rw [hm]; exact h5, h6⟩
    | write =>
      simp only [act, hm, setStep]
      refine ⟨?_, h2, h3, fun _ => .inl rfl, fun _ _ => .inr (.inl (by simp)), h6⟩
      simpa [inside, List.countP_cons] using h1
    | notify =>
      simp only [act, hm, setStep]
      refine ⟨?_, h2, h3, h4, fun a _ => .inl (by simp only at a; simp [a]), h6⟩
      simpa [inside, List.countP_cons] using h1
    | release =>
      simp only [act, hm, setStep]
      have ho : s.owner = some .main := by
        by_contra hc
        rw [if_neg hc, List.countP_eq_zero] at h1
        exact h1 .release (by simp) rfl
      refine ⟨?_, ?_, ?_, h4, ?_, h6⟩
      · rw [if_pos ho] at h1
        simp [inside, List.countP_cons] at h1 ⊢
        exact h1
      · intro n; have := h2 n; simp [ho] at this ⊢; exact this
      · simp [ho] at h3 ⊢; exact h3
      · intro a b; rcases h5 a b with h | h | h
        · exact .inl h
        · exact .inr (.inl (by simpa using h))
        · exact .inr (.inr h)

theorem inv_other (s : St) (n : Nat) (h : Inv s) : Inv (act s (.step (.other n))) := by
  obtain ⟨h1, h2, h3, h4, h5, h6⟩ := h
  cases hm : s.others n with
  | none => simp only [act, hm]; exact ⟨h1, h2, h3, h4, h5, h6⟩
  | some p =>
    have hn := h2 n
    cases p with
    | acquire =>
      by_cases ho : s.owner = none
      · simp only [act, hm, setStep, ho, if_true]
        refine ⟨?_, ?_, ?_, h4, ?_, h6⟩
        · simp [ho] at h1 ⊢; exact h1
        · intro k
          have hk := h2 k
          by_cases e : k = n
          · subst e; simp [inside]
          · rw [ho] at hk
            simp only [e, if_false, Option.some.injEq, Who.other.injEq]
            constructor
            · intro x
              have := hk.1 x
              simp at this
            · intro x
              exact absurd x.symm e
        · simp [ho] at h3 ⊢; exact h3
        · intro a b; rcases h5 a b with h | h | ⟨k, h⟩
          · exact .inl h
          · exact .inr (.inl h)
          · refine .inr (.inr ⟨k, ?_⟩)
            have : k ≠ n := by rintro rfl; rw [hm] at h; cases h
            simpa [this] using h
      · simp only [act, hm, setStep, ho, if_false]
        exact ⟨h1, h2, h3, h4, h5, h6⟩
    | write =>
      simp only [act, hm, setStep]
      refine ⟨h1, ?_, h3, fun _ => .inl rfl, fun _ _ => .inr (.inr ⟨n, by simp⟩), h6⟩
      intro k
      by_cases e : k = n
      · subst e; simp [hm, inside] at hn; simp [inside, hn]
      · simpa [e] using h2 k
    | notify =>
      simp only [act, hm, setStep]
      refine ⟨h1, ?_, h3, h4, fun a _ => .inl (by simp only at a; simp [a]), h6⟩
      intro k
      by_cases e : k = n
      · subst e; simp [hm, inside] at hn; simp [inside, hn]
      · simpa [e] using h2 k
    | release =>
      simp only [act, hm, setStep]
      have ho : s.owner = some (.other n) := by simpa [hm, inside] using hn
      refine ⟨?_, ?_, ?_, h4, ?_, h6⟩
      · simp [ho] at h1 ⊢; exact h1
      · intro k
        have hk := h2 k
        by_cases e : k = n
        · subst e; simp
        · simp only [ho, Option.some.injEq, Who.other.injEq] at hk
          simp only [e, if_false]
          constructor
          · intro hx; exact absurd (hk.1 hx).symm e
          · intro hx; cases hx
      · simp [ho] at h3 ⊢; exact h3
      · intro a b; rcases h5 a b with h | h | ⟨k, h⟩
        · exact .inl h
        · exact .inr (.inl h)
        · refine .inr (.inr ⟨k, ?_⟩)
          have : k ≠ n := by rintro rfl; rw [hm] at h; cases h
          simpa [this] using h

theorem inv_upd (s : St) (h : Inv s) : Inv (act s (.step .updater)) := by
  obtain ⟨h1, h2, h3, h4, h5, h6⟩ := h
  simp only [act, updStep]
  cases hu : s.upd <;> simp only [hu] at h3 h4 h5 h6 ⊢ <;> (try split) <;>
    (refine ⟨?_, ?_, ?_, ?_, ?_, ?_⟩ <;> simp_all [uInside] <;> try assumption)

theorem inv_act (s : St) (a : Act) (h : Inv s) : Inv (act s a) := by
  cases a with
  | signal =>
    obtain ⟨h1, h2, h3, h4, h5, h6⟩ := h
    refine ⟨?_, h2, h3, h4, ?_, h6⟩
    · show (SPc.acquire :: s.main).countP inside = if s.owner = some .main then 1 else 0
      rw [← h1, List.countP_cons]
      rfl
    intro a b; rcases h5 a b with h | h | h
    · exact .inl h
    · exact .inr (.inl (List.mem_cons_of_mem _ h))
    · exact .inr (.inr h)
  | murder =>
    simp only [act]
    split
    · rename_i hm
      obtain ⟨h1, h2, h3, h4, h5, h6⟩ := h
      refine ⟨?_, h2, h3, h4, ?_, fun _ => rfl⟩
      · simpa [hm, inside, List.countP_cons] using h1
      · intro a b; rcases h5 a b with h | h | h
        · exact .inl h
        · rw [hm] at h; cases h
        · exact .inr (.inr h)
    · exact h
  | call n =>
    simp only [act]
    split
    · rename_i hn
      obtain ⟨h1, h2, h3, h4, h5, h6⟩ := h
      refine ⟨h1, ?_, h3, h4, ?_, h6⟩
      · intro k
        by_cases e : k = n
        · subst e
          have := h2 k
          simp [hn] at this
          simp [inside, this]
        · simpa [e] using h2 k
      · intro a b; rcases h5 a b with h | h | ⟨k, h⟩
        · exact .inl h
        · exact .inr (.inl h)
        · refine .inr (.inr ⟨k, ?_⟩)
          have : k ≠ n := by rintro rfl; rw [hn] at h; cases h
          simpa [this] using h
    · exact h
  | step w =>
    cases w with
    | main => exact inv_main s h
    | other n => exact inv_other s n h
    | updater => exact inv_upd s h

theorem run_cons (s : St) (a : Act) (as : List Act) : run s (a :: as) = run (act s a) as := rfl

theorem run_append (s : St) (as bs : List Act) : run s (as ++ bs) = run (run s as) bs := by simp [run, List.foldl_append]

theorem inv_run : ∀ (as : List Act) (s : St), Inv s → Inv (run s as)
  | [], _, h => h
  | a :: as, s, h => inv_run as _ (inv_act s a h)

/-! ## Stuck -/

/-- The main thread waits for a lock it has. -/
def Stuck (s : St) : Prop := Inv s ∧ s.owner = some .main ∧ s.main.head? = some .acquire

theorem stuck_act (s : St) (a : Act) (h : Stuck s) : Stuck (act s a) ∧ (act s a).pushes = s.pushes ∧
    (∀ n p, s.others n = some p → (act s a).others n = some p) := by
  obtain ⟨hi, ho, hm⟩ := h
  have hi' := inv_act s a hi
  cases a with
  | signal => exact ⟨⟨hi', ho, rfl⟩, rfl, fun _ _ h => h⟩
  | murder =>
    have : s.main ≠ [] := by rintro e; rw [e] at hm; cases hm
    have e : act s .murder = s := by simp [act, this]
    rw [e]
    exact ⟨⟨hi, ho, hm⟩, rfl, fun _ _ h => h⟩
  | call n =>
    refine ⟨⟨hi', ?_, ?_⟩, ?_, ?_⟩ <;> simp only [act] <;> split <;> try assumption
    · rfl
    · rfl
    · rename_i hn
      intro k p hk
      have : k ≠ n := by rintro rfl; rw [hn] at hk; cases hk
      simpa [this] using hk
    · exact fun _ _ h => h
  | step w =>
    cases w with
    | main =>
      have e : act s (.step .main) = s := by
        cases hl : s.main with
        | nil => simp [act, hl]
        | cons p ps =>
          rw [hl] at hm
          cases hm
          simp [act, hl, setStep, ho]
      rw [e]
      exact ⟨⟨hi, ho, hm⟩, rfl, fun _ _ h => h⟩
    | other n =>
      have e : act s (.step (.other n)) = s := by
        cases hl : s.others n with
        | none => simp [act, hl]
        | some p =>
          have hn := hi.oth n
          rw [hl, ho] at hn
          have hp : p = .acquire := by
            by_contra hc
            have := hn.1 ⟨p, rfl, by simpa [inside] using hc⟩
            cases this
          subst hp
          simp [act, hl, setStep, ho]
      rw [e]
      exact ⟨⟨hi, ho, hm⟩, rfl, fun _ _ h => h⟩
    | updater =>
      have hu := hi.upd
      rw [ho] at hu
      have h0 : uInside s.upd = false := by
        cases hx : uInside s.upd with
        | false => rfl
        | true => have := hu.1 hx; cases this
      refine ⟨⟨hi', ?_, ?_⟩, ?_, ?_⟩ <;> simp only [act, updStep] <;> cases hx : s.upd <;> simp_all [uInside] <;> split <;> simp_all

theorem stuck_run : ∀ (as : List Act) (s : St), Stuck s → Stuck (run s as) ∧ (run s as).pushes = s.pushes ∧
    (∀ n p, s.others n = some p → (run s as).others n = some p)
  | [], _, h => ⟨h, rfl, fun _ _ h => h⟩
  | a :: as, s, h => by
    obtain ⟨h1, h2, h3⟩ := stuck_act s a h
    obtain ⟨k1, k2, k3⟩ := stuck_run as _ h1
    exact ⟨k1, k2.trans h2, fun n p hp => k3 n p (h3 n p hp)⟩

/-! ## Not stuck -/

/-- Only the innermost call of the main thread may be past taking the lock. -/
def Good (s : St) : Prop := ∀ p ∈ s.main.tail, p = .acquire

theorem good_act (s : St) (a : Act) (h : Good s) (ha : a = .signal → ¬ Within s) : Good (act s a) := by
  unfold Good at *
  cases a with
  | signal =>
    intro p hp
    by_contra hc
    exact ha rfl ⟨p, hp, hc⟩
  | murder => simp only [act]; split <;> first | exact h | simp
  | call n => simp only [act]; split <;> exact h
  | step w =>
    cases w with
    | main =>
      cases hm : s.main with
      | nil => simp [act, hm]
      | cons p ps =>
        rw [hm] at h
        cases p <;> simp only [act, hm, setStep]
        · split
          · rename_i heq; rw [hm]; exact h
          · rename_i heq
            split at heq
            · cases heq; exact h
            · cases heq
        · exact h
        · exact h
        · exact fun q hq => h q (List.mem_of_mem_tail hq)
    | other n =>
      have : (act s (.step (.other n))).main = s.main := by
        simp only [act]
        cases hl : s.others n with
        | none => rfl
        | some p => cases p <;> simp only [setStep] <;> split <;> rename_i heq <;> first | rfl | (try split at heq) <;> cases heq <;> rfl
      rw [this]; exact h
    | updater =>
      have : (act s (.step .updater)).main = s.main := by
        simp only [act, updStep]
        cases hx : s.upd <;> simp only <;> (try split) <;> rfl
      rw [this]; exact h

theorem good_run : ∀ (as : List Act) (s : St), Good s → Calm s as → Good (run s as)
  | [], _, h, _ => h
  | a :: as, s, h, hc => good_run as _ (good_act s a h hc.1) hc.2

theorem goes_nil : GoesOn [] := fun _ h => by cases h
theorem goes_append {as bs : List Act} (h1 : GoesOn as) (h2 : GoesOn bs) : GoesOn (as ++ bs) := fun a ha =>
  (List.mem_append.mp ha).elim (h1 a) (h2 a)
theorem goes_replicate (n : Nat) (w : Who) : GoesOn (List.replicate n (.step w)) := fun _ h => ⟨w, List.eq_of_mem_replicate h⟩

/-- Whoever has the lock can give it back. -/
theorem frees (s : St) (hi : Inv s) (hg : Good s) (ho : s.owner = some .main ∨ ∃ n, s.owner = some (.other n)) :
    ∃ as, GoesOn as ∧ (run s as).owner = none ∧ (run s as).upd = s.upd ∧ (run s as).pushes = s.pushes ∧ (run s as).exit = s.exit ∧
      (s.due = true → (run s as).due = true) ∧ ((run s as).main = s.main ∨ (run s as).main = s.main.tail) := by
  rcases ho with ho | ⟨n, ho⟩
  · cases hm : s.main with
    | nil => have := hi.main; rw [hm, ho] at this; simp at this
    | cons p ps =>
      have hp : p ≠ .acquire := by
        rintro rfl
        have h1 := hi.main
        rw [hm, ho] at h1
        unfold Good at hg
        rw [hm] at hg
        have : (SPc.acquire :: ps).countP inside = 0 := by
          rw [List.countP_eq_zero]
          intro q hq
          rcases List.mem_cons.mp hq with rfl | hq
          · decide
          · rw [hg q hq]; decide
        simp [this] at h1
      cases p with
      | acquire => exact absurd rfl hp
      | write => exact ⟨List.replicate 3 (.step .main), goes_replicate _ _, by simp [List.replicate, run, act, setStep, hm]⟩
      | notify => exact ⟨List.replicate 2 (.step .main), goes_replicate _ _, by simp [List.replicate, run, act, setStep, hm]⟩
      | release => exact ⟨List.replicate 1 (.step .main), goes_replicate _ _, by simp [List.replicate, run, act, setStep, hm]⟩
  · obtain ⟨p, hp, hin⟩ := (hi.oth n).2 ho
    cases p with
    | acquire => cases hin
    | write => exact ⟨List.replicate 3 (.step (.other n)), goes_replicate _ _, by simp [List.replicate, run, act, setStep, hp]⟩
    | notify => exact ⟨List.replicate 2 (.step (.other n)), goes_replicate _ _, by simp [List.replicate, run, act, setStep, hp]⟩
    | release => exact ⟨List.replicate 1 (.step (.other n)), goes_replicate _ _, by simp [List.replicate, run, act, setStep, hp]⟩

theorem frees_upd (s : St) (hi : Inv s) (ho : s.owner = some .updater) :
    ∃ as, GoesOn as ∧ (run s as).owner = none ∧ (run s as).main = s.main := by
  have hu := hi.upd.2 ho
  cases hx : s.upd <;> rw [hx] at hu <;> simp only [uInside] at hu <;> try cases hu
  · cases hf : s.flag
    · exact ⟨List.replicate 1 (.step .updater), goes_replicate _ _, by simp [List.replicate, run, act, updStep, hx, hf]⟩
    · exact ⟨List.replicate 2 (.step .updater), goes_replicate _ _, by simp [List.replicate, run, act, updStep, hx, hf]⟩
  · exact ⟨List.replicate 1 (.step .updater), goes_replicate _ _, by simp [List.replicate, run, act, updStep, hx]⟩
  · cases he : s.exit <;>
      exact ⟨List.replicate 2 (.step .updater), goes_replicate _ _, by simp [List.replicate, run, act, updStep, hx, he]⟩
  · cases he : s.exit <;>
      exact ⟨List.replicate 1 (.step .updater), goes_replicate _ _, by simp [List.replicate, run, act, updStep, hx, he]⟩

theorem finishes : ∀ (ps : List SPc) (s : St), s.main = ps → (∀ p ∈ ps, p = .acquire) → s.owner = none → ∃ as, GoesOn as ∧ (run s as).main = []
  | [], s, h, _, _ => ⟨[], goes_nil, h⟩
  | p :: ps, s, h, ha, ho => by
    have hp := ha p List.mem_cons_self
    subst hp
    have e : (run s (List.replicate 4 (.step .main))).main = ps ∧ (run s (List.replicate 4 (.step .main))).owner = none := by
      simp [List.replicate, run, act, setStep, h, ho]
    obtain ⟨as, h1, h2⟩ := finishes ps _ e.1 (fun q hq => ha q (List.mem_cons_of_mem _ hq)) e.2
    exact ⟨List.replicate 4 (.step .main) ++ as, goes_append (goes_replicate _ _) h1, by rw [run_append]; exact h2⟩

theorem outside {s : St} (hi : Inv s) (ho : s.owner ≠ some .main) : ∀ p ∈ s.main, p = .acquire := by
  intro p hp
  by_contra hc
  exact ho ((within_iff hi).1 ⟨p, hp, hc⟩)

theorem recovers (s : St) (hi : Inv s) (hg : Good s) : ∃ as, GoesOn as ∧ (run s as).main = [] := by
  have key : ∃ as, GoesOn as ∧ (run s as).owner = none := by
    cases ho : s.owner with
    | none => exact ⟨[], goes_nil, ho⟩
    | some w =>
      cases w with
      | main => obtain ⟨as, h1, h2, -⟩ := frees s hi hg (.inl ho); exact ⟨as, h1, h2⟩
      | other n => obtain ⟨as, h1, h2, -⟩ := frees s hi hg (.inr ⟨n, ho⟩); exact ⟨as, h1, h2⟩
      | updater => obtain ⟨as, h1, h2, -⟩ := frees_upd s hi ho; exact ⟨as, h1, h2⟩
  obtain ⟨as, h1, h2⟩ := key
  have hi' := inv_run as s hi
  obtain ⟨bs, k1, k2⟩ := finishes _ (run s as) rfl (outside hi' (by rw [h2]; simp)) h2
  exact ⟨as ++ bs, goes_append h1 k1, by rw [run_append]; exact k2⟩

/-- With the lock free, or its own, the updater gets to the next list. -/
theorem serves (s : St) (hi : Inv s) (hd : s.due = true) (hx : s.exit = false) (ho : s.owner = none ∨ s.owner = some .updater) :
    ∃ as, GoesOn as ∧ s.pushes < (run s as).pushes := by
  have hu := hi.upd
  have hdue := hi.due hd
  have hnd : s.upd ≠ .done := fun e => by have := hi.done e; rw [hx] at this; cases this
  cases hs : s.upd with
  | done => exact absurd hs hnd
  | cRelease => exact ⟨List.replicate 1 (.step .updater), goes_replicate _ _, by simp [List.replicate, run, act, updStep, hs, hx]⟩
  | wAcquire =>
    have hf : s.flag = true := by rcases hdue with h | h | h <;> simp_all
    have ho' : s.owner = none := by rcases ho with h | h; exact h; rw [hs, h] at hu; simp [uInside] at hu
    exact ⟨List.replicate 6 (.step .updater), goes_replicate _ _, by simp [List.replicate, run, act, updStep, hs, hx, hf, ho']⟩
  | wCheck =>
    have hf : s.flag = true := by rcases hdue with h | h | h <;> simp_all
    exact ⟨List.replicate 5 (.step .updater), goes_replicate _ _, by simp [List.replicate, run, act, updStep, hs, hx, hf]⟩
  | asleep =>
    have hf : s.flag = true := by rcases hdue with h | h | h <;> simp_all
    have ho' : s.owner = none := by rcases ho with h | h; exact h; rw [hs, h] at hu; simp [uInside] at hu
    have hw : s.woken = true := by
      rcases hi.wake hs hf with h | h | ⟨n, h⟩
      · exact h
      · have := (within_iff hi).1 ⟨_, h, by decide⟩
        rw [ho'] at this; cases this
      · have := (hi.oth n).1 ⟨_, h, rfl⟩
        rw [ho'] at this; cases this
    exact ⟨List.replicate 6 (.step .updater), goes_replicate _ _, by simp [List.replicate, run, act, updStep, hs, hx, hw, ho']⟩
  | wAgain =>
    have ho' : s.owner = none := by rcases ho with h | h; exact h; rw [hs, h] at hu; simp [uInside] at hu
    exact ⟨List.replicate 5 (.step .updater), goes_replicate _ _, by simp [List.replicate, run, act, updStep, hs, hx, ho']⟩
  | wRelease => exact ⟨List.replicate 4 (.step .updater), goes_replicate _ _, by simp [List.replicate, run, act, updStep, hs, hx]⟩
  | cAcquire =>
    have ho' : s.owner = none := by rcases ho with h | h; exact h; rw [hs, h] at hu; simp [uInside] at hu
    exact ⟨List.replicate 3 (.step .updater), goes_replicate _ _, by simp [List.replicate, run, act, updStep, hs, hx, ho']⟩
  | cWrite => exact ⟨List.replicate 2 (.step .updater), goes_replicate _ _, by simp [List.replicate, run, act, updStep, hs, hx]⟩
  | push =>
    have hf : s.flag = true := by rcases hdue with h | h | h <;> simp_all
    have ho' : s.owner = none := by rcases ho with h | h; exact h; rw [hs, h] at hu; simp [uInside] at hu
    exact ⟨List.replicate 7 (.step .updater), goes_replicate _ _, by simp [List.replicate, run, act, updStep, hs, hx, hf, ho']⟩

theorem calm_append : ∀ (as bs : List Act) (s : St), Calm s (as ++ bs) ↔ Calm s as ∧ Calm (run s as) bs
  | [], bs, s => by simp [Calm, run]
  | a :: as, bs, s => by simp [Calm, calm_append as bs, run_cons, and_assoc]

/-- The first signal that does harm. -/
theorem not_calm : ∀ (as : List Act) (s : St), ¬ Calm s as → ∃ pre post, as = pre ++ .signal :: post ∧ Within (run s pre)
  | [], _, h => absurd trivial h
  | a :: as, s, h => by
    by_cases h1 : a = .signal ∧ Within s
    · exact ⟨[], as, by rw [h1.1]; rfl, h1.2⟩
    · have : ¬ Calm (act s a) as := fun hc => h ⟨fun e hw => h1 ⟨e, hw⟩, hc⟩
      obtain ⟨pre, post, e, hw⟩ := not_calm as _ this
      exact ⟨a :: pre, post, by rw [e]; rfl, hw⟩

theorem stuck_signal (as : List Act) (hw : Within (run {} as)) : Stuck (run {} (as ++ [.signal])) := by
  have hi := inv_run as {} inv_init
  rw [run_append]
  exact ⟨inv_act _ .signal hi, (within_iff hi).1 hw, rfl⟩

/-! ## Fair schedules -/

def weight : SPc → Nat
  | .acquire => 22
  | .write => 21
  | .notify => 11
  | .release => 1

def weightO : Option SPc → Nat
  | none => 0
  | some p => weight p

def weightU (upd : UPc) (flag woken : Bool) : Nat :=
  match upd with
  | .wAcquire => 2 + if flag then 8 else 0
  | .wCheck => 1 + if flag then 8 else 0
  | .asleep => if woken then 9 else 0
  | .wAgain => 8
  | .wRelease => 7
  | .cAcquire => 6
  | .cWrite => 5
  | .cRelease => 4 + if flag then 8 else 0
  | .push => 3 + if flag then 8 else 0
  | .done => 0

/-- What is left to do. -/
def left (ns : List Nat) (s : St) : Nat :=
  (s.main.map weight).sum + (ns.map fun n => weightO (s.others n)).sum + weightU s.upd s.flag s.woken

/-- Nothing. -/
def Rest (s : St) : Prop := s.main = [] ∧ (∀ n, s.others n = none) ∧ (s.upd = .done ∨ s.upd = .asleep ∧ s.woken = false)

theorem sum_le (ns : List Nat) (f g : Nat → Nat) (h : ∀ n, g n ≤ f n) : (ns.map g).sum ≤ (ns.map f).sum := by
  induction ns with
  | nil => simp
  | cons k ns ih => simp only [List.map_cons, List.sum_cons]; have := h k; omega

theorem sum_lt (ns : List Nat) (f g : Nat → Nat) (n d : Nat) (hn : n ∈ ns) (h : ∀ k, g k ≤ f k) (hd : g n + d ≤ f n) :
    (ns.map g).sum + d ≤ (ns.map f).sum := by
  induction ns with
  | nil => cases hn
  | cons k ns ih =>
    simp only [List.map_cons, List.sum_cons]
    rcases List.mem_cons.1 hn with rfl | hn
    · have := sum_le ns f g h; omega
    · have := ih hn; have := h k; omega

theorem weightU_flag (u : UPc) (f w : Bool) : weightU u true w ≤ weightU u f w + 8 := by
  cases u <;> cases f <;> simp [weightU]

theorem weightU_woken (u : UPc) (f w : Bool) : weightU u f (w || decide (u = .asleep)) ≤ weightU u f w + 9 := by
  cases u <;> cases w <;> simp [weightU]

theorem dec_main (ns : List Nat) (s : St) (p : SPc) (ps : List SPc) (hm : s.main = p :: ps) (h : p = .acquire → s.owner = none) :
    left ns (act s (.step .main)) < left ns s := by
  cases p with
  | acquire => simp [act, hm, setStep, h rfl, left, weight]
  | write =>
    have := weightU_flag s.upd s.flag s.woken
    simp [act, hm, setStep, left, weight]; omega
  | notify =>
    have := weightU_woken s.upd s.flag s.woken
    simp [act, hm, setStep, left, weight]; omega
  | release => simp [act, hm, setStep, left, weight]

theorem dec_other (ns : List Nat) (s : St) (n : Nat) (p : SPc) (hn : n ∈ ns) (hm : s.others n = some p) (h : p = .acquire → s.owner = none) :
    left ns (act s (.step (.other n))) < left ns s := by
  have key : ∀ (q : Option SPc) (d : Nat), weightO q + d ≤ weight p →
      (ns.map fun k => weightO (if k = n then q else s.others k)).sum + d ≤ (ns.map fun k => weightO (s.others k)).sum := by
    intro q d hd
    refine sum_lt ns _ _ n d hn (fun k => ?_) ?_
    · split
      · next e => subst e; rw [hm]; simp only [weightO] at hd ⊢; omega
      · exact Nat.le_refl _
    · simp only [if_true]; rw [hm]; exact hd
  cases p with
  | acquire =>
    have := key (some .write) 1 (by simp [weight, weightO])
    simp only [act, hm, setStep, h rfl, if_true, left]; omega
  | write =>
    have := key (some .notify) 10 (by simp [weight, weightO])
    have := weightU_flag s.upd s.flag s.woken
    simp only [act, hm, setStep, left]; omega
  | notify =>
    have := key (some .release) 10 (by simp [weight, weightO])
    have := weightU_woken s.upd s.flag s.woken
    simp only [act, hm, setStep, left]; omega
  | release =>
    have := key none 1 (by simp [weight, weightO])
    simp only [act, hm, setStep, left]; omega

theorem dec_upd (ns : List Nat) (s : St) (h1 : s.upd = .wAcquire ∨ s.upd = .wAgain ∨ s.upd = .cAcquire → s.owner = none)
    (h2 : s.upd = .asleep → s.woken = true) (h3 : s.upd ≠ .done) : left ns (act s (.step .updater)) < left ns s := by
  cases hu : s.upd with
  | done => exact absurd hu h3
  | wAcquire => have := h1 (.inl hu); cases hf : s.flag <;> simp [act, updStep, hu, this, left, weightU, hf]
  | wAgain => have := h1 (.inr (.inl hu)); simp [act, updStep, hu, this, left, weightU]
  | cAcquire => have := h1 (.inr (.inr hu)); simp [act, updStep, hu, this, left, weightU]
  | asleep => have := h2 hu; simp [act, updStep, hu, this, left, weightU]
  | wCheck => cases hf : s.flag <;> simp [act, updStep, hu, left, weightU, hf]
  | wRelease => simp [act, updStep, hu, left, weightU]
  | cWrite => simp [act, updStep, hu, left, weightU]
  | cRelease => cases hf : s.flag <;> cases hx : s.exit <;> simp [act, updStep, hu, left, weightU, hf, hx]
  | push => cases hf : s.flag <;> simp [act, updStep, hu, left, weightU, hf]

/-- A step does something, and then less is left, or nothing. -/
theorem step_left (ns : List Nat) (s : St) (hs : ∀ n, n ∉ ns → s.others n = none) (w : Who) :
    act s (.step w) = s ∨ left ns (act s (.step w)) < left ns s := by
  cases w with
  | main =>
    cases hm : s.main with
    | nil => left; simp [act, hm]
    | cons p ps =>
      by_cases h : p = .acquire → s.owner = none
      · exact .inr (dec_main ns s p ps hm h)
      · left
        by_cases hp : p = .acquire
        · subst hp
          have ho : s.owner ≠ none := fun e => h fun _ => e
          simp [act, hm, setStep, ho]
        · exact absurd (fun e => absurd e hp) h
  | other n =>
    cases hm : s.others n with
    | none => left; simp [act, hm]
    | some p =>
      have hn : n ∈ ns := by by_contra hc; rw [hs n hc] at hm; cases hm
      by_cases h : p = .acquire → s.owner = none
      · exact .inr (dec_other ns s n p hn hm h)
      · left
        by_cases hp : p = .acquire
        · subst hp
          have ho : s.owner ≠ none := fun e => h fun _ => e
          simp [act, hm, setStep, ho]
        · exact absurd (fun e => absurd e hp) h
  | updater =>
    by_cases h1 : s.upd = .wAcquire ∨ s.upd = .wAgain ∨ s.upd = .cAcquire → s.owner = none
    · by_cases h2 : s.upd = .asleep → s.woken = true
      · by_cases h3 : s.upd = .done
        · left; simp [act, updStep, h3]
        · exact .inr (dec_upd ns s h1 h2 h3)
      · left
        by_cases ha : s.upd = .asleep
        · have hw : s.woken = false := by cases hw : s.woken <;> simp_all
          simp [act, updStep, ha, hw]
        · exact absurd (fun e => absurd e ha) h2
    · left
      by_cases hu : s.upd = .wAcquire ∨ s.upd = .wAgain ∨ s.upd = .cAcquire
      · have ho : s.owner ≠ none := fun e => h1 fun _ => e
        rcases hu with hu | hu | hu <;> simp [act, updStep, hu, ho]
      · exact absurd (fun e => absurd e hu) h1

theorem support_act (ns : List Nat) (s : St) (hs : ∀ n, n ∉ ns → s.others n = none) (w : Who) (n : Nat) (hn : n ∉ ns) :
    (act s (.step w)).others n = none := by
  cases w with
  | main =>
    cases hm : s.main with
    | nil => simp [act, hm, hs n hn]
    | cons p ps => by_cases ho : s.owner = none <;> cases p <;> simp [act, hm, setStep, hs n hn, ho]
  | other k =>
    cases hm : s.others k with
    | none => simp [act, hm, hs n hn]
    | some p =>
      have hk : n ≠ k := fun e => by rw [← e, hs n hn] at hm; cases hm
      by_cases ho : s.owner = none <;> cases p <;> simp [act, hm, setStep, hs n hn, hk, ho]
  | updater =>
    simp only [act, updStep]
    split <;> (try split) <;> exact hs n hn

/-- Someone can go on, if not all is done. -/
theorem enabled (ns : List Nat) (s : St) (hi : Inv s) (hg : Good s) (hs : ∀ n, n ∉ ns → s.others n = none) (hr : ¬ Rest s) :
    ∃ w, (w = .main ∨ w = .updater ∨ ∃ n ∈ ns, w = .other n) ∧ left ns (act s (.step w)) < left ns s := by
  cases ho : s.owner with
  | none =>
    cases hm : s.main with
    | cons p ps => exact ⟨.main, .inl rfl, dec_main ns s p ps hm fun _ => ho⟩
    | nil =>
      by_cases hall : ∀ n, s.others n = none
      · refine ⟨.updater, .inr (.inl rfl), dec_upd ns s (fun _ => ho) (fun ha => ?_) (fun hd => hr ⟨hm, hall, .inl hd⟩)⟩
        cases hw : s.woken with
        | true => rfl
        | false => exact absurd ⟨hm, hall, .inr ⟨ha, hw⟩⟩ hr
      · simp only [not_forall] at hall
        obtain ⟨n, hn⟩ := hall
        cases hp : s.others n with
        | none => exact absurd hp hn
        | some p =>
          have hmem : n ∈ ns := by by_contra hc; exact hn (hs n hc)
          exact ⟨.other n, .inr (.inr ⟨n, hmem, rfl⟩), dec_other ns s n p hmem hp fun _ => ho⟩
  | some w =>
    cases w with
    | main =>
      cases hm : s.main with
      | nil => have := hi.main; rw [hm, ho] at this; simp at this
      | cons p ps =>
        have hp : p ≠ .acquire := by
          rintro rfl
          obtain ⟨q, hq, hne⟩ := (within_iff hi).2 ho
          rw [hm] at hq
          rcases List.mem_cons.1 hq with rfl | hq
          · exact hne rfl
          · exact hne (hg q (by rw [hm]; exact hq))
        exact ⟨.main, .inl rfl, dec_main ns s p ps hm fun e => absurd e hp⟩
    | other n =>
      obtain ⟨p, hp, hin⟩ := (hi.oth n).2 ho
      have hmem : n ∈ ns := by by_contra hc; rw [hs n hc] at hp; cases hp
      exact ⟨.other n, .inr (.inr ⟨n, hmem, rfl⟩), dec_other ns s n p hmem hp fun e => by subst e; simp [inside] at hin⟩
    | updater =>
      have hu := hi.upd.2 ho
      refine ⟨.updater, .inr (.inl rfl), dec_upd ns s (fun h => ?_) (fun h => ?_) (fun h => ?_)⟩
      · rcases h with h | h | h <;> rw [h] at hu <;> simp [uInside] at hu
      · rw [h] at hu; simp [uInside] at hu
      · rw [h] at hu; simp [uInside] at hu

theorem goes_left (ns : List Nat) : ∀ (r : List Act) (s : St), GoesOn r → (∀ n, n ∉ ns → s.others n = none) →
    (∀ n, n ∉ ns → (run s r).others n = none) ∧ left ns (run s r) ≤ left ns s ∧ (left ns (run s r) = left ns s → ∀ a ∈ r, act s a = s)
  | [], s, _, hs => ⟨hs, Nat.le_refl _, fun _ a ha => by cases ha⟩
  | a :: r, s, hg, hs => by
    obtain ⟨w, rfl⟩ := hg a List.mem_cons_self
    have hg' : GoesOn r := fun b hb => hg b (List.mem_cons_of_mem _ hb)
    obtain ⟨h1, h2, h3⟩ := goes_left ns r (act s (.step w)) hg' (support_act ns s hs w)
    rcases step_left ns s hs w with e | e
    · rw [e] at h1 h2 h3
      have er : run s (.step w :: r) = run s r := by rw [run_cons, e]
      rw [er]
      refine ⟨h1, h2, fun he b hb => ?_⟩
      rcases List.mem_cons.1 hb with rfl | hb
      · exact e
      · exact h3 he b hb
    · rw [run_cons]
      exact ⟨h1, by omega, fun he => by omega⟩

theorem goes_calm : ∀ (r : List Act) (s : St), GoesOn r → Calm s r
  | [], _, _ => trivial
  | a :: r, s, h => by
    refine ⟨fun e => ?_, goes_calm r _ fun b hb => h b (List.mem_cons_of_mem _ hb)⟩
    obtain ⟨w, hw⟩ := h a List.mem_cons_self
    rw [hw] at e
    cases e

theorem rest_act (s : St) (h : Rest s) (w : Who) : act s (.step w) = s := by
  obtain ⟨h1, h2, h3⟩ := h
  cases w with
  | main => simp [act, h1]
  | other n => simp [act, h2 n]
  | updater => rcases h3 with h3 | ⟨h3, h4⟩ <;> simp [act, updStep, *]

theorem rest_run : ∀ (r : List Act) (s : St), Rest s → GoesOn r → run s r = s
  | [], _, _, _ => rfl
  | a :: r, s, h, hg => by
    obtain ⟨w, rfl⟩ := hg a List.mem_cons_self
    rw [run_cons, rest_act s h w]
    exact rest_run r s h fun b hb => hg b (List.mem_cons_of_mem _ hb)

theorem goes_flatten (ns : List Nat) (rs : List (List Act)) (h : ∀ r ∈ rs, Round ns r) : GoesOn rs.flatten := by
  intro a ha
  obtain ⟨r, hr, ha⟩ := List.mem_flatten.1 ha
  exact (h r hr).1 a ha

theorem rounds (ns : List Nat) : ∀ (rs : List (List Act)) (s : St), Inv s → Good s → (∀ n, n ∉ ns → s.others n = none) →
    (∀ r ∈ rs, Round ns r) → left ns s < rs.length → Rest (run s rs.flatten)
  | [], _, _, _, _, _, h => absurd h (by simp)
  | r :: rs, s, hi, hg, hs, hr, hl => by
    have hro := hr r List.mem_cons_self
    have hrs : ∀ r ∈ rs, Round ns r := fun x hx => hr x (List.mem_cons_of_mem _ hx)
    by_cases hrest : Rest s
    · rw [rest_run _ s hrest (goes_flatten ns _ hr)]; exact hrest
    · rw [List.flatten_cons, run_append]
      obtain ⟨h1, h2, h3⟩ := goes_left ns r s hro.1 hs
      refine rounds ns rs _ (inv_run r s hi) (good_run r s hg (goes_calm r s hro.1)) h1 hrs ?_
      obtain ⟨w, hw, hd⟩ := enabled ns s hi hg hs hrest
      have hmem : Act.step w ∈ r := by
        rcases hw with rfl | rfl | ⟨n, hn, rfl⟩
        · exact hro.2.1
        · exact hro.2.2.1
        · exact hro.2.2.2 n hn
      have hne : left ns (run s r) ≠ left ns s := fun e => by rw [h3 e _ hmem] at hd; omega
      simp only [List.length_cons] at hl
      omega

/-- A request is only done with by beginning a list. -/
theorem due_act (s : St) (w : Who) : (act s (.step w)).exit = s.exit ∧ s.pushes ≤ (act s (.step w)).pushes
    ∧ (s.due = true → (act s (.step w)).due = true ∨ s.pushes < (act s (.step w)).pushes) := by
  cases w with
  | main =>
    cases hm : s.main with
    | nil => simp only [act, hm]; exact ⟨trivial, Nat.le_refl _, .inl⟩
    | cons p ps => by_cases ho : s.owner = none <;> cases p <;> simp +contextual [act, hm, setStep, ho]
  | other n =>
    cases hm : s.others n with
    | none => simp only [act, hm]; exact ⟨trivial, Nat.le_refl _, .inl⟩
    | some p => by_cases ho : s.owner = none <;> cases p <;> simp +contextual [act, hm, setStep, ho]
  | updater =>
    simp only [act, updStep]
    split <;> (try split) <;> simp

theorem due_run : ∀ (r : List Act) (s : St), GoesOn r → (run s r).exit = s.exit ∧ s.pushes ≤ (run s r).pushes
    ∧ (s.due = true → (run s r).due = true ∨ s.pushes < (run s r).pushes)
  | [], _, _ => ⟨rfl, Nat.le_refl _, .inl⟩
  | a :: r, s, hg => by
    obtain ⟨w, rfl⟩ := hg a List.mem_cons_self
    obtain ⟨a1, a2, a3⟩ := due_act s w
    obtain ⟨b1, b2, b3⟩ := due_run r (act s (.step w)) fun b hb => hg b (List.mem_cons_of_mem _ hb)
    rw [run_cons]
    refine ⟨b1.trans a1, Nat.le_trans a2 b2, fun h => ?_⟩
    rcases a3 h with h | h
    · rcases b3 h with h | h
      · exact .inl h
      · exact .inr (by omega)
    · exact .inr (by omega)

/-- Once the judge is to stop, the updater still is to look. -/
def Ending (s : St) : Prop :=
  s.exit = true → s.upd = .done ∨ s.flag = true ∨ s.upd = .cRelease ∨ SPc.acquire ∈ s.main ∨ SPc.write ∈ s.main

theorem ending_act (s : St) (a : Act) (h : Ending s) : Ending (act s a) := by
  unfold Ending at *
  cases a with
  | signal => intro _; simp [act]
  | murder =>
    simp only [act]
    split
    · intro _; simp
    · exact h
  | call n => simp only [act]; split <;> exact h
  | step w =>
    cases w with
    | main =>
      cases hm : s.main with
      | nil => simpa [act, hm] using h
      | cons p ps => by_cases ho : s.owner = none <;> cases p <;> simp_all [act, setStep]
    | other n =>
      cases hm : s.others n with
      | none => simpa [act, hm] using h
      | some p => by_cases ho : s.owner = none <;> cases p <;> simp_all [act, setStep]
    | updater =>
      intro hx
      have hx' : s.exit = true := by rw [← (due_act s .updater).1]; exact hx
      have h := h hx'
      cases hu : s.upd <;> by_cases ho : s.owner = none <;> cases hf : s.flag <;> cases hw : s.woken <;>
        simp_all [act, updStep]

theorem ending_run : ∀ (as : List Act) (s : St), Ending s → Ending (run s as)
  | [], _, h => h
  | a :: as, s, h => by rw [run_cons]; exact ending_run as _ (ending_act s a h)

end Usr2L

open Usr2L

/-- **C121** fails: if `SIGUSR2` arrives while the main thread is within `set`, it never gets back to its work, no list of problems is sent any more, and
the other threads that ask for one (the server of the API, the observer) are stuck as well. -/
theorem C121_stuck_fails (as : List Act) (hw : Within (run {} as)) (bs : List Act) :
    (run {} (as ++ .signal :: bs)).main ≠ [] ∧ (run {} (as ++ .signal :: bs)).pushes = (run {} as).pushes ∧
      ∀ n p, (run {} as).others n = some p → (run {} (as ++ .signal :: bs)).others n = some p := by
  have hs := stuck_signal as hw
  have e : as ++ .signal :: bs = (as ++ [.signal]) ++ bs := by simp
  rw [e, run_append _ _ bs]
  obtain ⟨h1, h2, h3⟩ := stuck_run bs _ hs
  refine ⟨?_, ?_, ?_⟩
  · intro e0
    have := h1.2.2
    rw [e0] at this
    cases this
  · rw [h2, run_append]; rfl
  · intro n p hp
    exact h3 n p (by rw [run_append]; exact hp)

/-- **C121** fails: whenever the main thread does its work and the lock is free, two signals may do that, or one that arrives while the judge is stopped. -/
theorem C121_two_fails (as : List Act) (hm : (run {} as).main = []) (ho : (run {} as).owner = none) (bs : List Act) :
    (run {} (as ++ [.signal, .step .main] ++ .signal :: bs)).main ≠ [] ∧ (run {} (as ++ [.murder, .step .main] ++ .signal :: bs)).main ≠ [] := by
  refine ⟨(C121_stuck_fails _ ?_ bs).1, (C121_stuck_fails _ ?_ bs).1⟩ <;> rw [run_append] <;>
    exact ⟨.write, by simp [run, act, setStep] at hm ho ⊢; simp [hm, ho], by decide⟩

/-- **C121** (partial): as long as no signal arrives at such a moment, the main thread can always get back to its work by the threads' going on. What is
missing is that of any signals: by the second half, which is exact, it then cannot. -/
theorem C121_returns_partial (as : List Act) : Calm {} as ↔ ∃ bs, GoesOn bs ∧ (run {} (as ++ bs)).main = [] := by
  constructor
  · intro hc
    obtain ⟨bs, h1, h2⟩ := recovers (run {} as) (inv_run as {} inv_init) (good_run as {} (fun p hp => by cases hp) hc)
    exact ⟨bs, h1, by rw [run_append]; exact h2⟩
  · rintro ⟨bs, -, h⟩
    by_contra hn
    obtain ⟨pre, post, rfl, hw⟩ := not_calm as {} hn
    have := (C121_stuck_fails pre hw (post ++ bs)).1
    apply this
    simpa using h

/-- **C121** (partial): and no request is forgotten: whoever made it, the list can be sent by the threads' going on. -/
theorem C121_served_partial (as : List Act) (hc : Calm {} as) (hd : (run {} as).due = true) (hx : (run {} as).exit = false) :
    ∃ bs, GoesOn bs ∧ (run {} as).pushes < (run {} (as ++ bs)).pushes := by
  have hi := inv_run as {} inv_init
  have hg := good_run as {} (fun p hp => by cases hp) hc
  have key : ∀ s, Usr2L.Inv s → Good s → s.due = true → s.exit = false → ∃ bs, GoesOn bs ∧ s.pushes < (run s bs).pushes := by
    intro s hi hg hd hx
    have other : (s.owner = some .main ∨ ∃ n, s.owner = some (.other n)) → ∃ bs, GoesOn bs ∧ s.pushes < (run s bs).pushes := by
      intro ho
      obtain ⟨cs, h1, h2, -, h4, h5, h6, -⟩ := frees s hi hg ho
      obtain ⟨ds, k1, k2⟩ := serves (run s cs) (inv_run cs s hi) (h6 hd) (h5.trans hx) (.inl h2)
      exact ⟨cs ++ ds, goes_append h1 k1, by rw [run_append]; omega⟩
    cases ho : s.owner with
    | none => exact serves s hi hd hx (.inl ho)
    | some w =>
      cases w with
      | main => exact other (.inl ho)
      | other n => exact other (.inr ⟨n, ho⟩)
      | updater => exact serves s hi hd hx (.inr ho)
  obtain ⟨bs, h1, h2⟩ := key _ hi hg hd hx
  exact ⟨bs, h1, by rw [run_append]; exact h2⟩

/-- Every call of `set` that writes makes a request. -/
theorem C121_requested (as : List Act) (ps : List SPc) (hm : (run {} as).main = .write :: ps) : (run {} (as ++ [.step .main])).due = true := by
  rw [run_append]
  simp [run, act, setStep] at hm ⊢
  simp [hm]

/-- Two signals, the second while the first waits for the lock that another thread has: no harm. And a signal while the first has it. -/
def calmRun : List Act := [.call 7, .step (.other 7), .signal, .signal, .step (.other 7), .step .main]
def stuckRun : List Act := [.signal, .step .main]

example : Calm {} calmRun ∧ (run {} calmRun).due = true ∧ (run {} calmRun).exit = false ∧ (run {} calmRun).main = [.acquire, .acquire] ∧
    Within (run {} stuckRun) ∧ (run {} []).main = [] ∧ (run {} []).owner = none := by
  simp [calmRun, stuckRun, Calm, Within, run, act, setStep]

/-- **C121** (partial): moreover they do, under every fair schedule: as long as no signal arrives at such a moment, after finitely many rounds in which
every thread goes on at least once, the main thread is back at its work, every other request has returned, and a list was begun after each request
(unless the judge stops). Which of the threads gets the lock whenever it is free does not matter. Missing, as in `C121_returns_partial`: signals at any
moment. -/
theorem C121_fair_partial (as : List Act) (hc : Calm {} as) (ns : List Nat) (hns : ∀ n, n ∉ ns → (run {} as).others n = none) :
    ∃ N, ∀ rs : List (List Act), N ≤ rs.length → (∀ r ∈ rs, Round ns r) →
      (run {} (as ++ rs.flatten)).main = [] ∧ (∀ n, (run {} (as ++ rs.flatten)).others n = none)
      ∧ ((run {} as).exit = false → (run {} (as ++ rs.flatten)).due = false
          ∧ ((run {} as).due = true → (run {} as).pushes < (run {} (as ++ rs.flatten)).pushes)) := by
  refine ⟨left ns (run {} as) + 1, fun rs hl hr => ?_⟩
  have hi := inv_run as {} inv_init
  have hg := good_run as {} (fun p hp => by cases hp) hc
  have hgo := goes_flatten ns rs hr
  have hrest := rounds ns rs (run {} as) hi hg hns hr (by omega)
  have hi' := inv_run rs.flatten _ hi
  obtain ⟨d1, d2, d3⟩ := due_run rs.flatten (run {} as) hgo
  rw [run_append]
  generalize run (run {} as) rs.flatten = t at *
  obtain ⟨h1, h2, h3⟩ := hrest
  refine ⟨h1, h2, fun hx => ?_⟩
  have hnd : t.upd ≠ .done := fun e => by have := hi'.done e; rw [d1, hx] at this; cases this
  have hdue : t.due = false := by
    cases hd : t.due with
    | false => rfl
    | true =>
      rcases h3 with h3 | ⟨h3, h4⟩
      · exact absurd h3 hnd
      · rcases hi'.due hd with h | h | h
        · rcases hi'.wake h3 h with h | h | ⟨n, h⟩
          · rw [h4] at h; cases h
          · rw [h1] at h; cases h
          · rw [h2 n] at h; cases h
        · rw [h3] at h; cases h
        · rw [h3] at h; cases h
  refine ⟨hdue, fun hd => ?_⟩
  rcases d3 hd with h | h
  · rw [hdue] at h; cases h
  · exact h

/-- A signal while another thread has the lock: a round that goes the wrong way round is one, too. -/
example : Calm {} [.call 3, .step (.other 3), .signal, .step .main] ∧ (∀ n, n ∉ [3] → (run {} [.call 3, .step (.other 3), .signal, .step .main]).others n = none)
    ∧ (run {} [.call 3, .step (.other 3), .signal, .step .main]).main = [.acquire]
    ∧ Round [3] [.step .updater, .step .main, .step .main, .step (.other 3)] := by
  refine ⟨?_, ?_, by decide +kernel, ?_, by simp, by simp, by simp⟩
  · refine ⟨by simp, by simp, fun _ => ?_, by simp, trivial⟩
    rintro ⟨p, hp, -⟩
    simp [act, setStep] at hp
  · intro n hn
    have : n ≠ 3 := by simpa using hn
    simp [run, act, setStep, this]
  · intro a ha
    simp only [List.mem_cons, List.not_mem_nil, or_false] at ha
    rcases ha with rfl | rfl | rfl | rfl <;> exact ⟨_, rfl⟩

/-- **C121** (partial): and if the judge is to stop, then the updater ends, under every fair schedule, so that it does not keep the
process from ending.
Missing, as above: signals at any moment. -/
theorem C121_ends_partial (as : List Act) (hc : Calm {} as) (ns : List Nat) (hns : ∀ n, n ∉ ns → (run {} as).others n = none)
    (hx : (run {} as).exit = true) :
    ∃ N, ∀ rs : List (List Act), N ≤ rs.length → (∀ r ∈ rs, Round ns r) → (run {} (as ++ rs.flatten)).upd = .done := by
  refine ⟨left ns (run {} as) + 1, fun rs hl hr => ?_⟩
  have hi := inv_run as {} inv_init
  have hg := good_run as {} (fun p hp => by cases hp) hc
  have hrest := rounds ns rs (run {} as) hi hg hns hr (by omega)
  have hi' := inv_run rs.flatten _ hi
  have hx' := (due_run rs.flatten (run {} as) (goes_flatten ns rs hr)).1
  have he := ending_run rs.flatten _ (ending_run as {} (fun h => by cases h))
  rw [run_append]
  generalize run (run {} as) rs.flatten = t at *
  obtain ⟨h1, h2, h3⟩ := hrest
  rcases h3 with h3 | ⟨h3, h4⟩
  · exact h3
  · rcases he (hx'.trans hx) with h | h | h | h | h
    · exact h
    · rcases hi'.wake h3 h with h | h | ⟨n, h⟩
      · rw [h4] at h; cases h
      · rw [h1] at h; cases h
      · rw [h2 n] at h; cases h
    · rw [h3] at h; cases h
    · rw [h1] at h; cases h
    · rw [h1] at h; cases h

/-- The judge stops while the updater has the lock. -/
example : Calm {} [.step .updater, .murder] ∧ (∀ n, n ∉ ([] : List Nat) → (run {} [.step .updater, .murder]).others n = none)
    ∧ (run {} [.step .updater, .murder]).exit = true ∧ (run {} [.step .updater, .murder]).owner = some .updater := by
  refine ⟨⟨by simp, by simp, trivial⟩, ?_, by decide +kernel, by decide +kernel⟩
  intro n _
  simp [run, act, updStep]

end Verif.Props
