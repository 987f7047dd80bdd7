import Verif.Model.Bridge
import Mathlib.Tactic.IntervalCases

/-!
# Who holds which end (for C104)
-/

namespace Verif.Bridge

/-- Holds in all states. -/
structure Inv (cap : Nat) (s : State) : Prop where
  le : s.at_ ≤ 16
  raised : s.raised = true → s.at_ = 7
  r1 : s.rd .toInter .judge = true ↔ 1 ≤ s.at_ ∧ s.at_ ≤ 10
  w1 : s.wr .toInter .judge = true ↔ 1 ≤ s.at_ ∧ s.at_ ≤ 6
  r2 : s.rd .toSub .judge = true ↔ 2 ≤ s.at_ ∧ s.at_ ≤ 5
  w2 : s.wr .toSub .judge = true ↔ 2 ≤ s.at_ ∧ s.at_ ≤ 11
  r3 : s.rd .subErr .judge = true ↔ 3 ≤ s.at_
  w3 : s.wr .subErr .judge = true ↔ 3 ≤ s.at_ ∧ s.at_ ≤ 4
  r4 : s.rd .interErr .judge = true ↔ 8 ≤ s.at_
  w4 : s.wr .interErr .judge = true ↔ 8 ≤ s.at_ ∧ s.at_ ≤ 9
  sub : s.status .sub = .unborn ↔ s.at_ ≤ 3
  inter : s.status .inter = .unborn ↔ s.at_ ≤ 8
  none_ : ∀ g p, s.status g = .unborn ∨ s.status g = .gone → s.rd p (.prog g) = false ∧ s.wr p (.prog g) = false
  own : ∀ g p, s.status g = .running → (s.rd p (.prog g) = true → p = input g) ∧
    (s.wr p (.prog g) = true → p = output g ∨ p = errors g)
  bornSub : s.status .sub = .born → s.rd .toSub (.prog .sub) = true ∧ s.wr .toInter (.prog .sub) = true ∧
    s.wr .subErr (.prog .sub) = true ∧ s.wr .interErr (.prog .sub) = false
  bornInter : s.status .inter = .born → s.rd .toInter (.prog .inter) = true ∧ s.wr .toSub (.prog .inter) = true ∧
    s.wr .interErr (.prog .inter) = true ∧ s.wr .toInter (.prog .inter) = false ∧ s.rd .toSub (.prog .inter) = false ∧
    s.wr .subErr (.prog .inter) = false
  bytes : ∀ p, s.put p = s.got p ++ s.buf p
  room : ∀ p, (s.buf p).length ≤ cap
  waited : (13 ≤ s.at_ → s.status .sub = .gone) ∧ (14 ≤ s.at_ → s.status .inter = .gone)
  read : (15 ≤ s.at_ → s.buf .subErr = []) ∧ (16 ≤ s.at_ → s.buf .interErr = [])

theorem inv_start (cap : Nat) : Inv cap start := by
  constructor <;> simp [start]

set_option maxHeartbeats 2000000 in
theorem inv_judge {cap : Nat} {s t : State} (h : Inv cap s) (hs : step cap s .judge = some t) : Inv cap t := by
  simp only [step] at hs
  split at hs
  · cases hs
  have hle := h.le
  by_cases hl : s.at_ < 16
  · obtain ⟨n, hn⟩ : ∃ n, n = s.at_ := ⟨_, rfl⟩
    rw [← hn] at hs hl
    interval_cases n <;> simp only [script, List.getElem?_cons_zero, List.getElem?_cons_succ, act] at hs
    all_goals first
      | (simp only [Option.map_some, Option.some.injEq] at hs; subst hs; cases h; constructor <;> grind [upd, hold, holdAll])
      | (split at hs <;> simp only [Option.map_some, Option.map_none, Option.some.injEq, reduceCtorEq] at hs
         subst hs; cases h; constructor <;> grind [upd, hold, holdAll])
  · rw [List.getElem?_eq_none (by simp [script]; omega)] at hs
    cases hs

set_option maxHeartbeats 2000000 in
theorem inv_prog {cap : Nat} {s t : State} {g : Prog} {d : Deed} (h : Inv cap s) (hs : step cap s (.prog g d) = some t) :
    Inv cap t := by
  simp only [step] at hs
  cases d <;> simp only [deed] at hs
  · split at hs
    · simp only [Option.some.injEq] at hs
      subst hs; cases h; constructor <;> cases g <;> grind [upd, hold, holdAll, input, output, errors]
    · cases hs
  · split at hs
    · simp only [Option.some.injEq] at hs
      subst hs; cases h; constructor <;> cases g <;>
        grind [upd, hold, holdAll, input, output, errors, List.append_assoc, List.take_append_drop]
    · cases hs
  · split at hs
    · split at hs
      · cases hs; exact h
      · split at hs
        · simp only [Option.some.injEq] at hs
          subst hs; cases h; constructor <;> cases g <;> grind [upd, hold, holdAll, input, output, errors, target]
        · cases hs
    · cases hs
  all_goals
    split at hs
    · simp only [Option.some.injEq] at hs
      subst hs; cases h; constructor <;> cases g <;> grind [upd, hold, holdAll, input, output, errors]
    · cases hs

end Verif.Bridge
