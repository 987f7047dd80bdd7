import Verif.Spec.Monitor
import Mathlib.Tactic.Common
import Mathlib.Tactic.ByContra

/-! Invariants of the tracer loop. -/

namespace Verif.Monitor
open Verif.Syscalls Verif.Isolate Verif.Monitor.Spec

variable {C : Type}

theorem finish_toggle (cfg : Cfg C) (s : State) (pid : Nat) (v : View C) (en : Bool) (n : Option Int) :
    (finish cfg s pid v en n).1.toggle = s.toggle := by
  unfold finish
  simp only [State.faultAt]
  split_ifs <;> rfl

theorem finish_spawned (cfg : Cfg C) (s : State) (pid : Nat) (v : View C) (en : Bool) (n : Option Int) :
    (finish cfg s pid v en n).1.spawned = s.spawned := by
  unfold finish
  simp only [State.faultAt]
  split_ifs <;> rfl

theorem finish_finished (cfg : Cfg C) (s : State) (pid : Nat) (v : View C) (en : Bool) (n : Option Int) :
    (finish cfg s pid v en n).1.finished = s.finished := by
  unfold finish
  simp only [State.faultAt]
  split_ifs <;> rfl

theorem finish_children (cfg : Cfg C) (s : State) (pid : Nat) (v : View C) (en : Bool) (n : Option Int) :
    (finish cfg s pid v en n).1.children = s.children := by
  unfold finish
  simp only [State.faultAt]
  split_ifs <;> rfl

theorem finish_faulted (cfg : Cfg C) (s : State) (pid : Nat) (v : View C) (en : Bool) (n : Option Int) (h : s.faulted = true) :
    (finish cfg s pid v en n).1.faulted = true := by
  unfold finish
  simp only [State.faultAt]
  split_ifs <;> simp [h]

/-- A property of states kept by every part of the handling of a syscall stop is kept by it. -/
theorem sysStep_ind (P : State → Prop) (cfg : Cfg C) (s : State) (pid : Nat) (v : View C)
    (h0 : P (if cfg.seccomp then s else { s with toggle := upd s.toggle pid (!s.toggle pid) }))
    (hsp : ∀ s b, P s → s.spawned = false → P { s with spawned := b, first := false })
    (hf : ∀ s n, P s → P (s.faultAt n)) (hr : ∀ s e, P s → P (s.register pid e))
    (hfin : ∀ s en n, P s → P (finish cfg s pid v en n).1) : P (sysStep cfg s pid v).1 := by
  unfold sysStep
  generalize (if cfg.seccomp then s else { s with toggle := upd s.toggle pid (!s.toggle pid) }) = s0 at h0
  simp only
  cases v.pre with
  | esrch => exact h0
  | err => exact hf _ _ h0
  | ok =>
    simp only
    by_cases h1 : s0.spawned = false
    · rw [if_pos h1]; exact hsp _ _ h0 h1
    rw [if_neg h1]
    by_cases h2 : (cfg.seccomp || s0.toggle pid) = true
    · rw [if_pos h2]
      cases decideCall cfg.isArm (cfg.tables v.abi) v.nr with
      | allow => exact hfin _ _ _ h0
      | stdouterr =>
        simp only
        by_cases h3 : v.arg0 = 1 ∨ v.arg0 = 2
        · rw [if_pos h3]; exact hfin _ _ _ h0
        · rw [if_neg h3]; exact hfin _ _ _ (hf _ _ h0)
      | deny => exact hf _ _ h0
      | ask c =>
        simp only
        cases v.run c with
        | exec => exact hfin _ _ _ h0
        | kill => exact hf _ _ h0
        | refuse e => exact hfin _ _ _ (hr _ _ h0)
    · rw [if_neg h2]; exact hfin _ _ _ h0

theorem sysStep_children (cfg : Cfg C) (s : State) (pid : Nat) (v : View C) :
    (sysStep cfg s pid v).1.children = s.children :=
  sysStep_ind (fun x => x.children = s.children) cfg s pid v (by split_ifs <;> rfl) (fun _ _ h _ => h)
    (fun _ _ h => h) (fun _ _ h => h) fun s en n h => (finish_children cfg s pid v en n).trans h

theorem sysStep_finished (cfg : Cfg C) (s : State) (pid : Nat) (v : View C) :
    (sysStep cfg s pid v).1.finished = s.finished :=
  sysStep_ind (fun x => x.finished = s.finished) cfg s pid v (by split_ifs <;> rfl) (fun _ _ h _ => h)
    (fun _ _ h => h) (fun _ _ h => h) fun s en n h => (finish_finished cfg s pid v en n).trans h

theorem sysStep_spawned (cfg : Cfg C) (s : State) (pid : Nat) (v : View C) (h : s.spawned = true) :
    (sysStep cfg s pid v).1.spawned = true :=
  sysStep_ind (fun x => x.spawned = true) cfg s pid v (by split_ifs <;> exact h)
    (fun _ _ h h' => by simp [h] at h')
    (fun _ _ h => h) (fun _ _ h => h) fun s en n h => (finish_spawned cfg s pid v en n).trans h

theorem sysStep_faulted (cfg : Cfg C) (s : State) (pid : Nat) (v : View C) (h : s.faulted = true) :
    (sysStep cfg s pid v).1.faulted = true :=
  sysStep_ind (fun x => x.faulted = true) cfg s pid v (by split_ifs <;> exact h)
    (fun _ _ h _ => h) (fun _ _ _ => rfl) (fun _ _ h => h) fun s en n h => finish_faulted cfg s pid v en n h

theorem sysStep_toggle (cfg : Cfg C) (s : State) (pid : Nat) (v : View C) (h : cfg.seccomp = false) :
    (sysStep cfg s pid v).1.toggle = upd s.toggle pid (!s.toggle pid) :=
  sysStep_ind (fun x => x.toggle = upd s.toggle pid (!s.toggle pid)) cfg s pid v (by simp [h])
    (fun _ _ h _ => h) (fun _ _ h => h) (fun _ _ h => h) fun s en n h => (finish_toggle cfg s pid v en n).trans h

/-- The tracer's toggle agrees with the kernel. -/
def Agree (s : State) (ph : Phases) : Prop :=
  ∀ p, (ph p = .user → s.toggle p = false) ∧ (ph p = .inCall → s.toggle p = true)

theorem step_finished (cfg : Cfg C) (s : State) (e : Stop C) (h : s.finished = true) : (step cfg s e).1 = s := by
  simp [step, h]

theorem agree_of_reach {cfg : Cfg C} (hm : cfg.seccomp = false) {tr : List (Ev C)} {s : State} {ph : Phases}
    (h : Reach cfg tr s ph) (hc : NoClone tr) : s.finished = false → Agree s ph := by
  induction h with
  | nil => intro _ p; simp
  | @snoc tr s ph ph' e hr hk ih =>
    intro hf
    have hs : s.finished = false := by
      by_contra hh
      have hh : s.finished = true := by simpa using hh
      rw [step_finished cfg s _ hh, hh] at hf
      exact Bool.noConfusion hf
    have ih := ih (fun p t hm => hc p t (by simp [hm])) hs
    intro q
    have iq := ih q
    cases hk with
    | enter p v hp =>
      have ip := (ih p).1 hp
      simp only [Ev.seen, step, hs, Bool.false_eq_true, if_false]
      rw [sysStep_toggle cfg s p v hm]
      by_cases hq : q = p
      · subst hq; simp [setPh, upd, ip]
      · simpa [setPh, upd, hq] using iq
    | leave p v hp =>
      have ip := (ih p).2 hp
      simp only [Ev.seen, step, hs, Bool.false_eq_true, if_false]
      rw [sysStep_toggle cfg s p v hm]
      by_cases hq : q = p
      · subst hq; simp [setPh, upd, ip]
      · simpa [setPh, upd, hq] using iq
    | inside p t hp => exact absurd (by simp) (hc p t)
    | exit p hp =>
      simp only [Ev.seen, step, hs, Bool.false_eq_true, if_false]
      by_cases hq : q = p
      · subst hq; simp [setPh]
      · simpa [setPh, upd, hq] using iq
    | signal p n hp =>
      simp only [Ev.seen, step, hs, Bool.false_eq_true, if_false]
      by_cases hq : q = p
      · subst hq; simp [setPh, upd]
      · simpa [setPh, upd, hq] using iq
    | trap p hp =>
      simp only [Ev.seen, step, hs, Bool.false_eq_true, if_false]
      by_cases hq : q = p
      · subst hq; simp [setPh, upd]
      · simpa [setPh, upd, hq] using iq
    | gone p =>
      have ht : (step cfg s (Ev.gone p : Ev C).seen).1.toggle = s.toggle := by
        simp only [Ev.seen, step]
        split_ifs <;> rfl
      rw [ht]
      by_cases hq : q = p
      · subst hq; simp [setPh]
      · simpa [setPh, hq] using iq
    | continued p =>
      simp only [Ev.seen, step, hs, Bool.false_eq_true, if_false]
      exact iq

theorem step_spawned (cfg : Cfg C) (s : State) (e : Stop C) (h : s.spawned = true) : (step cfg s e).1.spawned = true := by
  unfold step
  split
  · exact h
  · cases e with
    | sys p v => exact sysStep_spawned cfg s p v h
    | gone p => simp only; split_ifs <;> exact h
    | continued p => exact h
    | signal p n => exact h
    | trap p t => cases t <;> exact h

theorem step_faulted (cfg : Cfg C) (s : State) (e : Stop C) (h : s.faulted = true) : (step cfg s e).1.faulted = true := by
  unfold step
  split
  · exact h
  · cases e with
    | sys p v => exact sysStep_faulted cfg s p v h
    | gone p => simp only; split_ifs <;> exact h
    | continued p => exact h
    | signal p n => exact h
    | trap p t => cases t <;> exact h

/-- With seccomp no return callback survives an iteration. -/
theorem finish_onRet (cfg : Cfg C) (hm : cfg.seccomp = true) (s : State) (pid : Nat) (v : View C) (en : Bool) (n : Option Int)
    (h : ∀ p, p ≠ pid → s.onRet p = false) (p : Nat) : (finish cfg s pid v en n).1.onRet p = false := by
  unfold finish
  simp only [hm, Bool.true_or, Bool.true_and, State.faultAt]
  by_cases hp : p = pid
  · subst hp
    cases ho : s.onRet p <;> simp only [Bool.false_eq_true, if_false, if_true] <;> split_ifs <;> simp [upd, ho]
  · have := h p hp
    cases ho : s.onRet pid <;> simp only [Bool.false_eq_true, if_false, if_true] <;> split_ifs <;> simp [upd, this]

theorem onRet_of_reach {cfg : Cfg C} (hm : cfg.seccomp = true) {tr : List (Stop C)} {s : State}
    (h : Reach' cfg tr s) : ∀ p, s.onRet p = false := by
  induction h with
  | nil => simp
  | @snoc tr s e hr ih =>
    intro p
    unfold step
    split
    · exact ih p
    · cases e with
      | sys q v =>
        have key : ∀ (s' : State) en n, (∀ p, p ≠ q → s'.onRet p = false) → (finish cfg s' q v en n).1.onRet p = false :=
          fun s' en n h => finish_onRet cfg hm s' q v en n h p
        simp only
        unfold sysStep
        simp only [hm, if_true, Bool.true_or]
        cases v.pre with
        | esrch => exact ih p
        | err => exact ih p
        | ok =>
          simp only
          by_cases h1 : s.spawned = false
          · rw [if_pos h1]; exact ih p
          rw [if_neg h1]
          cases decideCall cfg.isArm (cfg.tables v.abi) v.nr with
          | allow => exact key _ _ _ fun p _ => ih p
          | stdouterr =>
            simp only
            by_cases h3 : v.arg0 = 1 ∨ v.arg0 = 2
            · rw [if_pos h3]; exact key _ _ _ fun p _ => ih p
            · rw [if_neg h3]; exact key _ _ _ fun p _ => ih p
          | deny => exact ih p
          | ask c =>
            simp only
            cases v.run c with
            | exec => exact key _ _ _ fun p _ => ih p
            | kill => exact ih p
            | refuse e => exact key _ _ _ fun p hp => by simp [State.register, upd, hp, ih p]
      | gone q => simp only; split_ifs <;> exact ih p
      | continued q => exact ih p
      | signal q n => exact ih p
      | trap q t => cases t <;> exact ih p

end Verif.Monitor
