import Verif.Lemmas.Monitor

/-!
# C37 No denied syscall executes; C57 Refused calls report their error; C58 Nothing outlives the program

Under seccomp filtering the properties hold for every sequence of stops. Without it the tracer must
guess whether a syscall stop is an entry or an exit; it guesses right as long as nothing is cloned
(`_partial`), and wrong after a clone (`C37_clone_fails`).
-/

namespace Verif.Monitor
open Verif.Syscalls Verif.Isolate Verif.Monitor.Spec

variable {C : Type}

/-- The state in which a syscall stop is judged. -/
private def arrive (cfg : Cfg C) (s : State) (pid : Nat) : State :=
  if cfg.seccomp then s else { s with toggle := upd s.toggle pid (!s.toggle pid) }

private theorem sysStep_enter (cfg : Cfg C) (s : State) (pid : Nat) (v : View C) (hs : s.spawned = true) (hp : v.pre = .ok)
    (he : (cfg.seccomp || (arrive cfg s pid).toggle pid) = true) :
    sysStep cfg s pid v =
      match decideCall cfg.isArm (cfg.tables v.abi) v.nr with
      | .allow => finish cfg (arrive cfg s pid) pid v true none
      | .stdouterr =>
        if v.arg0 = 1 ∨ v.arg0 = 2 then finish cfg (arrive cfg s pid) pid v true none
        else (((finish cfg ((arrive cfg s pid).faultAt v.nr) pid v true none)).1,
          faultActs v.nr ++ (finish cfg ((arrive cfg s pid).faultAt v.nr) pid v true none).2)
      | .ask c =>
        match v.run c with
        | .exec => finish cfg (arrive cfg s pid) pid v true none
        | .refuse e => finish cfg ((arrive cfg s pid).register pid e) pid v true (some (cfg.skipNr v.abi))
        | .kill => ((arrive cfg s pid).faultAt v.nr, faultActs v.nr)
      | .deny => ((arrive cfg s pid).faultAt v.nr, faultActs v.nr) := by
  have hs' : (arrive cfg s pid).spawned = true := by unfold arrive; split_ifs <;> exact hs
  have e1 : (if cfg.seccomp = true then s else { s with toggle := upd s.toggle pid (!s.toggle pid) }) = arrive cfg s pid := rfl
  unfold sysStep
  simp only [hp, e1]
  rw [if_neg (by simp [hs']), if_pos he, he]
  cases decideCall cfg.isArm (cfg.tables v.abi) v.nr with
  | ask c => simp only; cases v.run c <;> rfl
  | _ => rfl

/-- What must happen to a forbidden call: no thread is restarted, the fault is reported with its number,
the process group is killed, and the fault stays recorded. -/
def Stopped (r : State × List Act) (nr : Int) : Prop :=
  (∀ q, Held r.2 q) ∧ Act.report nr ∈ r.2 ∧ Act.killGroup ∈ r.2 ∧ r.1.fault = some nr ∧ r.1.faulted = true

private theorem stopped_fault (s : State) (nr : Int) : Stopped (s.faultAt nr, faultActs nr) nr := by
  refine ⟨?_, by simp [faultActs], by simp [faultActs], rfl, rfl⟩
  intro q a ha n r g
  simp only [faultActs, List.mem_cons, List.not_mem_nil, or_false] at ha
  rcases ha with rfl | rfl <;> simp

private theorem enter_forbidden (cfg : Cfg C) (s : State) (pid : Nat) (v : View C) (hs : s.spawned = true) (hp : v.pre = .ok)
    (he : (cfg.seccomp || (arrive cfg s pid).toggle pid) = true) (hn : NotStd cfg v) (h : Forbids cfg v) :
    Stopped (sysStep cfg s pid v) v.nr := by
  rw [sysStep_enter cfg s pid v hs hp he]
  obtain ⟨h1, h2⟩ := h
  unfold Permits at h1
  unfold NotStd at hn
  unfold Refuses at h2
  cases hd : decideCall cfg.isArm (cfg.tables v.abi) v.nr with
  | allow => simp [hd] at h1
  | stdouterr => exact absurd hd hn
  | deny => exact stopped_fault _ _
  | ask c =>
    simp only [hd] at h1 ⊢
    simp only [reduceCtorEq, false_and, false_or, Dec.ask.injEq, exists_eq_left'] at h1
    cases hr : v.run c with
    | exec => exact absurd hr h1
    | refuse e => exact absurd ⟨c, hd, hr⟩ (h2 e)
    | kill => exact stopped_fault _ _

/-- A configuration for the examples: number 0 is allowed, number 2 asks a handler, the rest is denied. -/
private def demo (sec : Bool) : Cfg Unit :=
  { seccomp := sec, tables := fun _ => ⟨fun n => if n = 0 then 1 else if n = 2 then 2 else 0, fun n => if n = 2 then some () else none⟩,
    noop := fun _ => 39, main := 7 }

private theorem demo_deny (sec : Bool) (h : Unit → Verdict) : Forbids (demo sec) { nr := 41, run := h } := by
  have hd : decideCall (demo sec).isArm ((demo sec).tables 1) 41 = .deny := by cases sec <;> decide
  constructor
  · rintro (h | ⟨h, _⟩ | ⟨c, h, _⟩) <;> exact nomatch hd.symm.trans h
  · rintro e ⟨c, h, _⟩
    exact nomatch hd.symm.trans h

/-- Initial stop, exec, trap after exec: reachable, nothing cloned, checking is on, thread 7 in user code. -/
private theorem demo_reach : ∃ s ph, Reach (demo false) [.signal 7 19, .enter 7 { nr := 59 }, .leave 7 { nr := 59, result := 0 }, .trap 7 .plain] s ph ∧
    s.spawned = true ∧ s.finished = false ∧ ph 7 = .user :=
  ⟨_, _, .snoc _ (.snoc _ (.snoc _ (.snoc _ .nil (.signal _ _ _ (by decide))) (.enter _ _ _ (by decide)))
      (.leave _ _ _ (by decide))) (.trap _ _ (by decide)), rfl, rfl, rfl⟩

/-- A forbidden call is never let through (seccomp filtering, any state after the first exec). -/
theorem C37_seccomp_forbidden (cfg : Cfg C) (hm : cfg.seccomp = true) (s : State) (hs : s.spawned = true)
    (hf : s.finished = false) (pid : Nat) (v : View C) (hp : v.pre = .ok) (hn : NotStd cfg v) (h : Forbids cfg v) :
    Stopped (step cfg s (.sys pid v)) v.nr := by
  have : step cfg s (.sys pid v) = sysStep cfg s pid v := by simp [step, hf]
  rw [this]
  exact enter_forbidden cfg s pid v hs hp (by simp [hm]) hn h

example : NotStd (demo true) { nr := 41 } ∧ Forbids (demo true) { nr := 41 } := ⟨by unfold NotStd; decide, demo_deny _ _⟩

/-- Forbidden or not: when the registers cannot be read for another reason than the thread having
disappeared, nothing is restarted and the group is killed; when the thread has disappeared, nothing is
restarted. -/
theorem C37_unreadable (cfg : Cfg C) (s : State) (hf : s.finished = false) (pid : Nat) (v : View C) :
    (v.pre = .err → Stopped (step cfg s (.sys pid v)) (-1)) ∧ (v.pre = .esrch → (step cfg s (.sys pid v)).2 = []) := by
  have : step cfg s (.sys pid v) = sysStep cfg s pid v := by simp [step, hf]
  rw [this]
  constructor
  · intro h
    unfold sysStep
    simp only [h]
    refine ⟨?_, by simp [faultActs], by simp [faultActs], rfl, rfl⟩
    intro q a ha n r g
    simp only [faultActs, List.mem_cons, List.not_mem_nil, or_false] at ha
    rcases ha with rfl | rfl | rfl <;> simp
  · intro h
    unfold sysStep
    simp only [h]

private theorem finish_plain (cfg : Cfg C) (s : State) (pid : Nat) (v : View C) (en : Bool)
    (h : ((cfg.seccomp || !en) && s.onRet pid) = false) : (finish cfg s pid v en none).2 = [.resume pid none none 0] := by
  unfold finish
  rw [h]
  simp

private theorem enter_permitted (cfg : Cfg C) (s : State) (pid : Nat) (v : View C) (hs : s.spawned = true) (hp : v.pre = .ok)
    (he : (cfg.seccomp || (arrive cfg s pid).toggle pid) = true) (h : Permits cfg v)
    (ho : (cfg.seccomp && (arrive cfg s pid).onRet pid) = false) :
    (sysStep cfg s pid v).2 = [.resume pid none none 0] := by
  rw [sysStep_enter cfg s pid v hs hp he]
  unfold Permits at h
  cases hd : decideCall cfg.isArm (cfg.tables v.abi) v.nr with
  | allow => exact finish_plain cfg _ pid v true (by simpa using ho)
  | stdouterr =>
    simp only [hd] at h ⊢
    simp only [reduceCtorEq, false_and, false_or, true_and, or_false, exists_false] at h
    rw [if_pos h]
    exact finish_plain cfg _ pid v true (by simpa using ho)
  | deny => simp [hd] at h
  | ask c =>
    simp only [hd] at h ⊢
    simp only [reduceCtorEq, false_and, false_or, Dec.ask.injEq, exists_eq_left'] at h
    rw [h]
    exact finish_plain cfg _ pid v true (by simpa using ho)

/-- A permitted call is let through with its registers untouched and nothing else happens. -/
theorem C37_seccomp_permitted (cfg : Cfg C) (hm : cfg.seccomp = true) (tr : List (Stop C)) (s : State)
    (hr : Reach' cfg tr s) (hs : s.spawned = true) (hf : s.finished = false) (pid : Nat) (v : View C)
    (hp : v.pre = .ok) (h : Permits cfg v) :
    (step cfg s (.sys pid v)).2 = [.resume pid none none 0] := by
  have : step cfg s (.sys pid v) = sysStep cfg s pid v := by simp [step, hf]
  rw [this]
  refine enter_permitted cfg s pid v hs hp (by simp [hm]) h ?_
  have : (arrive cfg s pid) = s := by simp [arrive, hm]
  rw [this, onRet_of_reach hm hr]
  simp

example : ∃ tr s, Reach' (demo true) tr s ∧ s.spawned = true ∧ s.finished = false ∧ Permits (demo true) { nr := 0 } :=
  ⟨[.signal 7 19, .sys 7 { nr := 59 }], _, .snoc _ (.snoc _ .nil), rfl, rfl, .inl (by decide)⟩

private theorem arrive_enter {cfg : Cfg C} (hm : cfg.seccomp = false) {tr : List (Ev C)} {s : State} {ph : Phases}
    (hr : Reach cfg tr s ph) (hc : NoClone tr) (hf : s.finished = false) {pid : Nat} (hu : ph pid = .user) :
    (cfg.seccomp || (arrive cfg s pid).toggle pid) = true := by
  have := (agree_of_reach hm hr hc hf pid).1 hu
  simp [arrive, hm, upd, this]

/-- Without seccomp filtering, as long as nothing was cloned: a forbidden call is never let through.
Missing: histories with clone, fork or vfork events (see `C37_clone_fails`). -/
theorem C37_ptrace_forbidden_partial (cfg : Cfg C) (hm : cfg.seccomp = false) (tr : List (Ev C)) (s : State) (ph ph' : Phases)
    (hr : Reach cfg tr s ph) (hc : NoClone tr) (hs : s.spawned = true) (hf : s.finished = false) (pid : Nat) (v : View C)
    (hk : Kernel ph (.enter pid v) ph') (hp : v.pre = .ok) (hn : NotStd cfg v) (h : Forbids cfg v) :
    Stopped (step cfg s (Ev.enter pid v).seen) v.nr := by
  have : step cfg s (Ev.enter pid v).seen = sysStep cfg s pid v := by simp [step, hf, Ev.seen]
  rw [this]
  cases hk with
  | enter _ _ hu => exact enter_forbidden cfg s pid v hs hp (arrive_enter hm hr hc hf hu) hn h

example : ∃ tr s ph, Reach (demo false) tr s ph ∧ NoClone tr ∧ s.spawned = true ∧ s.finished = false ∧
    Kernel ph (.enter 7 ({ nr := 41 } : View Unit)) (setPh ph 7 .inCall) ∧ NotStd (demo false) { nr := 41 } ∧ Forbids (demo false) { nr := 41 } := by
  obtain ⟨s, ph, h, h1, h2, h3⟩ := demo_reach
  refine ⟨_, s, ph, h, ?_, h1, h2, .enter _ _ _ h3, by unfold NotStd; decide, demo_deny _ _⟩
  intro p t hm
  simp at hm

/-- Likewise a permitted call is let through unchanged. -/
theorem C37_ptrace_permitted_partial (cfg : Cfg C) (hm : cfg.seccomp = false) (tr : List (Ev C)) (s : State) (ph ph' : Phases)
    (hr : Reach cfg tr s ph) (hc : NoClone tr) (hs : s.spawned = true) (hf : s.finished = false) (pid : Nat) (v : View C)
    (hk : Kernel ph (.enter pid v) ph') (hp : v.pre = .ok) (h : Permits cfg v) :
    (step cfg s (Ev.enter pid v).seen).2 = [.resume pid none none 0] := by
  have : step cfg s (Ev.enter pid v).seen = sysStep cfg s pid v := by simp [step, hf, Ev.seen]
  rw [this]
  cases hk with
  | enter _ _ hu => exact enter_permitted cfg s pid v hs hp (arrive_enter hm hr hc hf hu) h (by simp [hm])

/-- Checking starts with the first exec and never stops again: with seccomp filtering from the moment
exec is attempted, without it from the moment it succeeds. -/
theorem C37_checking (cfg : Cfg C) :
    (∀ s e, s.spawned = true → (step cfg s e).1.spawned = true)
    ∧ (cfg.seccomp = true → ∀ s pid v, s.finished = false → v.pre = .ok → v.nr = 59 → (step cfg s (.sys pid v)).1.spawned = true)
    ∧ (cfg.seccomp = false → ∀ tr s ph ph' pid v, Reach cfg tr s ph → NoClone tr → s.finished = false →
        Kernel ph (.leave pid v) ph' → v.pre = .ok → v.result = 0 → v.nr = (if v.abi = 0 then 11 else 59) →
        (step cfg s (Ev.leave pid v).seen).1.spawned = true) := by
  refine ⟨fun s e h => step_spawned cfg s e h, ?_, ?_⟩
  · intro hm s pid v hf hp hn
    by_cases hs : s.spawned = true
    · exact step_spawned cfg s _ hs
    · have : step cfg s (.sys pid v) = sysStep cfg s pid v := by simp [step, hf]
      rw [this]
      unfold sysStep
      simp [hp, hm, hs, firstExecve, hn]
  · intro hm tr s ph ph' pid v hr hc hf hk hp hres hn
    by_cases hs : s.spawned = true
    · exact step_spawned cfg s _ hs
    · have : step cfg s (Ev.leave pid v).seen = sysStep cfg s pid v := by simp [step, hf, Ev.seen]
      rw [this]
      cases hk with
      | leave _ _ hu =>
        have ht := (agree_of_reach hm hr hc hf pid).2 hu
        unfold sysStep
        by_cases ha : v.abi = 0 <;> simp_all [firstExecve, upd]

/-- Before that nothing is checked: every call goes through as it is, and only the first exec starts the
checking (with seccomp filtering its attempt, without it its success). -/
theorem C37_unchecked (cfg : Cfg C) :
    (∀ s pid v, s.spawned = false → s.finished = false → v.pre = .ok →
        (step cfg s (.sys pid v)).2 = [.resume pid none none 0])
    ∧ (∀ s e, s.spawned = false → (∀ pid v, e ≠ .sys pid v) → (step cfg s e).1.spawned = false)
    ∧ (cfg.seccomp = true → ∀ s pid v, s.spawned = false → (step cfg s (.sys pid v)).1.spawned = true → v.nr = 59)
    ∧ (cfg.seccomp = false → ∀ tr s ph ph' e, Reach cfg tr s ph → NoClone tr → s.spawned = false → Kernel ph e ph' →
        (step cfg s e.seen).1.spawned = true →
        ∃ pid v, e = .leave pid v ∧ v.result = 0 ∧ v.nr = (if v.abi = 0 then 11 else 59)) := by
  have other : ∀ s e, s.spawned = false → (∀ pid v, e ≠ .sys pid v) → (step cfg s e).1.spawned = false := by
    intro s e hs he
    unfold step
    split_ifs with hf
    · exact hs
    · cases e with
      | sys pid v => exact absurd rfl (he pid v)
      | gone pid => simp only; split_ifs <;> exact hs
      | continued pid => exact hs
      | trap pid t => cases t <;> exact hs
      | signal pid sig => exact hs
  refine ⟨?_, other, ?_, ?_⟩
  · intro s pid v hs hf hp
    have : step cfg s (.sys pid v) = sysStep cfg s pid v := by simp [step, hf]
    rw [this]
    unfold sysStep
    have hs' : (if cfg.seccomp = true then s else { s with toggle := upd s.toggle pid (!s.toggle pid) }).spawned = false := by
      split_ifs <;> exact hs
    simp only [hp]
    rw [if_pos hs']
  · intro hm s pid v hs h
    unfold step at h
    split_ifs at h with hf
    · rw [hs] at h; exact nomatch h
    · simp only [sysStep, hm, if_true, Bool.true_or] at h
      cases hp : v.pre with
      | ok =>
        simp only [hp] at h
        rw [if_pos hs] at h
        simpa [firstExecve, hm] using h
      | esrch => simp only [hp] at h; rw [hs] at h; exact nomatch h
      | err => simp only [hp, State.faultAt] at h; rw [hs] at h; exact nomatch h
  · intro hm tr s ph ph' e hr hc hs hk h
    have key : ∀ pid v, e.seen = .sys pid v → s.finished = false → v.pre = .ok ∧ firstExecve cfg (!s.toggle pid) v = true := by
      intro pid v hev hf
      rw [hev] at h
      unfold step at h
      rw [if_neg (by simp [hf])] at h
      simp only [sysStep, hm, Bool.false_or] at h
      cases hp : v.pre with
      | ok =>
        simp only [hp] at h
        rw [if_pos (show (if false = true then s else { s with toggle := upd s.toggle pid (!s.toggle pid) }).spawned = false from hs)] at h
        exact ⟨rfl, by simpa [upd] using h⟩
      | esrch => simp only [hp] at h; simp [hs] at h
      | err => simp only [hp, State.faultAt] at h; simp [hs] at h
    by_cases hf : s.finished = true
    · unfold step at h
      rw [if_pos hf, hs] at h
      exact nomatch h
    · have hf : s.finished = false := by simpa using hf
      have no : (∀ pid v, e.seen ≠ .sys pid v) → False := fun hne => by
        rw [other s _ hs hne] at h; exact nomatch h
      cases hk with
      | enter p v hu =>
        have := (key p v rfl hf).2
        rw [(agree_of_reach hm hr hc hf p).1 hu] at this
        simp [firstExecve, hm] at this
      | leave p v hu =>
        have := (key p v rfl hf).2
        rw [(agree_of_reach hm hr hc hf p).2 hu] at this
        refine ⟨p, v, rfl, ?_⟩
        unfold firstExecve at this
        simp only [hm, Bool.false_eq_true, if_false, Bool.not_true] at this
        split_ifs at this ⊢ with ha <;> simp at this <;> exact ⟨this.2, this.1⟩
      | inside p t hu => exact (no (fun _ _ h => nomatch h)).elim
      | exit p hu => exact (no (fun _ _ h => nomatch h)).elim
      | signal p n hu => exact (no (fun _ _ h => nomatch h)).elim
      | trap p hu => exact (no (fun _ _ h => nomatch h)).elim
      | gone p => exact (no (fun _ _ h => nomatch h)).elim
      | continued p => exact (no (fun _ _ h => nomatch h)).elim

example : (step (demo false) {} (.sys 7 { nr := 41 })).2 = [.resume 7 none none 0] :=
  (C37_unchecked (demo false)).1 {} 7 _ rfl rfl rfl

/-- Once a fault was reported, the exit report says so. -/
theorem C37_exit_reason (cfg : Cfg C) (s : State) (e : Stop C) (f : Bool) (hs : s.faulted = true) :
    (step cfg s e).1.faulted = true ∧ (Act.exited f ∈ (step cfg s e).2 → f = true) := by
  refine ⟨step_faulted cfg s e hs, ?_⟩
  intro h
  unfold step at h
  split_ifs at h with h1
  · simp at h
  · cases e with
    | gone p =>
      simp only at h
      split_ifs at h <;> simp [hs] at h
      exact h
    | continued p => simp at h
    | signal p n => simp only at h; split_ifs at h <;> simp at h
    | trap p t => cases t <;> simp only at h <;> split_ifs at h <;> simp at h
    | sys p v =>
      exfalso
      simp only at h
      have key : ∀ s' en n, Act.exited f ∉ (finish cfg s' p v en n).2 := by
        intro s' en n
        unfold finish
        simp only
        split_ifs <;> simp [faultActs]
      unfold sysStep at h
      simp only at h
      repeat' split at h
      all_goals first
        | exact key _ _ _ h
        | (simp [faultActs] at h; done)
        | (rcases List.mem_append.mp h with h | h
           · simp [faultActs] at h
           · exact key _ _ _ h)

/-! ## The two ways the full property fails -/

/-- Without seccomp filtering, after a clone the tracer takes entries for exits: a call forbidden by the
policy (here number 41, `socket`; everything but `clone`, 56, is forbidden) is restarted unchanged. The
history: initial stop, exec, clone (entry, clone event, exit), then the entry of the forbidden call. -/
theorem C37_clone_fails :
    ∃ (cfg : Cfg Unit) (tr : List (Ev Unit)) (s : State) (ph ph' : Phases) (pid : Nat) (v : View Unit),
      cfg.seccomp = false ∧ Reach cfg tr s ph ∧ s.spawned = true ∧ s.finished = false ∧ Kernel ph (.enter pid v) ph' ∧
      v.pre = .ok ∧ NotStd cfg v ∧ Forbids cfg v ∧ (step cfg s (Ev.enter pid v).seen).2 = [.resume pid none none 0] := by
  let cfg : Cfg Unit := { seccomp := false, tables := fun _ => ⟨fun n => if n = 56 then 1 else 0, fun _ => none⟩, noop := fun _ => 39, main := 7 }
  have hd : decideCall cfg.isArm (cfg.tables 1) 41 = .deny := by decide
  refine ⟨cfg, [.signal 7 19, .enter 7 { nr := 59 }, .leave 7 { nr := 59, result := 0 }, .trap 7 .plain,
    .enter 7 { nr := 56 }, .inside 7 .clone, .leave 7 { nr := 56, result := 8 }], _, _, _, 7, { nr := 41 }, rfl,
    .snoc _ (.snoc _ (.snoc _ (.snoc _ (.snoc _ (.snoc _ (.snoc _ .nil (.signal _ _ _ (by decide))) (.enter _ _ _ (by decide)))
      (.leave _ _ _ (by decide))) (.trap _ _ (by decide))) (.enter _ _ _ (by decide))) (.inside _ _ _ (by decide)))
      (.leave _ _ _ (by decide)), rfl, rfl, .enter _ _ _ (by decide), rfl, by unfold NotStd; decide, ⟨?_, ?_⟩, by decide⟩
  · rintro (h | ⟨h, _⟩ | ⟨c, h, _⟩) <;> exact nomatch hd.symm.trans h
  · rintro e ⟨c, h, _⟩
    exact nomatch hd.symm.trans h

/-- A call limited to the standard output streams and used on another descriptor is reported and the
group killed, but the thread is restarted as well. No policy in the repository uses this handler. -/
theorem C37_stdouterr_fails :
    ∃ (cfg : Cfg Unit) (v : View Unit), cfg.seccomp = true ∧ Forbids cfg v ∧
      (step cfg { spawned := true, first := false } (.sys 7 v)).2 = [.report 1, .killGroup, .resume 7 none none 0] := by
  let cfg : Cfg Unit := { seccomp := true, tables := fun _ => ⟨fun _ => 3, fun _ => none⟩, noop := fun _ => 39, main := 7 }
  have hd : decideCall cfg.isArm (cfg.tables 1) 1 = .stdouterr := by decide
  refine ⟨cfg, { nr := 1, arg0 := 5 }, rfl, ⟨?_, ?_⟩, by decide⟩
  · rintro (h | ⟨_, h⟩ | ⟨c, h, _⟩)
    · exact nomatch hd.symm.trans h
    · revert h; decide
    · exact nomatch hd.symm.trans h
  · rintro e ⟨c, h, _⟩
    exact nomatch hd.symm.trans h

/-- Such a call is nevertheless always reported and killed, before the restart. -/
theorem C37_stdouterr (cfg : Cfg C) (hm : cfg.seccomp = true) (s : State) (hs : s.spawned = true)
    (hf : s.finished = false) (pid : Nat) (v : View C) (hp : v.pre = .ok) (h : Forbids cfg v) :
    ∃ rest, (step cfg s (.sys pid v)).2 = .report v.nr :: .killGroup :: rest := by
  by_cases hn : NotStd cfg v
  · have := C37_seccomp_forbidden cfg hm s hs hf pid v hp hn h
    have hst : step cfg s (.sys pid v) = sysStep cfg s pid v := by simp [step, hf]
    rw [hst, sysStep_enter cfg s pid v hs hp (by simp [hm])]
    unfold NotStd at hn
    obtain ⟨h1, h2⟩ := h
    unfold Permits at h1
    cases hd : decideCall cfg.isArm (cfg.tables v.abi) v.nr with
    | allow => simp [hd] at h1
    | stdouterr => exact absurd hd hn
    | deny => exact ⟨[], rfl⟩
    | ask c =>
      simp only [hd] at h1 ⊢
      simp only [reduceCtorEq, false_and, false_or, Dec.ask.injEq, exists_eq_left'] at h1
      cases hr : v.run c with
      | exec => exact absurd hr h1
      | refuse e => exact absurd ⟨c, hd, hr⟩ (h2 e)
      | kill => exact ⟨[], rfl⟩
  · unfold NotStd at hn
    have hn : decideCall cfg.isArm (cfg.tables v.abi) v.nr = .stdouterr := not_not.mp hn
    have h1 := h.1
    unfold Permits at h1
    simp only [hn, reduceCtorEq, true_and, false_and, false_or, or_false, exists_false] at h1
    have hst : step cfg s (.sys pid v) = sysStep cfg s pid v := by simp [step, hf]
    rw [hst, sysStep_enter cfg s pid v hs hp (by simp [hm]), hn]
    simp only
    rw [if_neg h1]
    exact ⟨_, rfl⟩

/-! ## C57 -/

/-- Under seccomp filtering a refused call is not executed (its number becomes -1) and its result is the
prescribed error, in any state. -/
theorem C57_seccomp (cfg : Cfg C) (hm : cfg.seccomp = true) (s : State) (hs : s.spawned = true) (hf : s.finished = false)
    (pid : Nat) (v : View C) (e : Nat) (hp : v.pre = .ok) (hpost : v.post = true) (h : Refuses cfg v e) :
    (step cfg s (.sys pid v)).2 = [.resume pid (some (-1)) (some (-(e : Int))) 0] := by
  have hst : step cfg s (.sys pid v) = sysStep cfg s pid v := by simp [step, hf]
  obtain ⟨c, hd, hr⟩ := h
  rw [hst, sysStep_enter cfg s pid v hs hp (by simp [hm]), hd]
  simp only [hr]
  simp [finish, hm, State.register, upd, hpost, Cfg.skipNr]

example : Refuses (demo true) { nr := 2, run := fun _ => .refuse 2 } 2 := ⟨(), by decide, rfl⟩

/-- If the registers cannot be written back, the call is not let through. -/
theorem C57_write_back (cfg : Cfg C) (s : State) (hs : s.spawned = true) (hf : s.finished = false)
    (hm : cfg.seccomp = true) (pid : Nat) (v : View C) (e : Nat) (hp : v.pre = .ok) (hpost : v.post = false) (h : Refuses cfg v e) :
    Stopped (step cfg s (.sys pid v)) v.nr := by
  have hst : step cfg s (.sys pid v) = sysStep cfg s pid v := by simp [step, hf]
  obtain ⟨c, hd, hr⟩ := h
  rw [hst, sysStep_enter cfg s pid v hs hp (by simp [hm]), hd]
  simp only [hr]
  unfold finish
  simp only [hpost, Option.isSome_some, Bool.true_or, Bool.not_false, Bool.and_self, if_true]
  refine ⟨?_, by simp [faultActs], by simp [faultActs], rfl, rfl⟩
  intro q a ha n r g
  simp only [faultActs, List.mem_cons, List.not_mem_nil, or_false] at ha
  rcases ha with rfl | rfl | rfl <;> simp

private theorem run_quiet (cfg : Cfg C) (pid : Nat) : ∀ (mid : List (Stop C)) (s : State), s.finished = false →
    (∀ x ∈ mid, x.pid ≠ pid ∧ (∀ q v, x ≠ .sys q v)) → (run cfg s mid).1.finished = false →
    (run cfg s mid).1.onRet = s.onRet ∧ (run cfg s mid).1.slot = s.slot ∧ (run cfg s mid).1.toggle pid = s.toggle pid
      ∧ (s.spawned = true → (run cfg s mid).1.spawned = true) := by
  intro mid
  induction mid with
  | nil => intro s _ _ _; simp [run]
  | cons x xs ih =>
    intro s hf hx hfin
    have hx0 := hx x (by simp)
    have key : (step cfg s x).1.onRet = s.onRet ∧ (step cfg s x).1.slot = s.slot ∧ (step cfg s x).1.toggle pid = s.toggle pid := by
      cases x with
      | sys q v => exact absurd rfl (hx0.2 q v)
      | gone q => simp only [step, hf, Bool.false_eq_true, if_false]; split_ifs <;> simp
      | continued q => simp [step, hf]
      | signal q n =>
        have : pid ≠ q := fun h => hx0.1 h.symm
        simp [step, hf, upd, this]
      | trap q t =>
        have : pid ≠ q := fun h => hx0.1 h.symm
        cases t <;> simp [step, hf, upd, this]
    have hf1 : (step cfg s x).1.finished = false := by
      by_contra hh
      have hh : (step cfg s x).1.finished = true := by simpa using hh
      have : ∀ (ys : List (Stop C)) (s' : State), s'.finished = true → (run cfg s' ys).1.finished = true := by
        intro ys
        induction ys with
        | nil => intro s' h; exact h
        | cons y ys ih' => intro s' h; simp only [run]; exact ih' _ (by rw [step_finished cfg s' y h]; exact h)
      have h2 := this xs _ hh
      simp only [run] at hfin
      rw [hfin] at h2
      exact Bool.noConfusion h2
    have := ih (step cfg s x).1 hf1 (fun y hy => hx y (by simp [hy])) (by simpa [run] using hfin)
    simp only [run]
    refine ⟨this.1.trans key.1, this.2.1.trans key.2.1, this.2.2.1.trans key.2.2, fun h => this.2.2.2 (step_spawned cfg s x h)⟩

/-- Without seccomp filtering: a refused call is replaced by the harmless one at entry, and at its exit
the result becomes the prescribed error, provided nothing was cloned before and no other thread makes
a system call in between. Missing: other threads (see `C57_threads_fails`) and clones. -/
theorem C57_ptrace_partial (cfg : Cfg C) (hm : cfg.seccomp = false) (tr : List (Ev C)) (s : State) (ph ph' : Phases)
    (hr : Reach cfg tr s ph) (hc : NoClone tr) (hs : s.spawned = true) (hf : s.finished = false) (pid : Nat) (v v' : View C) (e : Nat)
    (hk : Kernel ph (.enter pid v) ph') (hp : v.pre = .ok) (hpost : v.post = true) (h : Refuses cfg v e)
    (mid : List (Stop C)) (hq : ∀ x ∈ mid, x.pid ≠ pid ∧ (∀ q w, x ≠ .sys q w))
    (hp' : v'.pre = .ok) (hpost' : v'.post = true)
    (hfin : (run cfg (step cfg s (.sys pid v)).1 mid).1.finished = false) :
    (step cfg s (.sys pid v)).2 = [.resume pid (some (cfg.noop v.abi)) none 0] ∧
    (step cfg (run cfg (step cfg s (.sys pid v)).1 mid).1 (.sys pid v')).2 = [.resume pid none (some (-(e : Int))) 0] := by
  have hst : step cfg s (.sys pid v) = sysStep cfg s pid v := by simp [step, hf]
  obtain ⟨c, hd, hrun⟩ := h
  have hu : ph pid = .user := by cases hk; assumption
  have ht := (agree_of_reach hm hr hc hf pid).1 hu
  have hen := arrive_enter hm hr hc hf hu
  have hss : step cfg s (.sys pid v) = ({ (arrive cfg s pid).register pid e with first := false }, [.resume pid (some (cfg.noop v.abi)) none 0]) := by
    rw [hst, sysStep_enter cfg s pid v hs hp hen, hd]
    simp only [hrun]
    simp [finish, hm, State.register, upd, hpost, Cfg.skipNr]
  rw [hss] at hfin ⊢
  refine ⟨rfl, ?_⟩
  have hf0 : ({ (arrive cfg s pid).register pid e with first := false } : State).finished = false := by
    simp [State.register, arrive, hm, hf]
  obtain ⟨h1, h2, h3, h4⟩ := run_quiet cfg pid mid _ hf0 hq hfin
  have h4 := h4 (by simp [State.register, arrive, hm, hs])
  have h2 : (run cfg ({ (arrive cfg s pid).register pid e with first := false } : State) mid).1.slot = some e := h2
  have h1' : (run cfg ({ (arrive cfg s pid).register pid e with first := false } : State) mid).1.onRet pid = true := by
    rw [h1]; simp [State.register, upd]
  have h3 : (run cfg ({ (arrive cfg s pid).register pid e with first := false } : State) mid).1.toggle pid = true := by
    rw [h3]; simp [State.register, arrive, hm, upd, ht]
  simp only at hfin ⊢
  generalize (run cfg ({ (arrive cfg s pid).register pid e with first := false } : State) mid).1 = s2 at *
  unfold step
  rw [if_neg (by simp [hfin])]
  unfold sysStep
  simp [hm, hp', h4, h3, upd, finish, h1', h2, hpost']

example : ∃ tr s ph, Reach (demo false) tr s ph ∧ s.spawned = true ∧ Kernel ph (.enter 7 ({ nr := 2, run := fun _ => .refuse 2 } : View Unit)) (setPh ph 7 .inCall) ∧
    Refuses (demo false) { nr := 2, run := fun _ => .refuse 2 } 2 := by
  obtain ⟨s, ph, h, h1, h2, h3⟩ := demo_reach
  exact ⟨_, s, ph, h, h1, .enter _ _ _ h3, (), by decide, rfl⟩

/-- Two threads with refused calls in flight: the first to return gets the error of the other one, and
the other one gets the result of the harmless call. -/
theorem C57_threads_fails :
    ∃ (cfg : Cfg Nat) (tr : List (Ev Nat)) (s : State) (ph : Phases) (a b a' b' : View Nat),
      cfg.seccomp = false ∧ Reach cfg tr s ph ∧ s.spawned = true ∧ s.finished = false ∧ NoClone tr ∧ ph 7 = .user ∧ ph 8 = .user ∧
      Refuses cfg a 2 ∧ Refuses cfg b 1 ∧
      (run cfg s [.sys 7 a, .sys 8 b, .sys 7 a', .sys 8 b']).2 =
        [[.resume 7 (some 39) none 0], [.resume 8 (some 39) none 0], [.resume 7 none (some (-1)) 0], [.resume 8 none none 0]] := by
  let cfg : Cfg Nat := { seccomp := false, tables := fun _ => ⟨fun _ => 2, fun n => some n⟩, noop := fun _ => 39, main := 7 }
  refine ⟨cfg, [.signal 7 19, .enter 7 { nr := 59 }, .leave 7 { nr := 59, result := 0 }, .trap 7 .plain, .signal 8 19], _, _,
    { nr := 2, run := fun _ => .refuse 2 }, { nr := 90, run := fun _ => .refuse 1 }, { nr := 39, result := 7 }, { nr := 39, result := 7 }, rfl,
    .snoc _ (.snoc _ (.snoc _ (.snoc _ (.snoc _ .nil (.signal _ _ _ (by decide))) (.enter _ _ _ (by decide)))
      (.leave _ _ _ (by decide))) (.trap _ _ (by decide))) (.signal _ _ _ (by decide)), rfl, rfl, ?_, rfl, rfl,
    ⟨2, rfl, rfl⟩, ⟨90, rfl, rfl⟩, by decide⟩
  intro p t h
  simp at h

/-! ## C58 -/

/-- Processes reported by fork events and not yet reaped. -/
def living : List (Stop C) → List Nat
  | [] => []
  | x :: older =>
    match x with
    | .trap _ (.fork c) => c :: living older
    | .trap _ (.vfork c) => c :: living older
    | .gone p => (living older).filter (· ≠ p)
    | _ => living older

/-- The loop ends exactly at the death of the main process (or of the process that never got to its
first stop); then every forked process still alive is killed, and nothing else is. -/
theorem C58_end (cfg : Cfg C) (tr : List (Stop C)) (s : State) (hr : Reach' cfg tr s) (hf : s.finished = false) (e : Stop C) :
    ((step cfg s e).1.finished = true ↔ ∃ p, e = .gone p ∧ (s.first = true ∨ p = cfg.main)) ∧
    ((step cfg s e).1.finished = true → ∀ q, Act.killChild q ∈ (step cfg s e).2 ↔ q ∈ living tr.reverse) := by
  have hch : ∀ q, q ∈ s.children ↔ q ∈ living tr.reverse := by
    clear e
    revert hf
    induction hr with
    | nil => simp [living]
    | @snoc tr s e hr ih =>
      intro hf q
      have hs : s.finished = false := by
        by_contra hh
        have hh : s.finished = true := by simpa using hh
        rw [step_finished cfg s _ hh, hh] at hf
        exact Bool.noConfusion hf
      have ih := ih hs
      simp only [List.reverse_append, List.reverse_cons, List.reverse_nil, List.nil_append, List.cons_append]
      cases e with
      | sys p v =>
        simp only [living, step, hs, Bool.false_eq_true, if_false]
        rw [sysStep_children]; exact ih q
      | continued p => simp only [living, step, hs, Bool.false_eq_true, if_false]; exact ih q
      | signal p n => simp only [living, step, hs, Bool.false_eq_true, if_false]; exact ih q
      | gone p =>
        by_cases h1 : s.first = true ∨ p = cfg.main
        · simp [step, hs, h1] at hf
        · simp [living, step, hs, h1, ih q]
      | trap p t =>
        cases t with
        | fork c =>
          simp only [living, step, hs, Bool.false_eq_true, if_false, List.mem_cons, List.mem_filter, ih q]
          by_cases h : q = c <;> simp [h]
        | vfork c =>
          simp only [living, step, hs, Bool.false_eq_true, if_false, List.mem_cons, List.mem_filter, ih q]
          by_cases h : q = c <;> simp [h]
        | _ => simp only [living, step, hs, Bool.false_eq_true, if_false]; exact ih q
  constructor
  · constructor
    · intro h
      cases e with
      | sys p v => simp only [step, hf, Bool.false_eq_true, if_false] at h; rw [sysStep_finished, hf] at h; simp at h
      | continued p => simp [step, hf] at h
      | signal p n => simp [step, hf] at h
      | trap p t => cases t <;> simp [step, hf] at h
      | gone p =>
        refine ⟨p, rfl, ?_⟩
        by_contra hh
        simp [step, hf, hh] at h
    · rintro ⟨p, rfl, h⟩
      simp [step, hf, h]
  · intro h q
    cases e with
    | sys p v => simp only [step, hf, Bool.false_eq_true, if_false] at h; rw [sysStep_finished, hf] at h; simp at h
    | continued p => simp [step, hf] at h
    | signal p n => simp [step, hf] at h
    | trap p t => cases t <;> simp [step, hf] at h
    | gone p =>
      by_cases hh : s.first = true ∨ p = cfg.main
      · simp [step, hf, hh, hch q]
      · simp [step, hf, hh] at h

example : (run (demo true) {} [.signal 7 19, .sys 7 { nr := 59 }, .trap 7 (.fork 8), .trap 7 (.fork 9), .gone 8, .gone 7]).2.getLast? =
    some [.killChild 9, .exited false] := by decide

/-- Signals other than traps are delivered to the program, except at the very first stop. -/
theorem C58_signal (cfg : Cfg C) (s : State) (hf : s.finished = false) (pid sig : Nat) :
    ∃ pre, (step cfg s (.signal pid sig)).2 = pre ++ [.resume pid none none (if s.first then 0 else sig)] ∧
      (∀ a ∈ pre, a = .signalEvent sig) ∧ (Act.signalEvent sig ∈ pre ↔ s.first = false ∧ pid = cfg.main) := by
  by_cases h : s.first = false ∧ pid = cfg.main
  · refine ⟨[.signalEvent sig], ?_, by simp, by simp [h]⟩
    simp [step, hf, h]
  · refine ⟨[], ?_, by simp, by simp only [List.not_mem_nil, false_iff]; exact h⟩
    simp [step, hf, h]

/-- A trap is reported as signal 5, for the program itself and not at the very first stop, and never delivered. -/
theorem C58_trap (cfg : Cfg C) (s : State) (hf : s.finished = false) (pid : Nat) (t : Trap) :
    ∃ pre, (step cfg s (.trap pid t)).2 = pre ++ [.resume pid none none 0] ∧
      (∀ a ∈ pre, a = .signalEvent 5) ∧ (Act.signalEvent 5 ∈ pre ↔ s.first = false ∧ pid = cfg.main) := by
  have e : ∀ s' : State, s'.first = s.first → (if s'.first = false ∧ pid = cfg.main then [Act.signalEvent SIGTRAP] else []) =
      if s.first = false ∧ pid = cfg.main then [Act.signalEvent 5] else [] := by
    intro s' h
    rw [h]
    rfl
  refine ⟨if s.first = false ∧ pid = cfg.main then [Act.signalEvent 5] else [], ?_, ?_, ?_⟩
  · cases t <;> simp only [step, hf, Bool.false_eq_true, if_false] <;> rw [← e s rfl]
  · intro a ha
    split at ha
    · simpa using ha
    · simp at ha
  · split
    · rename_i h; simp [h]
    · rename_i h; simp only [List.not_mem_nil, false_iff]; exact h

example : (step (demo true) { first := false } (.trap 7 .plain)).2 = [.signalEvent 5, .resume 7 none none 0] := by decide

end Verif.Monitor
