import Verif.Spec.Start
import Verif.Props.Child
import Verif.Props.Sandbox
import Verif.Props.Memory
import Verif.Model.Process

/-!
# C97 Starting a program
-/

namespace Verif.Props.Start
open Verif.Child Verif.Child.Spec Verif.Monitor Verif.Start Verif.Start.Spec

/-! ## What surrounds it -/

private theorem under_some {a : Option Nat} {b : Nat} : under a (some b) = true ↔ ∃ x, a = some x ∧ x ≤ b := by
  cases a <;> simp [under]

private theorem setLimit_ordered (p : Bool) (l : Limits) (q : Res × Option Nat × Option Nat) (h : Ordered l) : Ordered (setLimit p l q) := by
  unfold setLimit
  split
  · rename_i hc
    simp only [Bool.and_eq_true] at hc
    intro r b hb
    by_cases hr : r = q.1
    · simp only [if_pos hr] at hb ⊢
      rw [hb] at hc
      exact under_some.1 hc.1
    · simp only [if_neg hr] at hb ⊢
      exact h r b hb
  · exact h

theorem setLimit_other (p : Bool) (l : Limits) (q : Res × Option Nat × Option Nat) (r : Res) (hr : r ≠ q.1) : setLimit p l q r = l r := by
  unfold setLimit
  split
  · simp [hr]
  · rfl

theorem fold_other (p : Bool) (r : Res) : ∀ (qs : List (Res × Option Nat × Option Nat)) (l : Limits), (∀ q ∈ qs, q.1 ≠ r) →
    qs.foldl (setLimit p) l r = l r := by
  intro qs
  induction qs with
  | nil => intro l _; rfl
  | cons q qs ih =>
    intro l h
    rw [List.foldl_cons, ih _ (fun q' hq => h q' (List.mem_cons_of_mem _ hq)), setLimit_other _ _ _ _ (fun e => h q List.mem_cons_self e.symm)]

private theorem fold_ordered (p : Bool) : ∀ (qs : List (Res × Option Nat × Option Nat)) (l : Limits), Ordered l → Ordered (qs.foldl (setLimit p) l) := by
  intro qs
  induction qs with
  | nil => intro l h; exact h
  | cons q qs ih => intro l h; exact ih _ (setLimit_ordered p l q h)

theorem setLimit_at (p : Bool) (l : Limits) (r : Res) (s h : Nat) (ho : Ordered l) (h1 : s ≤ h) (h2 : h ≤ s + 1) :
    AtMost (setLimit p l (r, some s, some h) r) s h := by
  unfold setLimit
  split
  · simp only [if_true]
    exact ⟨⟨s, rfl, Nat.le_refl _⟩, ⟨h, rfl, Nat.le_refl _⟩⟩
  · rename_i hc
    cases hh : (l r).2 with
    | none => simp [under, hh, h1] at hc
    | some b =>
      have hb : b < h := by
        simp [under, hh, h1] at hc
        omega
      obtain ⟨a, ha, hab⟩ := ho r b hh
      exact ⟨⟨a, ha, by omega⟩, ⟨b, hh, by omega⟩⟩

private theorem fold_at (p : Bool) (pre post : List (Res × Option Nat × Option Nat)) (l : Limits) (r : Res) (s h : Nat) (ho : Ordered l)
    (h1 : s ≤ h) (h2 : h ≤ s + 1) (hp : ∀ q ∈ post, q.1 ≠ r) :
    AtMost ((pre ++ (r, some s, some h) :: post).foldl (setLimit p) l r) s h := by
  rw [List.foldl_append, List.foldl_cons, fold_other _ _ _ _ hp]
  exact setLimit_at p _ r s h (fold_ordered p pre l ho) h1 h2

/-- The limit asked for the resource is the only one, so it holds in the end. -/
private theorem limits_at (p : Bool) (c : Config) (l : Limits) (r : Res) (s h : Nat) (ho : Ordered l) (h1 : s ≤ h) (h2 : h ≤ s + 1)
    (hm : (r, some s, some h) ∈ limits c) : AtMost ((limits c).foldl (setLimit p) l r) s h := by
  have hn : (limits c).Pairwise (fun a b => a.1 ≠ b.1) := by
    unfold limits
    split_ifs <;> simp
  obtain ⟨pre, post, he⟩ := List.append_of_mem hm
  rw [he] at hn ⊢
  refine fold_at p pre post l r s h ho h1 h2 (fun q hq => ?_)
  have := (List.pairwise_cons.1 (List.pairwise_append.1 hn).2.1).1 q hq
  exact fun e => this e.symm

/-- The process of a successful start, step by step. -/
private theorem childRun_ok {C : Type} (c : Conf) (k : Kernel C) (w w' : World) (h : childRun c k w = .ok w') :
    k.noNewPrivs = true ∧ k.traceMe = true ∧ (c.seccomp = true → k.filter = true) ∧ k.exec = true ∧
    w'.noNewPrivs = true ∧ w'.traced = true ∧ w'.fds = k.closed ∧ (c.seccomp = true → w'.filter = some (installed c k)) ∧
    w'.limits = (limits c.limits).foldl (setLimit k.privileged) w.limits ∧ w'.cwd = (if c.dir ≠ [] ∧ k.chdir = true then c.dir else w.cwd) ∧
    w'.image = c.file := by
  unfold childRun at h
  cases h1 : k.noNewPrivs <;> simp [h1] at h
  cases h2 : k.traceMe <;> simp [h2] at h
  cases h4 : k.exec <;> cases h5 : c.seccomp <;> cases h3 : k.filter <;> simp [h3, h4, h5] at h <;>
    (subst h; split_ifs <;> simp_all)

/-- **C97**: whatever else fails, once the program runs it is confined as asked for: it can gain no privileges, is traced and filtered,
has no open files but its standard streams and no limit is laxer than asked for. -/
theorem C97_confined {C : Type} (c : Conf) (k : Kernel C) (w w' : World) (ho : Ordered w.limits)
    (hc : CloseFrom 3 (streams w.fds c.stdin c.stdout c.stderr) k.closed) (h : childRun c k w = .ok w') : Confined c w' := by
  obtain ⟨-, -, -, -, g1, g2, g3, g4, g5, -, -⟩ := childRun_ok c k w w' h
  refine ⟨g1, g2, fun hs => ⟨_, g4 hs, fun n hn => ?_⟩, fun n hn => ?_, fun ha => ?_, fun ha => ?_, fun ha => ?_, fun n ha => ?_, fun n ha => ?_, ?_⟩
  · unfold installed at hn
    simp only [Bool.and_eq_true, decide_eq_true_eq] at hn
    exact ⟨hn.1.1, hn.1.2⟩
  · rw [g3]; exact (C50_closefrom 3 _ _ hc).1 n hn
  · rw [g5]; exact limits_at _ _ _ _ _ _ ho (Nat.le_refl _) (Nat.le_succ _) (by simp [limits, ha])
  · rw [g5]; exact limits_at _ _ _ _ _ _ ho (Nat.le_refl _) (Nat.le_succ _) (by simp [limits, ha])
  · rw [g5]; exact limits_at _ _ _ _ _ _ ho (Nat.le_succ _) (Nat.le_refl _) (by simp [limits, ha])
  · rw [g5]; exact limits_at _ _ _ _ _ _ ho (Nat.le_refl _) (Nat.le_succ _) (by simp [limits, ha])
  · rw [g5]; exact limits_at _ _ _ _ _ _ ho (Nat.le_refl _) (Nat.le_succ _) (by simp [limits, ha])
  · rw [g5]; exact limits_at _ _ _ _ _ _ ho (Nat.le_refl _) (Nat.le_succ _) (by simp [limits])

/-- **C97**: the standard streams are those the child connected, the program is the one asked for. -/
theorem C97_connected {C : Type} (c : Conf) (k : Kernel C) (w w' : World)
    (hc : CloseFrom 3 (streams w.fds c.stdin c.stdout c.stderr) k.closed) (h : childRun c k w = .ok w') :
    (∀ n, n < 3 → w'.fds n = streams w.fds c.stdin c.stdout c.stderr n) ∧ w'.image = c.file := by
  obtain ⟨-, -, -, -, -, -, g3, -, -, -, g6⟩ := childRun_ok c k w w' h
  exact ⟨fun n hn => by rw [g3]; exact (C50_closefrom 3 _ _ hc).2 n hn, g6⟩

/-- **C97**: it runs in the directory asked for — provided the change of directory succeeded. -/
theorem C97_directory_partial {C : Type} (c : Conf) (k : Kernel C) (w w' : World) (hd : c.dir ≠ []) (hk : k.chdir = true)
    (h : childRun c k w = .ok w') : w'.cwd = c.dir := by
  obtain ⟨-, -, -, -, -, -, -, -, -, g, -⟩ := childRun_ok c k w w' h
  rw [g, if_pos ⟨hd, hk⟩]

/-- **C97**: its stack is unlimited — provided the judge's own hard limit allows it. -/
theorem C97_stack_partial {C : Type} (c : Conf) (k : Kernel C) (w w' : World) (hp : k.privileged = true ∨ (w.limits .stack).2 = none)
    (h : childRun c k w = .ok w') : w'.limits .stack = (none, none) := by
  obtain ⟨-, -, -, -, -, -, -, -, g, -, -⟩ := childRun_ok c k w w' h
  rw [g]
  have hm : (Res.stack, none, none) ∈ limits c.limits := by simp [limits]
  obtain ⟨pre, post, he⟩ := List.append_of_mem hm
  have hn : (limits c.limits).Pairwise (fun a b => a.1 ≠ b.1) := by
    unfold limits
    split_ifs <;> simp
  rw [he] at hn ⊢
  have hpost : ∀ q ∈ post, q.1 ≠ Res.stack := fun q hq e => (List.pairwise_cons.1 (List.pairwise_append.1 hn).2.1).1 q hq e.symm
  have hpre : ∀ q ∈ pre, q.1 ≠ Res.stack := fun q hq => (List.pairwise_append.1 hn).2.2 q hq _ List.mem_cons_self
  rw [List.foldl_append, List.foldl_cons, fold_other _ _ _ _ hpost]
  have hf := fold_other k.privileged _ _ w.limits hpre
  generalize List.foldl (setLimit k.privileged) w.limits pre = l at hf ⊢
  unfold setLimit
  rw [if_pos]
  · simp
  · simp only [hf, under, Bool.true_and, Bool.or_eq_true]
    rcases hp with hp | hp
    · exact .inl hp
    · exact .inr (by rw [hp])

/-! ## What the tracer makes of it -/

private theorem run_app {C : Type} (cfg : Cfg C) : ∀ (es fs : List (Stop C)) (s : State), (run cfg s (es ++ fs)).1 = (run cfg (run cfg s es).1 fs).1 := by
  intro es
  induction es with
  | nil => intro fs s; rfl
  | cons e es ih => intro fs s; exact ih fs _

/-- Nothing has been judged so far. -/
private structure Fresh (s : State) (main : Nat) : Prop where
  first : s.first = false
  toggle : s.toggle main = false
  faulted : s.faulted = false
  fault : s.fault = none
  children : s.children = []
  finished : s.finished = false

private theorem fresh_sys {C : Type} (cfg : Cfg C) (s : State) (v : View C) (hs : s.spawned = false) (hf : s.finished = false) (hv : v.pre = .ok) :
    step cfg s (.sys cfg.main v) =
      ({ (if cfg.seccomp then s else { s with toggle := upd s.toggle cfg.main (!s.toggle cfg.main) }) with
          spawned := firstExecve cfg (cfg.seccomp || !s.toggle cfg.main) v, first := false }, [.resume cfg.main none none 0]) := by
  cases hc : cfg.seccomp <;> simp [step, sysStep, hv, hs, hf, hc, upd]

private theorem fresh_call {C : Type} (cfg : Cfg C) (c : Conf) (k : Kernel C) (hc : cfg.seccomp = c.seccomp) (v : View C) (s : State)
    (hs : s.spawned = false) (h : Fresh s cfg.main) (hv : v.pre = .ok ∧ v.abi = 1 ∧ v.nr ≠ 59) :
    (run cfg s (callStops c k cfg.main v)).1.spawned = false ∧ Fresh (run cfg s (callStops c k cfg.main v)).1 cfg.main := by
  obtain ⟨a, b, c1, d, e, f⟩ := h
  unfold callStops
  cases hsc : c.seccomp with
  | true =>
    rw [hsc] at hc
    simp only [if_true]
    split_ifs
    · exact ⟨hs, ⟨a, b, c1, d, e, f⟩⟩
    · simp only [run, fresh_sys cfg s v hs f hv.1, hc, if_true]
      refine ⟨by simp [firstExecve, hc, hv.2.2], ⟨rfl, b, c1, d, e, f⟩⟩
  | false =>
    rw [hsc] at hc
    simp only [Bool.false_eq_true, if_false, run]
    rw [fresh_sys cfg s { v with result := -38 } hs f hv.1]
    simp only [hc, b, Bool.false_eq_true, if_false, Bool.not_false, Bool.or_true]
    have key := fun (t : State) (ht : t.spawned = false) (hf : t.finished = false) => fresh_sys cfg t v ht hf hv.1
    rw [key _ ?_ ?_]
    · simp only [hc, Bool.false_eq_true, if_false]
      exact ⟨by simp [firstExecve, hc, upd, hv.2.1, hv.2.2], ⟨rfl, by simp [upd], c1, d, e, f⟩⟩
    · simp [firstExecve, hc]
    · exact f

private theorem fresh_calls {C : Type} (cfg : Cfg C) (c : Conf) (k : Kernel C) (hc : cfg.seccomp = c.seccomp) : ∀ (vs : List (View C)) (s : State),
    s.spawned = false → Fresh s cfg.main → (∀ v ∈ vs, v.pre = .ok ∧ v.abi = 1 ∧ v.nr ≠ 59) →
    (run cfg s (vs.flatMap (callStops c k cfg.main))).1.spawned = false ∧ Fresh (run cfg s (vs.flatMap (callStops c k cfg.main))).1 cfg.main := by
  intro vs
  induction vs with
  | nil => intro s hs h _; exact ⟨hs, h⟩
  | cons v vs ih =>
    intro s hs h hv
    rw [List.flatMap_cons, run_app]
    obtain ⟨h1, h2⟩ := fresh_call cfg c k hc v s hs h (hv v List.mem_cons_self)
    exact ih _ h1 h2 (fun v' hv' => hv v' (List.mem_cons_of_mem _ hv'))

/-- The stop with which a traced child begins. -/
private theorem fresh_first {C : Type} (cfg : Cfg C) :
    (step cfg {} (.signal cfg.main SIGSTOP)).1.spawned = false ∧ Fresh (step cfg {} (.signal cfg.main SIGSTOP)).1 cfg.main := by
  refine ⟨rfl, ⟨rfl, ?_, rfl, rfl, rfl, rfl⟩⟩
  simp [step, upd]

/-- Once the tracer has seen the start it judges for good. -/
private theorem spawned_step {C : Type} (cfg : Cfg C) (s : State) (e : Stop C) (h : s.spawned = true) : (step cfg s e).1.spawned = true := by
  cases e <;> simp only [step, sysStep, finish, State.faultAt, State.register] <;> grind

private theorem spawned_run {C : Type} (cfg : Cfg C) : ∀ (es : List (Stop C)) (s : State), s.spawned = true → (run cfg s es).1.spawned = true := by
  intro es
  induction es with
  | nil => intro s h; exact h
  | cons e es ih => intro s h; exact ih _ (spawned_step cfg s e h)

/-- The state when `execve` is called. -/
private theorem seen_exec {C : Type} (cfg : Cfg C) (c : Conf) (k : Kernel C) (hc : cfg.seccomp = c.seccomp) (hp : Plain k)
    (h1 : k.noNewPrivs = true) (h2 : k.traceMe = true) (h3 : c.seccomp = true → k.filter = true) :
    ∃ s, s.spawned = false ∧ Fresh s cfg.main ∧ (run cfg {} (seen c k cfg.main)).1 = (run cfg s (execStops c k cfg.main ++
      if k.exec then [] else k.after.flatMap (callStops c k cfg.main) ++ [.trap cfg.main .exit, .gone cfg.main])).1 := by
  obtain ⟨f1, f2⟩ := fresh_first cfg
  obtain ⟨g1, g2⟩ := fresh_calls cfg c k hc k.before _ f1 f2 hp.before
  refine ⟨_, g1, g2, ?_⟩
  have hb : (c.seccomp && !k.filter) = false := by
    cases hs : c.seccomp
    · rfl
    · simp [h3 hs]
  unfold seen
  simp only [h1, h2, hb, Bool.not_true, Bool.or_self, Bool.false_eq_true, if_false]
  rw [run, List.append_assoc, run_app]

private theorem exec_filtered {C : Type} (cfg : Cfg C) (c : Conf) (k : Kernel C) (hc : cfg.seccomp = c.seccomp) (hs : c.seccomp = true)
    (hw : installed c k 59 = false) (s : State) (h1 : s.spawned = false) (h : Fresh s cfg.main) :
    (run cfg s (execStops c k cfg.main)).1.spawned = true ∧ Fresh (run cfg s (execStops c k cfg.main)).1 cfg.main := by
  obtain ⟨a, b, c1, d, e, f⟩ := h
  have hcs : callStops c k cfg.main ({ nr := 59 } : View C) = [.sys cfg.main { nr := 59 }] := by
    unfold callStops
    rw [hs, if_pos rfl, if_neg]
    rintro ⟨-, h⟩
    rw [show ((59 : Int).toNat) = 59 from rfl, hw] at h
    cases h
  unfold execStops
  rw [hs, if_pos rfl, hcs]
  simp only [run, fresh_sys cfg s ({ nr := 59 } : View C) h1 f rfl, hc, hs, if_true]
  exact ⟨by simp [firstExecve, hc, hs], ⟨rfl, b, c1, d, e, f⟩⟩

private theorem exec_plain {C : Type} (cfg : Cfg C) (c : Conf) (k : Kernel C) (hc : cfg.seccomp = c.seccomp) (hs : c.seccomp = false)
    (he : k.errno ≠ 0) (s : State) (h1 : s.spawned = false) (h : Fresh s cfg.main) :
    (run cfg s (execStops c k cfg.main)).1.spawned = k.exec ∧ Fresh (run cfg s (execStops c k cfg.main)).1 cfg.main := by
  obtain ⟨a, b, c1, d, e, f⟩ := h
  unfold execStops
  rw [hs, if_neg (by simp)]
  simp only [run]
  rw [fresh_sys cfg s _ h1 f rfl]
  have hcf : cfg.seccomp = false := by rw [hc, hs]
  rw [fresh_sys cfg _ _ (by simp [firstExecve, hcf, b]) (by simp [hcf, f])]
  · simp only [hcf, b, Bool.false_eq_true, if_false, Bool.not_false, Bool.or_true]
    refine ⟨?_, ⟨rfl, by simp [upd], c1, d, e, f⟩⟩
    cases k.exec <;> cases k.exec32 <;> simp [firstExecve, hcf, upd, he]
  · cases k.exec <;> cases k.exec32 <;> rfl

/-- **C97**: when the program executes its first instruction the tracer is judging its calls, and goes on doing so whatever happens —
with a filter, provided it does not let `execve` pass. Nothing the child did before counts against the program. -/
theorem C97_judged {C : Type} (cfg : Cfg C) (c : Conf) (k : Kernel C) (w w' : World) (hc : cfg.seccomp = c.seccomp) (hp : Plain k)
    (hw : c.seccomp = true → c.whitelist 59 = false) (h : childRun c k w = .ok w') :
    let s := (run cfg {} (seen c k cfg.main)).1
    (s.faulted = false ∧ s.fault = none ∧ s.finished = false ∧ s.children = [] ∧ s.toggle cfg.main = false ∧ s.first = false) ∧
    ∀ es, (run cfg s es).1.spawned = true := by
  obtain ⟨h1, h2, h3, h4, -⟩ := childRun_ok c k w w' h
  obtain ⟨s, hs, hf, he⟩ := seen_exec cfg c k hc hp h1 h2 h3
  rw [h4, if_pos rfl, List.append_nil] at he
  intro t
  have key : t.spawned = true ∧ Fresh t cfg.main := by
    show (run cfg {} (seen c k cfg.main)).1.spawned = true ∧ Fresh (run cfg {} (seen c k cfg.main)).1 cfg.main
    rw [he]
    cases hsc : c.seccomp with
    | true => exact exec_filtered cfg c k hc hsc (by simp [installed, hw hsc]) s hs hf
    | false =>
      obtain ⟨g1, g2⟩ := exec_plain cfg c k hc hsc hp.errno s hs hf
      exact ⟨by rw [g1, h4], g2⟩
  exact ⟨⟨key.2.faulted, key.2.fault, key.2.finished, key.2.children, key.2.toggle, key.2.first⟩, fun es => spawned_run cfg es _ key.1⟩

/-- **C97**: no executor's policy lets `execve` pass the filter, so this holds for the programs of every language. -/
theorem C97_policies (cmds : List Path.Str) (x : String) (l : List (String × Policy.Handler)) (hx : (x, l) ∈ Policy.executors cmds) :
    Policy.kernelList (Policy.base ++ l) 59 = false := by
  by_contra hc
  have hc : Policy.kernelList (Policy.base ++ l) 59 = true := by simpa using hc
  obtain ⟨name, hm, hd⟩ := Sandbox.filter_allows _ _ hc
  have hn : name = "execve" := by
    have hu := (Syscalls.C51_tables Syscalls.x64Table (by simp [Syscalls.allTables])).1
    exact hu 59 name "execve" hm (by decide +kernel)
  subst hn
  rcases Policy.C63_paths_partial cmds x l hx "execve" none 0 (by decide +kernel) (by decide) (by decide)
    (by
      have hu : ∀ q ∈ Policy.unchecked, q.2 ≠ "execve" := by decide +kernel
      exact fun h => hu _ h rfl) _ hd with ⟨n, h⟩ | ⟨o, h, -⟩ | ⟨o, h, -⟩ | ⟨h, -⟩ <;> cases h

/-- **C97**: a program the tracer did not see starting would not be judged at all: whatever it calls, short of another `execve`, is let
through. -/
theorem C97_unseen {C : Type} (cfg : Cfg C) (c : Conf) (k : Kernel C) (w w' : World) (hc : cfg.seccomp = c.seccomp) (hp : Plain k)
    (hs : c.seccomp = true) (hw : installed c k 59 = true) (h : childRun c k w = .ok w') (es : List (Stop C))
    (hes : ∀ e ∈ es, ∀ p v, e = .sys p v → v.nr ≠ 59 ∧ v.pre ≠ .err) :
    let r := run cfg (run cfg {} (seen c k cfg.main)).1 es
    r.1.spawned = false ∧ r.1.fault = none ∧ ∀ as ∈ r.2, ∀ n, Act.report n ∉ as := by
  obtain ⟨h1, h2, h3, h4, -⟩ := childRun_ok c k w w' h
  obtain ⟨s, hsp, hf, he⟩ := seen_exec cfg c k hc hp h1 h2 h3
  have hx : execStops c k cfg.main = [] := by
    unfold execStops callStops
    rw [hs, if_pos rfl, if_pos rfl, if_pos ⟨by simp, by simpa using hw⟩]
  rw [h4, if_pos rfl, hx] at he
  have hcs : cfg.seccomp = true := by rw [hc, hs]
  intro r
  have key : ∀ (es : List (Stop C)) (s : State), s.spawned = false → s.fault = none →
      (∀ e ∈ es, ∀ p v, e = .sys p v → v.nr ≠ 59 ∧ v.pre ≠ .err) →
      (run cfg s es).1.spawned = false ∧ (run cfg s es).1.fault = none ∧ ∀ as ∈ (run cfg s es).2, ∀ n, Act.report n ∉ as := by
    intro es
    induction es with
    | nil => intro s a b _; exact ⟨a, b, by simp [run]⟩
    | cons e es ih =>
      intro s a b hes
      have one : (step cfg s e).1.spawned = false ∧ (step cfg s e).1.fault = none ∧ ∀ n, Act.report n ∉ (step cfg s e).2 := by
        cases e with
        | sys p v =>
          obtain ⟨hv1, hv2⟩ := hes _ List.mem_cons_self p v rfl
          cases hpre : v.pre <;> simp_all [step, sysStep, firstExecve] <;> split_ifs <;> simp_all
        | gone p => simp only [step]; grind
        | trap p t => cases t <;> simp only [step] <;> grind
        | signal p g => simp only [step]; grind
        | continued p => simp only [step]; grind
      obtain ⟨i1, i2, i3⟩ := ih _ one.1 one.2.1 (fun e he => hes e (List.mem_cons_of_mem _ he))
      refine ⟨i1, i2, fun as ha n => ?_⟩
      rcases List.mem_cons.1 ha with rfl | ha
      · exact one.2.2 n
      · exact i3 as ha n
  show (run cfg (run cfg {} (seen c k cfg.main)).1 es).1.spawned = false ∧ _
  exact key es _ (by rw [he]; exact hsp) (by rw [he]; exact hf.fault) hes

/-! ## What the judge is told -/

/-- **C97**: `wait` raises exactly if the program was never seen to start and the child was not killed; a program that started may
exit with any code. -/
theorem C97_wait (init : Bool) (code : Int) :
    (∀ e, wait init code = .error e → init = false ∧ 0 ≤ code) ∧ (init = false → 0 ≤ code → ∃ e, wait init code = .error e) ∧
    (∀ n, wait init code = .ok n → n = code) := by
  unfold wait
  simp only [NO_NEW_PRIVS, SECCOMP, TRACEME, EXECVE]
  cases init
  · by_cases h1 : code = 202
    · subst h1; simp
    by_cases h2 : code = 203
    · subst h2; simp
    by_cases h3 : code = 204
    · subst h3; simp
    by_cases h4 : code = 205
    · subst h4; simp
    by_cases h5 : 0 ≤ code <;> simp [h1, h2, h3, h4, h5]
  · exact ⟨fun e h => (nomatch h), fun h => (nomatch h), fun n h => by cases h; rfl⟩

/-- The exit code of a child that failed for this reason. -/
theorem C97_code {C : Type} (c : Conf) (k : Kernel C) (w : World) :
    (∀ code, childRun c k w = .error code → ∃ e, Stopped c k e ∧ wait false code = .error e) ∧
    (∀ e, Stopped c k e → ∃ code, childRun c k w = .error code ∧ wait false code = .error e) ∧
    ((∃ w', childRun c k w = .ok w') ↔ ∀ e, ¬ Stopped c k e) := by
  have h1 : ∀ code, childRun c k w = .error code → ∃ e, Stopped c k e ∧ wait false code = .error e := by
    intro code h
    unfold childRun at h
    cases h1 : k.noNewPrivs <;> simp [h1] at h
    · exact ⟨_, .noNewPrivs h1, by subst h; rfl⟩
    cases h2 : k.traceMe <;> simp [h2] at h
    · exact ⟨_, .traceMe h1 h2, by subst h; rfl⟩
    by_cases h3 : c.seccomp = true ∧ k.filter = false
    · rw [if_pos h3] at h
      exact ⟨_, .seccomp h1 h2 h3.1 h3.2, by cases h; rfl⟩
    · rw [if_neg h3] at h
      cases h4 : k.exec <;> simp [h4] at h
      exact ⟨_, .spawn h1 h2 (fun hs => by simpa [hs] using h3) h4, by subst h; rfl⟩
  have h2 : ∀ e, Stopped c k e → ∃ code, childRun c k w = .error code ∧ wait false code = .error e := by
    intro e h
    cases h with
    | noNewPrivs a => exact ⟨202, by simp [childRun, a, NO_NEW_PRIVS], rfl⟩
    | traceMe a b => exact ⟨204, by simp [childRun, a, b, TRACEME], rfl⟩
    | seccomp a b d e => exact ⟨203, by simp [childRun, a, b, d, e, SECCOMP], rfl⟩
    | spawn a b d e =>
      refine ⟨205, ?_, rfl⟩
      cases hs : c.seccomp
      · simp [childRun, a, b, e, hs, EXECVE]
      · simp [childRun, a, b, e, hs, d hs, EXECVE]
  refine ⟨h1, h2, ?_, ?_⟩
  · rintro ⟨w', hw⟩ e he
    obtain ⟨code, hc, -⟩ := h2 e he
    rw [hw] at hc; cases hc
  · intro hn
    cases hr : childRun c k w with
    | ok w' => exact ⟨w', rfl⟩
    | error code =>
      obtain ⟨e, he, -⟩ := h1 code hr
      exact absurd he (hn e)

private theorem gone_end {C : Type} (cfg : Cfg C) (s : State) (h : s.finished = false) :
    (run cfg s [.trap cfg.main .exit, .gone cfg.main]).1.finished = true ∧ (run cfg s [.trap cfg.main .exit, .gone cfg.main]).1.spawned = s.spawned := by
  simp [run, step, h]

/-- **C97**: a start that fails is reported as the failure it is. Missing (see `C97_missing_fails`): a program file that cannot be executed, when
the filter is used. -/
theorem C97_reported_partial {C : Type} (cfg : Cfg C) (c : Conf) (k : Kernel C) (w : World) (hc : cfg.seccomp = c.seccomp) (hp : Plain k)
    (e : Failure) (he : Stopped c k e) (hx : c.seccomp = true → e ≠ .spawn) :
    ∃ code, childRun c k w = .error code ∧ (run cfg {} (seen c k cfg.main)).1.finished = true ∧
      wait (run cfg {} (seen c k cfg.main)).1.spawned code = .error e := by
  obtain ⟨code, h1, h2⟩ := (C97_code c k w).2.1 e he
  refine ⟨code, h1, ?_⟩
  suffices (run cfg {} (seen c k cfg.main)).1.finished = true ∧ (run cfg {} (seen c k cfg.main)).1.spawned = false by
    rw [this.2]; exact ⟨this.1, h2⟩
  obtain ⟨f1, f2⟩ := fresh_first cfg
  cases he with
  | noNewPrivs a => simp [seen, a, run, step]
  | traceMe a b => simp [seen, a, b, run, step]
  | seccomp a b d e =>
    simp only [seen, a, b, d, e, Bool.not_true, Bool.or_self, Bool.false_eq_true, if_false, Bool.not_false, Bool.and_self, if_true]
    obtain ⟨g1, g2⟩ := gone_end cfg _ f2.finished
    rw [run]
    exact ⟨g1, g2.trans f1⟩
  | spawn a b d e =>
    obtain ⟨s, hs, hf, he⟩ := seen_exec cfg c k hc hp a b d
    have hsc : c.seccomp = false := by
      cases h : c.seccomp
      · rfl
      · exact absurd rfl (hx h)
    obtain ⟨g1, g2⟩ := exec_plain cfg c k hc hsc hp.errno s hs hf
    rw [he, e, if_neg (by simp), run_app, run_app]
    obtain ⟨i1, i2⟩ := fresh_calls cfg c k hc k.after _ (g1.trans e) g2 hp.after
    obtain ⟨j1, j2⟩ := gone_end cfg _ i2.finished
    exact ⟨j1, j2.trans i1⟩

/-- **C97 fails** when the program file cannot be executed and the filter is used: the tracer takes the attempt for the start. The judge is told that the
program ran and exited with code 205, which is graded as an invalid return of the submission instead of an error of the judge. -/
theorem C97_missing_fails {C : Type} (cfg : Cfg C) (c : Conf) (k : Kernel C) (w : World) (hc : cfg.seccomp = c.seccomp) (hp : Plain k)
    (hs : c.seccomp = true) (hw : c.whitelist 59 = false) (he : Stopped c k .spawn) :
    childRun c k w = .error 205 ∧ wait (run cfg {} (seen c k cfg.main)).1.spawned 205 = .ok 205 ∧
    ∀ p : Process.Proc, p.returncode = 205 → p.isIr = true := by
  cases he with
  | spawn a b d e =>
    refine ⟨by simp [childRun, a, b, e, hs, d hs, EXECVE], ?_, fun p h => by simp [Process.Proc.isIr, h]⟩
    obtain ⟨s, hsp, hf, hr⟩ := seen_exec cfg c k hc hp a b d
    rw [hr, run_app]
    rw [spawned_run cfg _ _ (exec_filtered cfg c k hc hs (by simp [installed, hw]) s hsp hf).1]
    rfl

/-- **C97**: a program that started is reported with its own exit code, whatever it is — also if it is one of the codes of a failed
start. -/
theorem C97_exit {C : Type} (cfg : Cfg C) (c : Conf) (k : Kernel C) (w w' : World) (hc : cfg.seccomp = c.seccomp) (hp : Plain k)
    (hw : c.seccomp = true → c.whitelist 59 = false) (h : childRun c k w = .ok w') (es : List (Stop C)) (code : Int) :
    wait (run cfg (run cfg {} (seen c k cfg.main)).1 es).1.spawned code = .ok code := by
  rw [(C97_judged cfg c k w w' hc hp hw h).2 es]
  rfl

/-- **C97**: the program gets its arguments as they are — provided they contain no zero byte. -/
theorem C97_arguments_partial (args : List (List UInt8)) (h : ∀ a ∈ args, (0 : UInt8) ∉ a) : argv args = args := by
  unfold argv
  conv => rhs; rw [← List.map_id args]
  refine List.map_congr_left (fun a ha => ?_)
  unfold cString
  have key : ∀ b : List UInt8, (0 : UInt8) ∉ b → b.takeWhile (· ≠ 0) = b := by
    intro b
    induction b with
    | nil => intro _; rfl
    | cons x xs ih =>
      intro hb
      have hx : x ≠ 0 := fun e => hb (e ▸ List.mem_cons_self)
      rw [List.takeWhile_cons_of_pos (by simpa using hx), ih (fun hm => hb (List.mem_cons_of_mem _ hm))]
  exact key a (h a ha)

/-- **C97**: an argument with a zero byte is cut off there. -/
theorem C97_arguments_fails : argv [[102, 0, 103]] = [[102]] := by decide

/-! ## Examples -/

/-- A judge with a limited stack, nothing else limited, and standard streams only. -/
private def judgeWorld : World where
  fds := fun n => if n < 3 then some n else none
  limits := fun r => if r = .stack then (some 8192, some 8192) else (none, none)
  cwd := "/judge".toList
  image := "python".toList

private def conf (seccomp : Bool) (w : Nat → Bool) : Conf where
  seccomp := seccomp
  whitelist := w
  limits := configure { time := 2, memory := 65536, addressGrace := 65536, dataGrace := 0, nproc := 0, fsize := 64 }
  dir := "/tmp/x".toList
  file := "/tmp/x/aplusb".toList

private def kern : Kernel Unit where
  closed := fun n => if n < 3 then some n else none
  before := [{ nr := 160 }, { nr := 80 }, { nr := 160 }]
  after := [{ nr := 1 }, { nr := 231 }]

/-- **C97 fails** when the change of directory fails: the program runs in the directory of the judge. -/
theorem C97_directory_fails : ∃ (c : Conf) (k : Kernel Unit) (w w' : World),
    childRun c k w = .ok w' ∧ Plain k ∧ c.dir ≠ [] ∧ w'.cwd = w.cwd ∧ w'.cwd ≠ c.dir := by
  refine ⟨conf true (fun _ => false), { kern with chdir := false }, judgeWorld, _, rfl, ⟨?_, ?_, by decide⟩, by decide, rfl, ?_⟩
  · simp [kern]
  · simp [kern]
  · decide +kernel

/-- **C97 fails** when the judge's own stack limit is lower: the stack of the program stays limited. -/
theorem C97_stack_fails : ∃ (c : Conf) (k : Kernel Unit) (w w' : World),
    childRun c k w = .ok w' ∧ Plain k ∧ w'.limits .stack = (some 8192, some 8192) := by
  refine ⟨conf true (fun _ => false), kern, judgeWorld, _, rfl, ⟨by simp [kern], by simp [kern], by decide⟩, ?_⟩
  decide +kernel

/-- The hypotheses of `C97_confined`, `C97_judged` and `C97_exit` are met. -/
example : ∃ w', childRun (conf true (fun n => n == 1)) kern judgeWorld = .ok w' ∧ Ordered judgeWorld.limits ∧ Plain kern ∧
    (conf true (fun n => n == 1)).whitelist 59 = false ∧ (w'.limits .as).1 = some 134217728 ∧ (w'.limits .cpu) = (some 7, some 8) := by
  refine ⟨_, rfl, ?_, ⟨by simp [kern], by simp [kern], by decide⟩, rfl, by decide +kernel, by decide +kernel⟩
  intro r b hb
  cases r <;> simp [judgeWorld] at hb ⊢ <;> exact hb ▸ Nat.le_refl _

/-- Those of `C97_reported_partial` and `C97_missing_fails`. -/
example : Stopped (conf false (fun _ => false)) { kern with exec := false } .spawn ∧
    Stopped (conf true (fun _ => false)) { kern with exec := false } .spawn ∧ Stopped (conf true (fun _ => false)) { kern with filter := false } .seccomp :=
  ⟨.spawn rfl rfl (fun h => nomatch h) rfl, .spawn rfl rfl (fun _ => rfl) rfl, .seccomp rfl rfl rfl rfl⟩

/-- That of `C97_unseen`. -/
example : installed (conf true (fun n => n == 59)) kern 59 = true := by decide

end Verif.Props.Start
