import Verif.Model.Monitor

/-!
# What the kernel reports, and what a policy decision means

Ground truth about the stops of traced threads (ptrace(2), "Syscall-stops"): a thread is new, runs user
code, or is inside a system call. `Ev` is a stop with its true kind; the tracer only sees `Ev.seen`.
-/

namespace Verif.Monitor.Spec
open Verif.Monitor Verif.Isolate

/-- Where a thread is. -/
inductive Phase where
  | fresh
  | user
  | inCall
deriving DecidableEq, Repr

/-- A stop, with its true kind. `inside` is a `PTRACE_EVENT_CLONE/FORK/VFORK` stop, which the kernel
delivers in the middle of the system call. -/
inductive Ev (C : Type) where
  | enter (pid : Nat) (v : View C)
  | leave (pid : Nat) (v : View C)
  | inside (pid : Nat) (t : Trap)
  | trap (pid : Nat) (t : Trap)
  | signal (pid sig : Nat)
  | gone (pid : Nat)
  | continued (pid : Nat)

/-- What `wait4` and the registers tell the tracer. -/
def Ev.seen {C : Type} : Ev C → Stop C
  | .enter p v | .leave p v => .sys p v
  | .inside p t | .trap p t => .trap p t
  | .signal p n => .signal p n
  | .gone p => .gone p
  | .continued p => .continued p

abbrev Phases := Nat → Phase

def setPh (ph : Phases) (p : Nat) (x : Phase) : Phases := fun q => if q = p then x else ph q

/-- Which stops the kernel can deliver next without seccomp filtering, and the phases afterwards. A new
thread first reports its initial SIGSTOP. -/
inductive Kernel {C : Type} : Phases → Ev C → Phases → Prop where
  | enter (ph p v) : ph p = .user → Kernel ph (.enter p v) (setPh ph p .inCall)
  | leave (ph p v) : ph p = .inCall → Kernel ph (.leave p v) (setPh ph p .user)
  | inside (ph p t) : ph p = .inCall → Kernel ph (.inside p t) ph
  | exit (ph p) : ph p ≠ .fresh → Kernel ph (.trap p .exit) (setPh ph p .fresh)
  | signal (ph p n) : ph p ≠ .inCall → Kernel ph (.signal p n) (setPh ph p .user)
  | trap (ph p) : ph p ≠ .inCall → Kernel ph (.trap p .plain) (setPh ph p .user)
  | gone (ph p) : Kernel ph (.gone p) (setPh ph p .fresh)
  | continued (ph p) : Kernel ph (.continued p) ph

/-- A history of kernel stops with the tracer's reaction: (state, phases) after it. -/
inductive Reach {C : Type} (cfg : Cfg C) : List (Ev C) → State → Phases → Prop where
  | nil : Reach cfg [] {} (fun _ => .fresh)
  | snoc {tr s ph ph'} (e : Ev C) : Reach cfg tr s ph → Kernel ph e ph' →
      Reach cfg (tr ++ [e]) (step cfg s e.seen).1 ph'

/-- No clone, fork or vfork happened. -/
def NoClone {C : Type} (tr : List (Ev C)) : Prop := ∀ (p : Nat) (t : Trap), Ev.inside p t ∉ tr

/-- Under seccomp filtering the only syscall stops are at entry. -/
inductive Reach' {C : Type} (cfg : Cfg C) : List (Stop C) → State → Prop where
  | nil : Reach' cfg [] {}
  | snoc {tr s} (e : Stop C) : Reach' cfg tr s → Reach' cfg (tr ++ [e]) (step cfg s e).1

/-- The policy lets the call through: allowed outright, or its handler says so, or it is restricted to
the standard output streams and uses one of them. -/
def Permits {C : Type} (cfg : Cfg C) (v : View C) : Prop :=
  let d := Syscalls.decideCall cfg.isArm (cfg.tables v.abi) v.nr
  d = .allow ∨ (d = .stdouterr ∧ (v.arg0 = 1 ∨ v.arg0 = 2)) ∨ ∃ c, d = .ask c ∧ v.run c = .exec

/-- The policy has the call skipped with an error. -/
def Refuses {C : Type} (cfg : Cfg C) (v : View C) (e : Nat) : Prop :=
  ∃ c, Syscalls.decideCall cfg.isArm (cfg.tables v.abi) v.nr = .ask c ∧ v.run c = .refuse e

/-- The policy forbids the call. -/
def Forbids {C : Type} (cfg : Cfg C) (v : View C) : Prop :=
  ¬ Permits cfg v ∧ ∀ e, ¬ Refuses cfg v e

/-- The thread is not restarted by these actions. -/
def Held (acts : List Act) (pid : Nat) : Prop := ∀ a ∈ acts, ∀ n r g, a ≠ Act.resume pid n r g

/-- The call is not subject to the "standard output streams only" rule (no policy in the repository
uses it). -/
def NotStd {C : Type} (cfg : Cfg C) (v : View C) : Prop :=
  Syscalls.decideCall cfg.isArm (cfg.tables v.abi) v.nr ≠ .stdouterr

end Verif.Monitor.Spec
