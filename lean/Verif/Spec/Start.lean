import Verif.Model.Start
import Verif.Spec.Child

/-!
# Specification: what surrounds a started program, and why a start fails
-/

namespace Verif.Start.Spec
open Verif.Child Verif.Child.Spec Verif.Monitor Verif.Start

/-- The soft limit is at most `soft`, the hard one at most `hard`. -/
def AtMost (l : Option Nat × Option Nat) (soft hard : Nat) : Prop :=
  (∃ a, l.1 = some a ∧ a ≤ soft) ∧ ∃ b, l.2 = some b ∧ b ≤ hard

/-- The program can gain no privileges, is traced, filtered if that was asked for, has no other open descriptors than the three
standard streams, and is limited as asked for. -/
structure Confined (c : Conf) (w : World) : Prop where
  privileges : w.noNewPrivs = true
  traced : w.traced = true
  filtered : c.seccomp = true → ∃ f, w.filter = some f ∧ ∀ n, f n = true → n < 568 ∧ c.whitelist n = true
  descriptors : ∀ n, 3 ≤ n → w.fds n = none
  address : c.limits.address ≠ 0 → AtMost (w.limits .as) c.limits.address c.limits.address
  data : c.limits.data ≠ 0 → AtMost (w.limits .data) c.limits.data c.limits.data
  cpu : c.limits.cpu ≠ 0 → AtMost (w.limits .cpu) c.limits.cpu (c.limits.cpu + 1)
  nproc : ∀ n : Nat, c.limits.nproc = n → AtMost (w.limits .nproc) n n
  fsize : ∀ n : Nat, c.limits.fsize = n → AtMost (w.limits .fsize) n n
  core : AtMost (w.limits .core) 0 0

/-- No soft limit is above its hard limit. -/
def Ordered (l : Limits) : Prop := ∀ r b, (l r).2 = some b → ∃ a, (l r).1 = some a ∧ a ≤ b

/-- The first thing that goes wrong. -/
inductive Stopped {C : Type} (c : Conf) (k : Kernel C) : Failure → Prop where
  | noNewPrivs : k.noNewPrivs = false → Stopped c k .noNewPrivs
  | traceMe : k.noNewPrivs = true → k.traceMe = false → Stopped c k .traceMe
  | seccomp : k.noNewPrivs = true → k.traceMe = true → c.seccomp = true → k.filter = false → Stopped c k .seccomp
  | spawn : k.noNewPrivs = true → k.traceMe = true → (c.seccomp = true → k.filter = true) → k.exec = false → Stopped c k .spawn

/-- The calls of the child besides `execve` are those of a 64-bit process; the tracer can read its registers. -/
structure Plain {C : Type} (k : Kernel C) : Prop where
  before : ∀ v ∈ k.before, v.pre = .ok ∧ v.abi = 1 ∧ v.nr ≠ 59
  after : ∀ v ∈ k.after, v.pre = .ok ∧ v.abi = 1 ∧ v.nr ≠ 59
  errno : k.errno ≠ 0

end Verif.Start.Spec
