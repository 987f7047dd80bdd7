import Verif.Model.Monitor
import Verif.Model.Policy
import Verif.Spec.Policy
import Verif.Spec.Abi
import Verif.Spec.Monitor

/-!
# Specification: what the kernel executes for a sandboxed program (x86-64, seccomp filtering)

The filter is the one of dmoj/cptbox/helper.cpp:76-107: the listed numbers of the native ABI pass, libseccomp adds the
numbers of the same calls in the other ABIs (`lib`), all else stops for the tracer.
-/

namespace Verif.Sandbox
open Verif.Monitor Verif.Policy Verif.Abi Verif.Abi.Spec

/-- The configuration of the tracer for a policy. The ABI numbers of the host are the table indices (tracer.py:24-26). -/
def config (p : List (String × Handler)) (main : Nat) : Cfg Handler :=
  { seccomp := true, tables := fun a => table p a, noop := fun _ => 0, main := main }

/-- A thread enters the kernel: how, with which number, and what a handler would find. -/
structure Attempt where
  pid : Nat
  code64 : Bool
  entry : Abi.Spec.Entry
  rax : BitVec 64
  stop : Isolate.Stop
  pre : Pre := .ok
  post : Bool := true

/-- What the tracer sees of it. -/
def Attempt.view (a : Attempt) : View Handler where
  pre := a.pre
  abi := abi (seen a.code64 a.rax)
  nr := number (seen a.code64 a.rax)
  arg0 := (a.stop.regs 0).toInt
  run := fun h => h.run a.stop
  post := a.post

/-- The filter lets the call (ABI, number) pass. -/
def Filter (w : Nat → Bool) (lib : Nat → Nat → Option Nat) (c : Nat × Nat) : Prop :=
  if c.1 = 1 then w c.2 = true else ∃ m, w m = true ∧ lib m c.1 = some c.2

/-- libseccomp identifies calls by name. -/
def ByName (lib : Nat → Nat → Option Nat) : Prop :=
  ∀ m a n, lib m a = some n → a ≠ 1 → ∀ name, (m, name) ∈ Syscalls.x64Table →
    ∃ rows name', Syscalls.allTables[a]? = some rows ∧ (n, name') ∈ rows ∧ Syscalls.SameCall Syscalls.aliasFile name name'

/-- The register after the tracer wrote a number. -/
def written (a : Attempt) (n : Int) : BitVec 64 :=
  match setNumber (seen a.code64 a.rax) (BitVec.ofInt 32 n) with
  | .small e => e.setWidth 64
  | .large r => r

/-- What a handler finds belongs to this attempt: strings are read at 32-bit addresses for the two 32-bit ABIs
(dmoj/cptbox/_cptbox.pyx, `readstr`). -/
def Faithful (a : Attempt) : Prop := a.stop.is32 = (abi (seen a.code64 a.rax) != 1)

/-- Where the kernel takes a pointer argument from: the 32-bit calls use half the register, all 64-bit handlers — to
which the x32 table refers for numbers below 512 — all of it. -/
def pointer (c : Nat) (r : BitVec 64) : Nat := if c = 0 then r.toNat % 2 ^ 32 else r.toNat

/-- The kernel executes the call `c`: it passes the filter, or the thread is restarted with its registers unchanged, or
with another number. -/
def Executes (z : Sizes) (p : List (String × Handler)) (lib : Nat → Nat → Option Nat) (main : Nat) (s : State) (a : Attempt)
    (c : Nat × Nat) : Prop :=
  (dispatch z a.entry a.rax = some c ∧ Filter (kernelList p) lib c) ∨
  (∃ r g, Act.resume a.pid none r g ∈ (step (config p main) s (.sys a.pid a.view)).2 ∧ dispatch z a.entry a.rax = some c) ∨
  ∃ m r g, Act.resume a.pid (some m) r g ∈ (step (config p main) s (.sys a.pid a.view)).2 ∧ dispatch z a.entry (written a m) = some c

end Verif.Sandbox
