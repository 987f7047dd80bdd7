import Verif.Model.Abi

/-!
# How the kernel picks a system call (x86-64 Linux)

arch/x86/entry: the `syscall` instruction in 64-bit code uses the 64-bit table, or the x32 table for
numbers from 2^30; `int 0x80` — from any code — and the 32-bit entries use the 32-bit table. The number
is the low half of the register. `ptrace` returns the large register set exactly for 64-bit code.
-/

namespace Verif.Abi.Spec
open Verif.Abi

/-- How the program enters the kernel. -/
inductive Entry where
  | syscall64
  | int80
  | compat
deriving DecidableEq, Repr

/-- The 32-bit fast entries are only available to 32-bit code, the 64-bit one only to 64-bit code. -/
def Possible (code64 : Bool) : Entry → Prop
  | .syscall64 => code64 = true
  | .int80 => True
  | .compat => code64 = false

/-- Sizes of the kernel's tables (any values below 2^30). -/
structure Sizes where
  x86 : Nat
  x64 : Nat
  x32 : Nat
  small : x86 < 2 ^ 30 ∧ x64 < 2 ^ 30 ∧ x32 < 2 ^ 30

/-- The (table, number) the kernel runs for an entry with register value `rax`; `none`: no such call. -/
def dispatch (z : Sizes) (entry : Entry) (rax : BitVec 64) : Option (Nat × Nat) :=
  let n := (rax.setWidth 32).toNat
  match entry with
  | .syscall64 =>
    if n < z.x64 then some (1, n)
    else if 2 ^ 30 ≤ n ∧ n - 2 ^ 30 < z.x32 then some (2, n - 2 ^ 30) else none
  | .int80 | .compat => if n < z.x86 then some (0, n) else none

/-- What the tracer gets to see. -/
def seen (code64 : Bool) (rax : BitVec 64) : Regs := if code64 then .large rax else .small (rax.setWidth 32)

end Verif.Abi.Spec
