import Verif.Model.Memory

/-! # Memory accounting: the kernel's side -/

namespace Verif.Memory
open Verif.Monitor

/-- The name of the field in which the kernel shows the peak of memory. -/
def hwm : Bytes := ['V', 'm', 'H', 'W', 'M', ':'].map fun c => UInt8.ofNat c.toNat

/-- A line of a status file (without its newline) that is not the field looked for. Long lines are split, so a line of more than 126 bytes is
required to have no `V` in it; the kernel's long lines are lists of numbers. -/
def Other (line : Bytes) : Prop := 10 ∉ line ∧ ¬ hwm <+: line ∧ (line.length ≤ 126 ∨ 86 ∉ line)

/-- Lines, each with its newline. -/
def lines : List Bytes → Bytes
  | [] => []
  | l :: r => l ++ 10 :: lines r

/-- A number in decimal. -/
def decimal (n : Nat) : Bytes := (Nat.toDigits 10 n).map fun c => UInt8.ofNat c.toNat

/-- `VmHWM:\t%8lu kB\n` -/
def peakLine (pad n : Nat) : Bytes := hwm ++ 9 :: (List.replicate pad 32 ++ decimal n) ++ [32, 107, 66, 10]

/-- A status file of a process with memory, whose peak is `n` kilobytes. -/
def Shows (status : Option Bytes) (n : Nat) : Prop :=
  ∃ before pad rest, (∀ l ∈ before, Other l) ∧ pad ≤ 8 ∧ n < 2 ^ 64 ∧ status = some (lines before ++ peakLine pad n ++ rest)

/-- A status file of a process that has given up its memory: there is no such field; or there is no file. -/
def Empty (status : Option Bytes) : Prop := status = none ∨ ∃ ls, (∀ l ∈ ls, Other l) ∧ status = some (lines ls)

/-- What the kernel shows at an event. -/
def Event.status {C : Type} : Event C → Option Bytes
  | .stop _ s _ => s
  | .ask s => s

/-- Every status file is of one of the two kinds. -/
def Proper {C : Type} (l : List (Event C)) : Prop := ∀ e ∈ l, Empty e.status ∨ ∃ n, Shows e.status n

/-- The main thread stops on its way out. -/
def Leaving {C : Type} (cfg : Cfg C) (n : Nat) : Event C → Prop
  | .stop (.trap p .exit) s _ => p = cfg.main ∧ Shows s n
  | _ => False

/-- The beginning of a trace: the child stops itself, and the main thread is not gone yet. -/
def Begun {C : Type} (cfg : Cfg C) : List (Event C) → Prop
  | .stop (.signal p _) _ _ :: l => p = cfg.main ∧ ∀ s r, Event.stop (.gone cfg.main) s r ∉ l
  | _ => False

/-- A run of the program after `execve`, with its true peak of memory at every event: the kernel shows it until the main thread leaves, then
nothing; it never decreases. -/
structure Kernel {C : Type} (cfg : Cfg C) (during : List (Event C × Nat)) (leave : Event C) (n : Nat) (later : List (Event C × Nat)) : Prop where
  shown : ∀ x ∈ during, Shows x.1.status x.2
  leaving : Leaving cfg n leave
  hidden : ∀ x ∈ later, Empty x.1.status
  grows : (during.map (·.2) ++ n :: later.map (·.2)).Pairwise (· ≤ ·)
  present : ∀ s r, Event.stop (.gone cfg.main) s r ∉ during.map (·.1)

/-- The peak of the program. -/
def peak (n : Nat) (later : List (Nat)) : Nat := later.getLast?.getD n

end Verif.Memory
