import Verif.Model.Arch
/-!
Specification of C75: how a program makes a system call on each machine (syscall(2), "Architecture calling conventions"), and
where the kernel keeps the registers of a stopped thread.
-/

namespace Verif.Arch

/-- How a thread runs. -/
inductive Mode
  | i386 | amd64 | arm | arm64
deriving DecidableEq, Repr

def Mode.width : Mode → Nat
  | .i386 | .arm => 32
  | .amd64 | .arm64 => 64

/-- The kinds of threads a machine runs. -/
inductive Runs : Host → Mode → Prop
  | x64 : Runs .x64 .amd64
  | x64c : Runs .x64 .i386
  | x86 : Runs .x86 .i386
  | arm : Runs .arm .arm
  | arm64 : Runs .arm64 .arm64
  | arm64c : Runs .arm64 .arm

/-- Registers as they are called in the manuals. `orig` is the number of the call on x86, the first argument on ARM. -/
inductive Reg
  | ax | bx | cx | dx | si | di | bp | sp | r8 | r9 | r10 | r11 | r12 | r13 | r14 | r15 | ip | flags | cs | ss | ds | es | fs | gs
  | fsBase | gsBase | orig
  | r (n : Nat) | pc | lr | cpsr
deriving DecidableEq, Repr

/-- The order in which the kernel hands out the registers. -/
def order : Mode → List Reg
  | .i386 => [.bx, .cx, .dx, .si, .di, .bp, .ax, .ds, .es, .fs, .gs, .orig, .ip, .cs, .flags, .sp, .ss]
  | .amd64 => [.r15, .r14, .r13, .r12, .bp, .bx, .r11, .r10, .r9, .r8, .ax, .cx, .dx, .si, .di, .orig, .ip, .cs, .flags, .sp, .ss,
      .fsBase, .gsBase, .ds, .es, .fs, .gs]
  | .arm => [.r 0, .r 1, .r 2, .r 3, .r 4, .r 5, .r 6, .r 7, .r 8, .r 9, .r 10, .r 11, .r 12, .sp, .lr, .pc, .cpsr, .orig]
  | .arm64 => [.r 0, .r 1, .r 2, .r 3, .r 4, .r 5, .r 6, .r 7, .r 8, .r 9, .r 10, .r 11, .r 12, .r 13, .r 14, .r 15, .r 16, .r 17,
      .r 18, .r 19, .r 20, .r 21, .r 22, .r 23, .r 24, .r 25, .r 26, .r 27, .r 28, .r 29, .lr, .sp, .pc, .cpsr]

/-- Where the arguments of a call are. -/
def argument : Mode → List Reg
  | .i386 => [.bx, .cx, .dx, .si, .di, .bp]
  | .amd64 => [.di, .si, .dx, .r10, .r8, .r9]
  | .arm => [.r 0, .r 1, .r 2, .r 3, .r 4, .r 5]
  | .arm64 => [.r 0, .r 1, .r 2, .r 3, .r 4, .r 5]

/-- Where its result is. -/
def returned : Mode → Reg
  | .i386 => .ax
  | .amd64 => .ax
  | .arm => .r 0
  | .arm64 => .r 0

/-- Where its number is, when the thread has been stopped. -/
def numbered : Mode → Reg
  | .i386 => .orig
  | .amd64 => .orig
  | .arm => .r 7
  | .arm64 => .r 8

/-- The registers of a thread. -/
abbrev Saved (m : Mode) := Reg → BitVec m.width

/-- What the kernel hands out for them. -/
def handed : (m : Mode) → Saved m → Regset
  | .i386, s => .w32 ((order .i386).map s)
  | .amd64, s => .w64 ((order .amd64).map s)
  | .arm, s => .w32 ((order .arm).map s)
  | .arm64, s => .w64 ((order .arm64).map s)

/-- At a stop on ARM the first argument has been saved. -/
def Stopped (m : Mode) (s : Saved m) : Prop := m = .arm → s .orig = s (.r 0)

/-- The ABI of a call: on x86-64 it depends on a bit of its number. -/
def abiOf : (m : Mode) → Saved m → Abi
  | .i386, _ => .x86
  | .amd64, s => if (s .orig).getLsbD 30 = true then .x32 else .x64
  | .arm, _ => .arm
  | .arm64, _ => .arm64

/-- The kernel skips a call with the number -1: as it stands in the register on x86, set apart on ARM. -/
def Skips : (m : Mode) → Saved m → Int → Prop
  | .i386, s, _ => s .orig = -1
  | .amd64, s, _ => (s .orig).setWidth 32 = -1
  | .arm, _, nr => nr = -1
  | .arm64, _, nr => nr = -1

/-- Nothing else is changed. -/
def Else (m : Mode) (s s' : Saved m) (except : List Reg) : Prop := ∀ r ∈ order m, r ∉ except → s' r = s r

/-- `long` of the machine. -/
def IsLong (h : Host) (v : Int) : Prop :=
  match h with
  | .x64 | .arm64 => -2 ^ 63 ≤ v ∧ v < 2 ^ 63
  | .x86 | .arm => -2 ^ 31 ≤ v ∧ v < 2 ^ 31

/-- The value stands for that word: they agree in the bits of the word. -/
def Stands {w : Nat} (v : Int) (x : BitVec w) : Prop := BitVec.ofInt w v = x

/-- The mode in which the launching code itself runs. -/
def native : Host → Mode
  | .x64 => .amd64
  | .x86 => .i386
  | .arm => .arm
  | .arm64 => .arm64

/-- The number of `execve`. -/
def execve : Host → Int
  | .x64 => 59
  | .x86 => 11
  | .arm => 11
  | .arm64 => 221

end Verif.Arch
