import Verif.Basic

/-!
# Which system call a stop is about: dmoj/cptbox/ptdebug_x64.cpp (x86-64 host)

ABI numbers as in ptbox.h:56-65: 0 x86, 1 x64, 2 x32.
-/

namespace Verif.Abi

/-- What `PTRACE_GETREGSET` returned, ptdebug_x64.h: the size tells which half of the union is valid.
(ptdebug_x64.h:7-28) -/
inductive Regs where
  | small (orig_eax : BitVec 32)
  | large (orig_rax : BitVec 64)
deriving DecidableEq, Repr

/-- `__X32_SYSCALL_BIT`, extended to the width of the register. (ptdebug_x64.cpp:43-75) -/
def x32bit : BitVec 64 := 0x40000000#64

/-- `abi_from_reg_size`, ptdebug_x64.cpp:27-35. -/
def abi : Regs → Nat
  | .small _ => 0
  | .large r => if r &&& x32bit ≠ 0 then 2 else 1

/-- `syscall()`, ptdebug_x64.cpp:43-56: the result is an `int`. -/
def number : Regs → Int
  | .small e => e.toInt
  | .large r => if r &&& x32bit ≠ 0 then ((r &&& ~~~x32bit).setWidth 32).toInt else (r.setWidth 32).toInt

/-- `syscall(int)`, ptdebug_x64.cpp:58-75: `id` is an `int`, sign-extended into the register. -/
def setNumber (r : Regs) (id : BitVec 32) : Regs :=
  match r with
  | .small _ => .small id
  | .large _ => if abi r = 2 then .large (id.signExtend 64 ||| x32bit) else .large (id.signExtend 64)

end Verif.Abi
