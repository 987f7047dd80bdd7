/-!
The registers of a stopped thread on the four machines cptbox can be built for under Linux: dmoj/cptbox/ptdebug_x64.cpp,
ptdebug_x86.cpp, ptdebug_arm.cpp, ptdebug_arm64.cpp with their headers, `pre_syscall` and `post_syscall` of ptdebug.cpp:61-111,
and what refusing a call writes (dmoj/cptbox/handlers.py:9-18, _cptbox.pyx:229-250).

The part about the number of a call on x86-64 is in Abi.lean; here are the arguments, the result, and the other machines.
-/

namespace Verif.Arch

/-- The machine cptbox is compiled for.
(ptdebug_x64.cpp:1, ptdebug_x86.cpp:1, ptdebug_arm.cpp:1, ptdebug_arm64.cpp:1) -/
inductive Host
  | x64 | x86 | arm | arm64
deriving DecidableEq, Repr

/-- `PTBOX_ABI_*`, ptbox.h:56-65. -/
inductive Abi
  | x86 | x64 | x32 | arm | arm64
deriving DecidableEq, Repr

/-- What `PTRACE_GETREGSET` fills `regs` with: the words of a 32-bit or of a 64-bit thread. The number of bytes is returned in
`iov_len`. (ptdebug.cpp:68-82) -/
inductive Regset
  | w32 (l : List (BitVec 32))
  | w64 (l : List (BitVec 64))
deriving DecidableEq, Repr

/-- ptdebug.cpp:68-82. -/
def Regset.size : Regset → Nat
  | .w32 l => 4 * l.length
  | .w64 l => 8 * l.length

/-- The members of `regs.x86`, ptdebug_x64.h:7-28. -/
def structX86 : List String :=
  ["ebx", "ecx", "edx", "esi", "edi", "ebp", "eax", "xds", "xes", "xfs", "xgs", "orig_eax", "eip", "xcs", "eflags", "esp", "xss"]

/-- The members of `regs.arm32`, ptdebug_arm64.h:8-27. -/
def structArm32 : List String :=
  ["r0", "r1", "r2", "r3", "r4", "r5", "r6", "r7", "r8", "r9", "r10", "fp", "ip", "sp", "lr", "pc", "cpsr", "orig_r0"]

/-- `struct user_regs_struct` of <sys/user.h> on x86-64. -/
def userX64 : List String :=
  ["r15", "r14", "r13", "r12", "rbp", "rbx", "r11", "r10", "r9", "r8", "rax", "rcx", "rdx", "rsi", "rdi", "orig_rax", "rip", "cs",
   "eflags", "rsp", "ss", "fs_base", "gs_base", "ds", "es", "fs", "gs"]

/-- `struct user_regs_struct` of <sys/user.h> on x86. (ptdebug_x86.h:1-9) -/
def userX86 : List String :=
  ["ebx", "ecx", "edx", "esi", "edi", "ebp", "eax", "xds", "xes", "xfs", "xgs", "orig_eax", "eip", "xcs", "eflags", "esp", "xss"]

/-- `struct pt_regs` of <asm/ptrace.h> on ARM. (ptdebug_arm.h:1-14) -/
def userArm : List String :=
  ["ARM_r0", "ARM_r1", "ARM_r2", "ARM_r3", "ARM_r4", "ARM_r5", "ARM_r6", "ARM_r7", "ARM_r8", "ARM_r9", "ARM_r10", "ARM_fp", "ARM_ip",
   "ARM_sp", "ARM_lr", "ARM_pc", "ARM_cpsr", "ARM_ORIG_r0"]

/-- `struct user_pt_regs` of <asm/ptrace.h> on ARM64. (ptdebug_arm64.h:7-28) -/
def userArm64 : List String :=
  ["regs[0]", "regs[1]", "regs[2]", "regs[3]", "regs[4]", "regs[5]", "regs[6]", "regs[7]", "regs[8]", "regs[9]", "regs[10]",
   "regs[11]", "regs[12]", "regs[13]", "regs[14]", "regs[15]", "regs[16]", "regs[17]", "regs[18]", "regs[19]", "regs[20]",
   "regs[21]", "regs[22]", "regs[23]", "regs[24]", "regs[25]", "regs[26]", "regs[27]", "regs[28]", "regs[29]", "regs[30]",
   "sp", "pc", "pstate"]

/-- The structure an accessor uses for an ABI. (ptdebug_x64.cpp:79-107, ptdebug_arm64.cpp:64-92) -/
def layout : Host → Abi → Option (List String)
  | .x64, .x86 => some structX86
  | .x64, .x64 => some userX64
  | .x64, .x32 => some userX64
  | .x86, .x86 => some userX86
  | .arm, .arm => some userArm
  | .arm64, .arm => some structArm32
  | .arm64, .arm64 => some userArm64
  | _, _ => none

/-- `supports_abi` (ptdebug_x64.cpp:13-22, ptdebug_x86.cpp:12-14, ptdebug_arm.cpp:12-14, ptdebug_arm64.cpp:15-22) -/
def supports : Host → Abi → Bool
  | .x64, .x86 | .x64, .x64 | .x64, .x32 => true
  | .x86, .x86 => true
  | .arm, .arm => true
  | .arm64, .arm | .arm64, .arm64 => true
  | _, _ => false

/-- A member of the structure, for a wide thread. (ptdebug_x64.cpp:79-107, ptdebug_arm64.cpp:64-92) -/
def word64 (names : List String) (n : String) : Regset → Option (BitVec 64)
  | .w64 l => l[names.idxOf n]?
  | .w32 _ => none

/-- `abi_from_reg_size`: ptdebug_x64.cpp:27-35, ptdebug_x86.cpp:20-22, ptdebug_arm.cpp:20-22, ptdebug_arm64.cpp:28-30. -/
def detect (h : Host) (r : Regset) : Abi :=
  match h with
  | .x64 =>
    if r.size = 4 * structX86.length then .x86
    else if (word64 userX64 "orig_rax" r).getD 0 &&& 0x40000000#64 ≠ 0 then .x32 else .x64
  | .x86 => .x86
  | .arm => .arm
  | .arm64 => if r.size = 4 * structArm32.length then .arm else .arm64

/-- The width of `long`. (ptdebug_x64.cpp:79-107, ptdebug_arm64.cpp:64-92) -/
def wide : Host → Bool
  | .x64 | .arm64 => true
  | .x86 | .arm => false

/-- A member of the structure as a `long`: `uint32_t` is extended with zeroes on a 64-bit host, on a 32-bit one the registers are
`long` themselves. (`uarg` and `arg` of _cptbox.pyx only differ in how Python takes the value.)
(ptdebug_x64.cpp:79-107, ptdebug_arm64.cpp:64-92) -/
def get (h : Host) (a : Abi) (r : Regset) (n : String) : Option Int :=
  match layout h a with
  | none => none
  | some names =>
    match r with
    | .w32 l => l[names.idxOf n]?.map fun v => if wide h then (v.toNat : Int) else v.toInt
    | .w64 l => l[names.idxOf n]?.map fun v => v.toInt

/-- Assignment of a `long` to a member. (ptdebug_x64.cpp:79-107, ptdebug_arm64.cpp:64-92) -/
def put (h : Host) (a : Abi) (r : Regset) (n : String) (v : Int) : Option Regset :=
  match layout h a with
  | none => none
  | some names =>
    match r with
    | .w32 l => some (.w32 (l.set (names.idxOf n) (BitVec.ofInt 32 v)))
    | .w64 l => some (.w64 (l.set (names.idxOf n) (BitVec.ofInt 64 v)))

/-- The `MAKE_ACCESSOR(arg…)` lines: ptdebug_x64.cpp:110-115, ptdebug_x86.cpp:79-90, ptdebug_arm.cpp:75-80,
ptdebug_arm64.cpp:95-100. `none`: `arg5` of x86, which is always zero. -/
def argName : Host → Abi → Nat → Option String
  | .x64, .x86, k => ["ebx", "ecx", "edx", "esi", "edi", "ebp"][k]?
  | .x64, _, k => ["rdi", "rsi", "rdx", "r10", "r8", "r9"][k]?
  | .x86, _, k => ["ebx", "ecx", "edx", "esi", "edi"][k]?
  | .arm, _, k => ["ARM_ORIG_r0", "ARM_r1", "ARM_r2", "ARM_r3", "ARM_r4", "ARM_r5"][k]?
  | .arm64, .arm, k => ["r0", "r1", "r2", "r3", "r4", "r5"][k]?
  | .arm64, _, k => ["regs[0]", "regs[1]", "regs[2]", "regs[3]", "regs[4]", "regs[5]"][k]?

/-- `arg0()` to `arg5()`. (ptdebug_x64.cpp:79-107, ptdebug_arm64.cpp:64-92) -/
def arg (h : Host) (a : Abi) (r : Regset) (k : Nat) : Option Int :=
  match argName h a k with
  | some n => get h a r n
  | none => some 0

/-- `MAKE_ACCESSOR(result, …)`: ptdebug_x64.cpp:109, ptdebug_x86.cpp:78, ptdebug_arm.cpp:74, ptdebug_arm64.cpp:94. -/
def resultName : Host → Abi → String
  | .x64, .x86 => "eax"
  | .x64, _ => "rax"
  | .x86, _ => "eax"
  | .arm, _ => "ARM_r0"
  | .arm64, .arm => "r7"
  | .arm64, _ => "regs[8]"

/-- The register with the number of the call.
(ptdebug_x64.cpp:43-75, ptdebug_x86.cpp:30-52, ptdebug_arm.cpp:30-48, ptdebug_arm64.cpp:38-62) -/
def numberName : Host → Abi → String
  | .x64, .x86 => "orig_eax"
  | .x64, _ => "orig_rax"
  | .x86, _ => "orig_eax"
  | .arm, _ => "ARM_r7"
  | .arm64, .arm => "r7"
  | .arm64, _ => "regs[8]"

/-- `syscall()`: an `int`; without the bit for x32.
(ptdebug_x64.cpp:43-75, ptdebug_x86.cpp:30-52, ptdebug_arm.cpp:30-48, ptdebug_arm64.cpp:38-62) -/
def syscall (h : Host) (a : Abi) (r : Regset) : Option Int :=
  match layout h a with
  | none => none
  | some names =>
    match r with
    | .w32 l => l[names.idxOf (numberName h a)]?.map fun v => v.toInt
    | .w64 l => l[names.idxOf (numberName h a)]?.map fun v =>
        ((if a = .x32 then v &&& ~~~0x40000000#64 else v).setWidth 32).toInt

/-- `syscall(int)`. On x86 the register is changed; on ARM the number is set through `PTRACE_SET_SYSCALL` (ptdebug_arm.cpp:41-48)
or `NT_ARM_SYSTEM_CALL` (ptdebug_arm64.cpp:51-62) and the registers stay as they are. `nr`: the number the kernel keeps apart. -/
def setSyscall (h : Host) (a : Abi) (r : Regset) (nr id : Int) : Option (Regset × Int) :=
  match h with
  | .x64 | .x86 =>
    if a = .x32 then
      (put h a r (numberName h a) (BitVec.ofInt 64 id ||| 0x40000000#64).toInt).map fun r => (r, nr)
    else (put h a r (numberName h a) id).map fun r => (r, nr)
  | .arm | .arm64 => some (r, id)

/-- Refusing a call under seccomp, handlers.py:10-16: the number becomes -1, and since there is no stop at the end of the call the
result is written at once (ptproc.cpp, "Syscall has ended"); `post_syscall` gives all registers back. -/
def refuse (h : Host) (r : Regset) (nr e : Int) : Option (Regset × Int) :=
  let a := detect h r
  match setSyscall h a r nr (-1) with
  | none => none
  | some (r, nr) => (put h a r (resultName h a) (-e)).map fun r => (r, nr)

/-- Refusing a call without seccomp, first stop: the call becomes another one, harmless (`noop`, for the ABI).
(handlers.py:9-18, _cptbox.pyx:234-251) -/
def replaceCall (h : Host) (r : Regset) (nr : Int) (noop : Abi → Int) : Option (Regset × Int) :=
  setSyscall h (detect h r) r nr (noop (detect h r))

/-- Second stop: the result is written. (handlers.py:9-18, _cptbox.pyx:234-251) -/
def replaceResult (h : Host) (r : Regset) (e : Int) : Option Regset :=
  put h (detect h r) r (resultName h (detect h r)) (-e)

/-- `is_end_of_first_execve`: ptdebug_x64.cpp:119-130, ptdebug_x86.cpp:92-98, ptdebug_arm.cpp:84-92, ptdebug_arm64.cpp:104-112. -/
def endOfExecve (h : Host) (seccomp enter : Bool) (r : Regset) : Option Bool :=
  let a := detect h r
  match syscall h a r, get h a r (resultName h a) with
  | some n, some v =>
    if seccomp then
      some (match h with
        | .x64 => n = 59
        | .x86 => n = 11
        | .arm => n = 11
        | .arm64 => n = 221)
    else
      some (match h with
        | .x64 => !enter && (if a = .x86 then n = 11 && v = 0 else n = 59 && v = 0)
        | .x86 => !enter && n = 11 && v = 0
        | .arm => !enter && n = 0 && v = 0
        | .arm64 => !enter && n = 0 && v = 0)
  | _, _ => none

end Verif.Arch
