import Mathlib.Data.Rat.Floor
import Verif.Model.Start

/-!
# Limits on their way from Python through C types to the kernel

dmoj/cptbox/tracer.py:113-128, _cptbox.pyx:388-391 and 455-461, helper.h:10-16, helper.cpp:31-39 and 114-133.
`Model/Child.lean` has the same limits as unbounded numbers; here they are the machine words they become. `W` is the width of
`unsigned long` and of `rlim_t` (64 or 32), `int` has 32 bits.
-/

namespace Verif.Limits
open Verif.Child Verif.Start

/-- A time in seconds as Python has it: the time limit of a submission is a `float` (packet.py:266), those of compilers and
generators are what the configuration says (judgeenv.py:18-23). -/
inductive Secs where
  | fin (q : ℚ)
  | inf (negative : Bool)
  | nan
deriving DecidableEq

/-- The arguments of `TracedPopen` that become limits, memory in kilobytes. (tracer.py:90-108) -/
structure Ask where
  time : Secs
  memory : Int
  addressGrace : Int
  dataGrace : Int
  nproc : Int
  fsize : Int

/-- What an assignment to a C field may raise. (_cptbox.pyx:388-391; the conversions are Cython's) -/
inductive PyErr where
  | overflow
  | value
deriving DecidableEq, Repr

/-- A Python number assigned to an unsigned field. (_cptbox.pyx:389-390) -/
def toUnsigned (w : Nat) (n : Int) : Except PyErr (BitVec w) :=
  if 0 ≤ n ∧ n < 2 ^ w then .ok (BitVec.ofInt w n) else .error .overflow

/-- A Python number assigned to an `int` field. (_cptbox.pyx:391) -/
def toInt (n : Int) : Except PyErr (BitVec 32) :=
  if -2 ^ 31 ≤ n ∧ n < 2 ^ 31 then .ok (BitVec.ofInt 32 n) else .error .overflow

/-- `int(q)`: towards zero. (what Cython does with a `float` assigned to an integer field, _cptbox.pyx:390) -/
def trunc (q : ℚ) : Int := if 0 ≤ q then ⌊q⌋ else ⌈q⌉

/-- `self._cpu_time = time + 5 if time else 0`, tracer.py:121, with the field's conversion; `rnd` is the rounding of the addition. -/
def cpuTime (rnd : ℚ → ℚ) : Secs → Except PyErr (BitVec 32)
  | .fin q => if q = 0 then .ok 0 else toUnsigned 32 (trunc (rnd (q + 5)))
  | .inf _ => .error .overflow
  | .nan => .error .value

/-- The fields of `child_config` that hold limits, helper.h:10-16. -/
structure CConf (W : Nat) where
  memory : BitVec W
  address : BitVec W
  cpu : BitVec 32
  nproc : BitVec 32
  fsize : BitVec 32
deriving DecidableEq

/-- The assignments of `TracedPopen.__init__` in order, tracer.py:121-128; `_spawn` copies the fields to `child_config` unchanged
(_cptbox.pyx:456-460). An exception leaves `__init__` before any thread or process is started. -/
def build (W : Nat) (rnd : ℚ → ℚ) (a : Ask) : Except PyErr (CConf W) := do
  let cpu ← cpuTime rnd a.time
  let memory ← toUnsigned W (a.memory * 1024 + a.dataGrace * 1024)
  let address ← toUnsigned W (if a.memory ≠ 0 then a.memory * 1024 + a.addressGrace * 1024 else 0)
  let nproc ← toInt a.nproc
  let fsize ← toInt a.fsize
  pure { memory, address, cpu, nproc, fsize }

/-- A number as an `rlim_t`: all ones is `RLIM_INFINITY`. (helper.cpp:31-39) -/
def rlim (W n : Nat) : Option Nat := if n = 2 ^ W - 1 then none else some n

/-- The calls of `setrlimit2` in order, helper.cpp:114-133; `config->cpu_time + 1` is an `unsigned int`. -/
def calls {W : Nat} (c : CConf W) : List (Res × Option Nat × Option Nat) :=
  (if c.address ≠ 0 then [(.as, rlim W c.address.toNat, rlim W c.address.toNat)] else [])
  ++ (if c.memory ≠ 0 then [(.data, rlim W c.memory.toNat, rlim W c.memory.toNat)] else [])
  ++ (if c.cpu ≠ 0 then [(.cpu, rlim W c.cpu.toNat, rlim W (c.cpu + 1).toNat)] else [])
  ++ (if c.nproc.toInt ≥ 0 then [(.nproc, rlim W c.nproc.toInt.toNat, rlim W c.nproc.toInt.toNat)] else [])
  ++ (if c.fsize.toInt ≥ 0 then [(.fsize, rlim W c.fsize.toInt.toNat, rlim W c.fsize.toInt.toNat)] else [])
  ++ [(.stack, none, none), (.core, some 0, some 0)]

/-- The limits of the process when it calls `execve`, from those of the judge. (helper.cpp:114-133) -/
def imposed {W : Nat} (privileged : Bool) (l : Limits) (c : CConf W) : Limits := (calls c).foldl (setLimit privileged) l

end Verif.Limits
