import Verif.Model.Result

/-!
# A finished sandboxed process as seen by the judge

dmoj/cptbox/tracer.py (`TracedPopen`), dmoj/executors/base_executor.py (`populate_result`).
Times are in nanoseconds and memory in kilobytes, as exact integers (Python: floats/ints).
-/

namespace Verif.Process
open Verif.Result

/-- The facts about a process that has been waited for. (tracer.py:204-228) -/
structure Proc where
  /-- exit code, or minus the fatal signal (dmoj/cptbox/ptproc.cpp:362) -/
  returncode : Int
  /-- `_time`: the time limit; 0 means none -/
  timeLimit : Nat
  /-- `execution_time` measured by the monitor -/
  execTime : Nat
  /-- `_memory`: the memory limit; 0 means none -/
  memLimit : Nat
  /-- `max_memory` -/
  maxMemory : Nat
  /-- the shocker thread fired (dmoj/cptbox/tracer.py:343-347) -/
  shocked : Bool
  /-- SIGXCPU was seen (dmoj/cptbox/tracer.py:292-294) -/
  sigxcpu : Bool
  /-- `mark_ole` was called (dmoj/utils/communicate.py:84) -/
  markedOle : Bool
  /-- a protection fault was recorded -/
  protectionFault : Bool
deriving DecidableEq, Repr

namespace Proc
variable (p : Proc)

/-- dmoj/cptbox/tracer.py:210-212. -/
def isIr : Bool := decide (p.returncode > 0)

/-- dmoj/cptbox/tracer.py:214-216 (`self._memory and ...`, truthiness). -/
def isMle : Bool := decide (p.memLimit ≠ 0) && decide (p.maxMemory > p.memLimit)

/-- dmoj/cptbox/tracer.py:218-220. -/
def isOle : Bool := p.markedOle

/-- dmoj/cptbox/tracer.py:222-224. -/
def isRte : Bool := decide (p.returncode < 0)

/-- `_is_tle` after `wait`: set by the CPU-time signal (292-294), by the shocker thread (346) or by
the final check `if self._time and self.execution_time > self._time` (326-327). -/
def isTle : Bool :=
  p.sigxcpu || p.shocked || (decide (p.timeLimit ≠ 0) && decide (p.execTime > p.timeLimit))

/-- `populate_result`, dmoj/executors/base_executor.py:98-113: the flags or-ed into the result. -/
def flags (flag0 : Nat) : Nat :=
  let f := flag0
  let f := if p.isIr then f ||| IR else f
  let f := if p.isRte then f ||| RTE else f
  let f := if p.isOle then f ||| OLE else f
  let f := if p.isTle then f ||| TLE else f
  let f := if p.isMle then f ||| MLE else f
  f

/-- `MonoExecutor.populate_result`, dmoj/executors/mono_executor.py:71-74: additionally MLE when the
runtime reports that its garbage collector could not allocate and the process exited nonzero. -/
def monoFlags (gcMessage : Bool) (flag0 : Nat) : Nat :=
  let f := p.flags flag0
  if p.isIr && gcMessage then f ||| MLE else f

end Proc
end Verif.Process
