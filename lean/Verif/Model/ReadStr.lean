import Verif.Basic

/-!
# Reading strings from the traced process: dmoj/cptbox/ptdebug.cpp:135-256, dmoj/cptbox/tracer.py:75-83

Addresses are natural numbers: wrapping at 2^64 is not modelled. The outcome of `malloc`/`realloc`
is success. The contents of the buffer are a list; what a write outside the allocation would destroy is
not modelled, only that it happens (`Res.writes`).
-/

namespace Verif.ReadStr

/-- What the tracer can see of the traced process: its bytes, and which reads the kernel grants.
(ptdebug.cpp:135-256) -/
structure Mem where
  byte : Nat → UInt8
  /-- `process_vm_readv` of this many bytes at this address is granted. -/
  vmOk : Nat → Nat → Bool
  /-- `PTRACE_PEEKDATA` of a word at this address is granted. -/
  peekOk : Nat → Bool

/-- Result of the C++ routines: the C string (`none` for a null pointer), the writes to the buffer as
(offset, length, size of the allocation), and the new value of `use_peekdata`. (ptdebug.cpp:135-256) -/
structure Res where
  out : Option (List UInt8)
  writes : List (Nat × Nat × Nat)
  usePeek : Bool

/-- Bytes `a .. a+n`. (ptdebug.cpp:135-256) -/
def chunk (m : Mem) (a n : Nat) : List UInt8 := (List.range n).map fun i => m.byte (a + i)

/-- What Python sees of a buffer converted as a C string (dmoj/cptbox/_cptbox.pyx:358). -/
def cstr (buf : List UInt8) : List UInt8 := buf.takeWhile (· != 0)

/-- The loop of `readstr_peekdata`, dmoj/cptbox/ptdebug.cpp:209-253, for 8-byte words. The loop bound
`fuel` is never reached (theorem `C38_answers`). -/
def peekLoop (m : Mem) (max addr : Nat) : Nat → Nat → Nat → List UInt8 → List (Nat × Nat × Nat) →
    Option (List UInt8) × List (Nat × Nat × Nat)
  | 0, _, _, _, w => (none, w)
  | fuel + 1, read, size, buf, w =>
    if read + 8 > size ∧ size > max then (some (cstr (buf.take max ++ [0])), w ++ [(max, 1, size)])
    else
      let size := if read + 8 > size then (if size + 4096 > max then max + 1 else size + 4096) else size
      if m.peekOk (addr + read) then
        let data := chunk m (addr + read) 8
        let w := w ++ [(read, 8, size)]
        if 0 ∈ data then (some (cstr (buf ++ data)), w)
        else peekLoop m max addr fuel (read + 8) size (buf ++ data) w
      else (none, w)

/-- `readstr_peekdata`, dmoj/cptbox/ptdebug.cpp:196-256. -/
def peekdata (m : Mem) (max addr : Nat) : Option (List UInt8) × List (Nat × Nat × Nat) :=
  if addr = 0 then (none, []) else peekLoop m max addr (max + 4096) 0 4096 [] []

/-- The loop of `readstr`, dmoj/cptbox/ptdebug.cpp:160-188. -/
def vmLoop (m : Mem) (P max addr : Nat) (read remain : Nat) (buf : List UInt8)
    (w : List (Nat × Nat × Nat)) : Res :=
  if read < max then
    if 0 < remain ∧ m.vmOk (addr + read) remain = true then
      let data := chunk m (addr + read) remain
      let w := w ++ [(read, remain, max + 1)]
      if 0 ∈ data then ⟨some (cstr (buf ++ data)), w, false⟩
      else vmLoop m P max addr (read + remain) (min P (max - (read + remain))) (buf ++ data) w
    else
      let p := peekdata m max addr
      ⟨p.1, w ++ p.2, read == 0 && p.1.isSome⟩
  else ⟨some (cstr (buf.take max ++ [0])), w ++ [(max, 1, max + 1)], false⟩
termination_by max - read

/-- `pt_debugger::readstr`, dmoj/cptbox/ptdebug.cpp:135-194; `P` is the page size. -/
def readstr (m : Mem) (P max : Nat) (usePeek : Bool) (addr : Nat) : Res :=
  if addr = 0 then ⟨none, [], usePeek⟩
  else if usePeek then
    let p := peekdata m max addr
    ⟨p.1, p.2, true⟩
  else vmLoop m P max addr 0 ((addr + P) / P * P - addr) [] []

/-- Outcome of the Python wrapper: `None`, `MaxLengthExceeded`, or the bytes handed to `utf8text`. (tracer.py:75-83) -/
inductive PyStr where
  | null
  | tooLong
  | text (s : List UInt8)
deriving DecidableEq, Repr

/-- `AdvancedDebugger.readstr`, dmoj/cptbox/tracer.py:75-83; `is32` is `address_bits == 32`. -/
def readstrPy (m : Mem) (P : Nat) (usePeek is32 : Bool) (address : Nat) : PyStr :=
  let address := if is32 then address % 4294967296 else address
  match (readstr m P (4096 + 1) usePeek address).out with
  | none => .null
  | some s => if s.length > 4096 then .tooLong else .text s

end Verif.ReadStr
