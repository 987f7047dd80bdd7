import Verif.Basic
import Verif.Model.Monitor
import Verif.Model.Process

/-!
# Memory accounting: `get_memory`, `_event_handler` and `max_memory`, dmoj/cptbox/_cptbox.pyx:167-191, 420-422, 542-551; Linux only

The events are those of the tracer loop (`Model/Monitor.lean`). What `/proc/<pid>/status` of the main process contains is an input at every
stop: the thread that stopped does not run meanwhile, other threads may, but reading the file is one step.
-/

namespace Verif.Memory
open Verif.Monitor

/-- `fgets(line, size + 1, file)`: up to `size` bytes, no further than a newline; the line and the rest.
(_cptbox.pyx:167-191) -/
def fgets : Nat → Bytes → Bytes × Bytes
  | 0, s => ([], s)
  | _ + 1, [] => ([], [])
  | n + 1, c :: s => if c = 10 then ([c], s) else (c :: (fgets n s).1, (fgets n s).2)

theorem fgets_append (n : Nat) (s : Bytes) : (fgets n s).1 ++ (fgets n s).2 = s := by
  fun_induction fgets n s <;> grind

/-- `VmHWM:` (_cptbox.pyx:167-191) -/
def field : Bytes := [86, 109, 72, 87, 77, 58]

/-- _cptbox.pyx:167-191. -/
def digit (c : Byte) : Bool := 48 ≤ c.toNat && c.toNat ≤ 57

/-- The value of a digit for `strtoul`. (_cptbox.pyx:167-191) -/
def value (c : Byte) : Nat :=
  if 48 ≤ c.toNat ∧ c.toNat ≤ 57 then c.toNat - 48
  else if 97 ≤ c.toNat ∧ c.toNat ≤ 122 then c.toNat - 87
  else if 65 ≤ c.toNat ∧ c.toNat ≤ 90 then c.toNat - 55
  else 36

/-- The digits in `base` at the beginning. (_cptbox.pyx:167-191) -/
def digits (base : Nat) : Nat → Bytes → Nat
  | acc, [] => acc
  | acc, c :: s => if value c < base then digits base (acc * base + value c) s else acc

/-- `strtoul(s, NULL, 0)` for a text that begins with a digit: hexadecimal, octal or decimal; too large a number is `ULONG_MAX`.
(_cptbox.pyx:167-191) -/
def strtoul (s : Bytes) : Nat :=
  let n := match s with
    | 48 :: x :: d :: r => if (x = 120 ∨ x = 88) ∧ value d < 16 then digits 16 0 (d :: r) else digits 8 0 (x :: d :: r)
    | 48 :: r => digits 8 0 r
    | s => digits 10 0 s
  min n (2 ^ 64 - 1)

/-- The line found, _cptbox.pyx:183-189: the last three bytes are cut off, then the first digit is looked for. `none`: there is none, and the
pointer leaves the line (undefined). -/
def number (line : Bytes) : Option Nat :=
  let line := line.take (line.length - 3)
  match line.dropWhile (fun c => !digit c) with
  | [] => none
  | s => some (strtoul s)

/-- `get_memory` on the contents of the file, _cptbox.pyx:179-191. -/
def getMemory (s : Bytes) : Option Nat :=
  match s with
  | [] => some 0
  | c :: s =>
    let r := fgets 127 (c :: s)
    if field.isPrefixOf r.1 then number r.1 else getMemory r.2
  termination_by s.length
  decreasing_by
    have h := congrArg List.length (fgets_append 127 (c :: s))
    have : (fgets 127 (c :: s)).1 ≠ [] := by simp only [fgets]; split <;> simp
    have := List.length_pos_iff.2 this
    simp at h ⊢; omega

/-- What `get_memory(pid)` returns: 0 if the file cannot be opened. (_cptbox.pyx:167-191) -/
def reading : Option Bytes → Option Nat
  | none => some 0
  | some s => getMemory s

/-- Something that happens while the program is traced. (_cptbox.pyx:420-499, 542-551) -/
inductive Event (C : Type) where
  /-- a stop reported by `wait4`, what the status file of the main process contains while it is handled, and `ru_maxrss` -/
  | stop (e : Stop C) (status : Option Bytes) (rss : Nat)
  /-- another thread of the judge evaluates `max_memory` -/
  | ask (status : Option Bytes)

/-- The loop with `_max_memory` and the last `ru_maxrss`; `ub` when the text of a status file makes `get_memory` leave its buffer.
(_cptbox.pyx:420-499, 542-551) -/
structure St where
  loop : State := {}
  memory : Nat := 0
  rss : Nat := 0
  ub : Bool := false

/-- Whether a stop dispatches `PTBOX_EVENT_EXITING` or `PTBOX_EVENT_SIGNAL`: protection faults (ptproc.cpp:81-83), the exit of any thread after one
(310-313), signals and traps of the main thread (337-338). -/
def looks {C : Type} (cfg : Cfg C) (s : State) (e : Stop C) : Bool :=
  (step cfg s e).2.any (fun a => match a with
    | .report _ | .signalEvent _ => true
    | _ => false) ||
  (match e with
    | .trap _ .exit => s.faulted && !s.finished
    | _ => false)

/-- `self._max_memory = get_memory(pid) or self._max_memory` (_cptbox.pyx:420-499, 542-551) -/
def St.look (s : St) (status : Option Bytes) : St :=
  match reading status with
  | none => { s with ub := true }
  | some 0 => s
  | some n => { s with memory := n }

/-- One event. `wait4` is not called again once the loop is finished; `max_memory` looks only before (543-551). -/
def advance {C : Type} (cfg : Cfg C) (s : St) : Event C → St
  | .ask status => if s.loop.finished then s else s.look status
  | .stop e status rss =>
    if s.loop.finished then s
    else
      let s' := { s with rss := rss }
      let s' := if looks cfg s.loop e then s'.look status else s'
      { s' with loop := (step cfg s.loop e).1 }

/-- _cptbox.pyx:420-499, 542-551. -/
def after {C : Type} (cfg : Cfg C) : St → List (Event C) → St
  | s, [] => s
  | s, e :: l => after cfg (advance cfg s e) l

/-- `max_memory` after the end, _cptbox.pyx:546-547. -/
def St.maxMemory (s : St) : Nat := if s.memory = 0 then s.rss else s.memory

end Verif.Memory
