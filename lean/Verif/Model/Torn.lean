import Verif.Model.Time

/-!
# Reading the clocks of a program while they are written: dmoj/cptbox/ptbox.h:79-102, 122, dmoj/cptbox/ptproc.cpp:31-43, 122-135, 164,
dmoj/cptbox/tracer.py:332-352

The watchdog reads `exec_time` and `start_time` while the tracing thread, which does not hold the interpreter lock (_cptbox.pyx:495-497), writes them;
nothing makes a pair of numbers be read or written at once. Here each of the assignments of ptbox.h:80-84 is one write that others see in this order,
and each field is read once, in either order. Compilers may merge writes. As in `Model/Time.lean`, floating point is not modelled.
-/

namespace Verif.Torn
open Verif.Time

/-- What the memory of `exec_time` holds at a moment; history: its value when the update in progress began, and when that will be finished.
(ptproc.cpp:135) -/
structure Entry where
  mem : Ts
  old : Ts
  new : Ts
deriving DecidableEq, Repr

/-- The memory after each write of `timespec_add(&exec_time, &delta, &exec_time)`, ptbox.h:79-86. -/
def writes (a b : Ts) : List Ts :=
  ⟨a.sec + b.sec, a.nsec⟩ :: ⟨a.sec + b.sec, a.nsec + b.nsec⟩ ::
    if a.nsec + b.nsec ≥ 1000000000 then
      [⟨a.sec + b.sec + 1, a.nsec + b.nsec⟩, ⟨a.sec + b.sec + 1, a.nsec + b.nsec - 1000000000⟩]
    else []

/-- The memory during updates by `bs`, one for each wait. (ptproc.cpp:121-135) -/
def updates : Ts → List Ts → List Entry
  | _, [] => []
  | a, b :: bs => (writes a b).map (fun m => ⟨m, a, add a b⟩) ++ updates (add a b) bs

/-- All the memory has been, from `a` on. (ptproc.cpp:121-135) -/
def trace (a : Ts) (bs : List Ts) : List Entry := ⟨a, a, a⟩ :: updates a bs

/-- Which field is first; C leaves the order of the reads in ptbox.h:122 open, and that of the writes of an assignment of structures, ptproc.cpp:164. -/
inductive Order where
  | sec
  | nsec
deriving DecidableEq, Repr

/-- `execution_time()`, ptbox.h:122, of which the first field is read at `x` and the second, no earlier, at `y`. -/
def seen : Order → Entry → Entry → Ts
  | .sec, x, y => ⟨x.mem.sec, y.mem.nsec⟩
  | .nsec, x, y => ⟨y.mem.sec, x.mem.nsec⟩

/-- The memory of `start_time` during `start_time = start`, ptproc.cpp:164; it was zero. -/
def starts (o : Order) (s : Ts) : List Ts := [⟨0, 0⟩, if o = .sec then ⟨s.sec, 0⟩ else ⟨0, s.nsec⟩, s]

/-- `wall_clock_time()` of a running program, ptproc.cpp:31-43, if `start_time` is `m` when it is read. -/
def wallSeen (m now : Ts) : Ts := wall { start := m } now

/-- The watchdog kills, tracer.py:344-348 (limits in nanoseconds). -/
def kills (limit wallLimit : Int) (exec wall : Ts) : Bool :=
  decide (exec.sec * 1000000000 + exec.nsec > limit) || decide (wall.sec * 1000000000 + wall.nsec > wallLimit)

end Verif.Torn
