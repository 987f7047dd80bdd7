import Verif.Basic

/-!
# Time accounting: dmoj/cptbox/ptbox.h:79-102 and dmoj/cptbox/ptproc.cpp:31-43, 122-135, 360

`long` arithmetic is exact here (overflow would need centuries). The conversion to floating point
(ptbox.h:122, ptproc.cpp:42) is not modelled: execution and wall time are the pairs of integers.
-/

namespace Verif.Time

/-- `struct timespec` (ptbox.h:79-90) -/
structure Ts where
  sec : Int
  nsec : Int
deriving DecidableEq, Repr

/-- `timespec_add` (ptbox.h:79-90) -/
def add (a b : Ts) : Ts :=
  let n := a.nsec + b.nsec
  if n ≥ 1000000000 then ⟨a.sec + b.sec + 1, n - 1000000000⟩ else ⟨a.sec + b.sec, n⟩

/-- `timespec_sub` (ptbox.h:91-102) -/
def sub (a b : Ts) : Ts :=
  if a.sec < b.sec ∨ (a.sec = b.sec ∧ a.nsec ≤ b.nsec) then ⟨0, 0⟩
  else if a.nsec < b.nsec then ⟨a.sec - b.sec - 1, a.nsec + 1000000000 - b.nsec⟩
  else ⟨a.sec - b.sec, a.nsec - b.nsec⟩

/-- The clock fields of `pt_process`. (ptbox.h:111-144) -/
structure Clock where
  exec : Ts := ⟨0, 0⟩
  start : Ts := ⟨0, 0⟩
  stop : Ts := ⟨0, 0⟩
deriving DecidableEq, Repr

/-- One wait of the loop: the clock before and after `wait4`; `first` is whether it is the first stop
(not an immediate death), `last` whether the loop ends with it. (ptproc.cpp:121-135) -/
structure Wait where
  before : Ts
  after : Ts
  first : Bool
  last : Bool

/-- The clock part of one iteration, ptproc.cpp:122-135, 164, 360. -/
def tick (c : Clock) (w : Wait) : Clock :=
  { exec := add c.exec (sub w.after w.before)
    start := if w.first then w.before else c.start
    stop := if w.last then w.after else c.stop }

/-- ptproc.cpp:121-135. -/
def ticks (c : Clock) (ws : List Wait) : Clock := ws.foldl tick c

/-- `wall_clock_time`, ptproc.cpp:31-43, at clock reading `now`. -/
def wall (c : Clock) (now : Ts) : Ts :=
  if c.start.sec = 0 ∧ c.start.nsec = 0 then ⟨0, 0⟩
  else sub (if c.stop.sec ≠ 0 ∨ c.stop.nsec ≠ 0 then c.stop else now) c.start

end Verif.Time
