import Verif.Model.Judge
import Verif.Model.Watchdog

/-!
# How long the judge waits for its worker: dmoj/judge.py:315-335, 357-507

The messages of a worker with the time between them, and the loop of the judge that reads them. Times are seconds, exact; sending and reading
a message takes no time of its own, what the judge does with one takes as long as it likes. Left out: messages that cannot be read, a worker
that dies (`Model/Judge.lean` has both).
-/

namespace Verif.Patience
open Verif

/-- `int(x)`: towards zero. (judge.py:316) -/
def trunc (x : Rat) : Int := if x < 0 then -(-x).floor else x.floor

/-- `recv_timeout`, judge.py:316. -/
def patience (timeLimit : Rat) : Rat := max 60 (trunc (2 * timeLimit) : Int)

/-- What comes over the pipe: a message, or BYE. (judge.py:34-46) -/
inductive Line where
  | msg (m : Judge.Msg)
  | bye
deriving DecidableEq

/-- How long a worker takes; `none`: it never finishes. (judge.py:357-507) -/
structure Pace where
  /-- until HELLO -/
  start : Option Rat
  /-- the problem and its grader: mostly compiling, judge.py:437-452 -/
  build : Option Rat
  /-- `self.grader.cases()`, judge.py:458 -/
  resolve : Option Rat
  /-- `case.input_data()`, standard.py:17 -/
  input : Nat → Option Rat
  /-- the program, standard.py:19-25 -/
  run : Nat → Option Rat
  /-- the rest of `grade`, standard.py:27-40 -/
  check : Nat → Option Rat

/-- `self.grader.grade(case)`. (judge.py:480, standard.py:13-40) -/
def Pace.case (p : Pace) (n : Nat) : Option Rat :=
  match p.input n, p.run n, p.check n with
  | some a, some b, some c => some (a + b + c)
  | _, _, _ => none

/-- What the worker does after a message before it is back in its loop. (judge.py:454-465) -/
def Pace.after (p : Pace) : Worker.Event → Option Rat
  | .gradingBegin _ => p.resolve
  | _ => some 0

/-- What the worker sends, each with the time since the message before: `since` has passed already. (judge.py:394-420) -/
def diary (p : Pace) (raised : Bool) (since : Rat) : List Worker.Act → List (Rat × Line)
  | [] => if raised then [(since, .msg .unhandled), (0, .bye)] else [(since, .bye)]
  | .exec n :: r =>
    match p.case n with
    | none => []
    | some t => diary p raised (since + t) r
  | .send e :: r =>
    (since, .msg (Judge.toMsg e)) ::
      match p.after e with
      | none => []
      | some t => diary p raised t r

/-- The rest of an optional time. (judge.py:357-507) -/
def within (t : Option Rat) (f : Rat → List (Rat × Line)) : List (Rat × Line) :=
  match t with
  | none => []
  | some t => f t

/-- Everything a worker sends. (judge.py:357-435) -/
def timeline (p : Pace) (r : Judge.WorkerRun) : List (Rat × Line) :=
  within p.start fun s => (s, .msg .hello) :: within p.build fun b =>
    match r with
    | .failedEarly => [(b, .msg .unhandled), (0, .bye)]
    | .badCases warning _ =>
      (if warning then [(b, .msg .compileMessage), (0, .msg .gradingBegin)] else [(b, .msg .gradingBegin)]) ++
        within p.resolve fun c => [(c, .msg .unhandled), (0, .bye)]
    | .graded w sc c => diary p (Judge.raised (Worker.gradeCases w sc c)) b (Worker.gradeCases w sc c)

/-- How `communicate` ends: after BYE; with `TimeoutError`, the worker killed. (judge.py:321-333) -/
inductive End where
  | bye (t : Rat)
  | timeout (t : Rat)
deriving DecidableEq

/-- The moment. (judge.py:321-333) -/
def End.at : End → Rat
  | .bye t => t
  | .timeout t => t

/-- `communicate`, judge.py:315-335: the messages with the moments at which they are read, and the end. `ready`: when the judge asks for the next
one; `last`: when the one before was sent; `busy`: how long the judge then takes for each. -/
def communicate (limit : Rat) : (busy : List Rat) → (ready last : Rat) → List (Rat × Line) → List (Rat × Judge.Msg) × End
  | _, ready, _, [] => ([], .timeout (ready + limit))
  | busy, ready, last, (gap, l) :: r =>
    if last + gap ≤ ready + limit then
      match l with
      | .bye => ([], .bye (max ready (last + gap)))
      | .msg m =>
        let t := max ready (last + gap)
        let rest := communicate limit busy.tail (t + busy.headD 0) (last + gap) r
        ((t, m) :: rest.1, rest.2)
    else ([], .timeout (ready + limit))

/-- What the judge reads from a worker for a problem with this time limit. (judge.py:315-335) -/
def listen (timeLimit : Rat) (busy : List Rat) (p : Pace) (r : Judge.WorkerRun) : List (Rat × Judge.Msg) × End :=
  communicate (patience timeLimit) busy 0 0 (timeline p r)

/-- The wall clock time of a program with a history under the watchdog, in units of a millisecond. (tracer.py:196-205) -/
def wall (c : Watchdog.Cfg) (as : List Watchdog.Act) : Rat := (Watchdog.run c as).wall / 1000

end Verif.Patience
