/-!
# Aborting a submission, in time

`Judge.abort_grading` and `JudgeWorker.request_abort_grading`, `wait_with_timeout`, `_do_abort` (dmoj/judge.py:238-255, 337-355, 509-512),
`BaseGrader.abort_grading` (graders/base.py:24-30), with the places the worker looks at the request (judge.py:444-507) and sets `_current_proc`
(graders/standard.py:15-22, 77-86).

Simplified: how long each part of the work takes is given (in milliseconds), everything else takes no time: messages between judge and worker,
the thread that receives them, the end of a killed program. A grading that raises is left out (C20).
-/

namespace Verif.AbortTime

/-- The work on one test case. `graded`: it is not short-circuited. `data`: until its program is `_current_proc`, with `input_data` and the launch.
`run`: until the program ends by itself. `check`: from then until there is a result; `after`: the same when the program has been killed.
(graders/standard.py:13-43) -/
structure Case where
  graded : Bool
  data : Nat
  run : Nat
  check : Nat
  after : Nat
deriving DecidableEq, Repr

/-- The work on a submission. `make`: until the grader exists, that is, until everything is compiled; `error`: with a `CompileError`. `ready`: from then
to the first case. `leave`: from the last message to the end of the worker. (judge.py:444-466, 421-437) -/
structure Work where
  make : Nat
  error : Bool
  ready : Nat
  cases : List Case
  leave : Nat
deriving DecidableEq, Repr

/-- What happens: a program is started, is killed, ends; the result of a case is sent; the messages that end a grading; the last one is not from the
worker. (judge.py:144-186, 444-507) -/
inductive Ev where
  | launch (i : Nat)
  | killed (i : Nat)
  | exited (i : Nat)
  | result (i : Nat)
  | aborted
  | done
  | compileError
  | internal
deriving DecidableEq, Repr

/-- `_grade_cases` from the first case on, when the request arrives at the time `a`, if at all: only the program that is `_current_proc` at that moment is
killed (a request that comes earlier finds the previous program, which has ended), and the request is noticed after the next case that is graded.
(judge.py:478-507, graders/base.py:24-30, cptbox/tracer.py:230-243) -/
def grade (a : Option Nat) : Nat → Nat → List Case → List (Nat × Ev)
  | _, now, [] => [(now, .done)]
  | i, now, c :: cs =>
    if c.graded then
      let l := now + c.data
      let e := l + c.run
      let r := e + c.check
      match a with
      | none => (l, .launch i) :: (e, .exited i) :: (r, .result i) :: grade a (i + 1) r cs
      | some t =>
        if l ≤ t ∧ t < e then [(l, .launch i), (t, .killed i), (t + c.after, .aborted)]
        else if t ≤ r then [(l, .launch i), (e, .exited i), (r, .aborted)]
        else (l, .launch i) :: (e, .exited i) :: (r, .result i) :: grade a (i + 1) r cs
    else (now, .result i) :: grade a (i + 1) now cs

/-- The worker: before the grader exists a request leaves a mark only. (judge.py:444-512) -/
def worker (w : Work) (a : Option Nat) : List (Nat × Ev) :=
  if w.error then [(w.make, .compileError)] else grade a 0 (w.make + w.ready) w.cases

/-- The time of the last message. (judge.py:405-416) -/
def last (l : List (Nat × Ev)) : Nat := (l.map (·.1)).getLast?.getD 0

/-- `IPC_TEARDOWN_TIMEOUT`, judge.py:49. -/
def limit : Nat := 5000

/-- What happens when the submission is aborted at the time `t`: a worker that has not finished when the time is up is killed, and its programs with it
(ptproc.cpp:177-180); reading from it then fails, which is an internal error. (judge.py:238-255, 337-348, 314-333, 176-179) -/
def judge (w : Work) (t : Nat) : List (Nat × Ev) :=
  let l := worker w (some t)
  if last l ≤ t + limit then l else l.filter (fun e => e.1 ≤ t + limit) ++ [(t + limit, .internal)]

/-- When the thread that reads from the site goes on: when the worker has ended or has been killed. (judge.py:251-255, 337-348) -/
def free (w : Work) (t : Nat) : Nat := max t (min (t + limit) (last (worker w (some t)) + w.leave))

end Verif.AbortTime
