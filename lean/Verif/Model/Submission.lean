import Verif.Model.Checkers
import Verif.Model.Grading
import Verif.Model.Problem
import Verif.Model.Worker

/-!
# A submission to a problem of the standard kind, from its runs to its results

dmoj/graders/standard.py:13-75 with dmoj/checkers/standard.py:7-10 on dmoj/problem.py:235-255 under dmoj/judge.py:437-507:
`StandardGrader.grade` on each case as the grading loop calls it, with the default checker.
-/

namespace Verif.Submission
open Verif Verif.Process Verif.Grading Verif.Worker

/-- One run of the submission: the finished process, what it wrote to stdout (`result.proc_output`), and what
`populate_result` says of it. (standard.py:16-24) -/
structure Run where
  proc : Proc
  stdout : Bytes
  feedback : String

/-- The answer file of a case (`None` if the configuration names none) and `binary_data` of the problem.
(problem.py:244-255, 327-335) -/
structure Answer where
  binary : Bool
  file : Option Bytes

/-- `checker(result.proc_output, case.output_data(), ...)` for the checker `standard`, dmoj/graders/standard.py:55-67: the
C extension either returns a boolean or (for an access outside its buffers, which C01 excludes) is not described. -/
def standardAns (out : Bytes) (a : Answer) : CheckAns :=
  match Checkers.standard out (Problem.normalize a.binary a.file) with
  | some v => .bool v
  | none => .raised

/-- `StandardGrader.grade(case)`, dmoj/graders/standard.py:13-40, as far as the grading loop looks at its result; `none` if it
raises.  `checkers/standard.py` sets no `run_on_error`. -/
def gradeCase (points : Rat) (a : Answer) (r : Run) : Option Res :=
  match gradeStandard r.proc r.feedback points false (fun _ => standardAns r.stdout a) with
  | .ok x => some ⟨x.flag, x.points⟩
  | .error _ => none

/-- `case.points` of the `n`-th case (counted from 1) the loop meets.  (problem.py:222-232; 0 beyond the last case, which the
loop never asks for) -/
def pointsOf (items : List Item) (n : Nat) : Rat :=
  match (flatten 0 items)[n - 1]? with
  | some (_, c) => c.points
  | none => 0

/-- The grading of a submission that compiled and is not aborted: `answer n` and `run n` belong to the `n`-th case.
(judge.py:437-507) -/
def world (items : List Item) (answer : Nat → Answer) (run : Nat → Run) : World where
  grade n := gradeCase (pointsOf items n) (answer n) (run n)
  aborted _ := false

/-- Everything the worker does for it. (judge.py:437-507) -/
def judge (shortCircuit warning pretested : Bool) (items : List Item) (answer : Nat → Answer) (run : Nat → Run) : List Act :=
  gradeCases (world items answer run) shortCircuit (.ok warning pretested items)

end Verif.Submission
