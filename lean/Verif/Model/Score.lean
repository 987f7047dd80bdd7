import Verif.Model.Helped
import Verif.Model.Judge

/-!
# What the worker of a submission does, by what judges each case

dmoj/judge.py:357-507 with the graders and checkers of Model/Submission.lean and Model/Helped.lean.
-/

namespace Verif.Score
open Verif Verif.Grading Verif.Worker Verif.Submission Verif.Helped

/-- One case: the run of the submission and what judges it, the checker `standard` or code of the author; each case may have a checker of its own.
(problem.py:352-374, graders/standard.py:45-75) -/
inductive Job where
  | standard (a : Answer) (r : Run)
  | own (r : Run) (s : Side)

/-- `grade(case)`. (standard.py:13-40, bridged.py:22-38, interactive.py:93-117) -/
def Job.grade (value : Rat) : Job → Option Res
  | .standard a r => Submission.gradeCase value a r
  | .own r s => Helped.gradeCase value r s

/-- A submission that compiled: what was asked for, the problem, its cases counted from 1, and whether an abort is seen after a case.
(judge.py:437-507) -/
structure Task where
  shortCircuit : Bool
  warning : Bool
  pretested : Bool
  items : List Item
  job : Nat → Job
  aborted : Nat → Bool

/-- The grading loop's view of it. (judge.py:437-507) -/
def Task.world (t : Task) : World where
  grade n := (t.job n).grade (pointsOf t.items n)
  aborted := t.aborted

/-- What the loop does. (judge.py:437-507) -/
def Task.acts (t : Task) : List Act := gradeCases t.world t.shortCircuit (.ok t.warning t.pretested t.items)

/-- What its worker does. (judge.py:357-435) -/
def Task.work (t : Task) : Judge.WorkerRun := .graded t.world t.shortCircuit (.ok t.warning t.pretested t.items)

end Verif.Score
