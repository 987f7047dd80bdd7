import Verif.Model.Contrib

/-!
# Grading one case (dmoj/graders/standard.py, interactive.py, bridged.py)
-/

namespace Verif.Grading
open Verif Verif.Process Verif.Result

/-- What a checker call can do. (standard.py:45-75) -/
inductive CheckAns where
  /-- returned a `bool` -/
  | bool (v : Bool)
  /-- returned a `CheckerResult` -/
  | result (passed : Bool) (points : Rat) (feedback : Option String)
  /-- returned anything else, with its truthiness -/
  | other (truthy : Bool)
  /-- raised `UnicodeDecodeError` -/
  | unicodeError
  /-- raised anything else -/
  | raised
deriving DecidableEq, Repr

/-- Exceptions leaving `grade` (all of them end up as an internal error). (standard.py:45-75) -/
inductive GradeErr where
  | checkerRaised
  | assertion
deriving DecidableEq, Repr

/-- A `CheckerResult` object. (result.py:104-115) -/
structure CheckerResult where
  passed : Bool
  points : Rat
  feedback : Option String
deriving DecidableEq, Repr

/-- What is reported for a case. (result.py:29-49) -/
structure CaseResult where
  flag : Nat
  points : Rat
  feedback : String
deriving DecidableEq, Repr

/-- `check_result`, dmoj/graders/standard.py:45-75.  The checker is consulted only in the first
branch. -/
def checkResult (flag : Nat) (runOnError : Bool) (checker : Nat → CheckAns) : CheckAns :=
  if flag = 0 || runOnError then
    match checker flag with
    | .unicodeError => .result false 0 (some "invalid unicode")
    | a => a
  else .bool false

/-- dmoj/graders/standard.py:30-31 with the assertions of `CheckerResult`,
dmoj/result.py:104-110. -/
def toCheckerResult (casePoints : Rat) : CheckAns → Except GradeErr CheckerResult
  | .result p pts fb => .ok ⟨p, pts, fb⟩
  | .bool v => .ok ⟨v, if v then casePoints else 0, none⟩
  | .other _ => .error .assertion
  | .unicodeError => .error .checkerRaised
  | .raised => .error .checkerRaised

/-- Python's `a or b` on optional strings: `None` and `''` are falsy. (standard.py:35-36) -/
def orFeedback (a : Option String) (c : String) : String :=
  match a with
  | none => c
  | some s => if s = "" then c else s

/-- `grade`, dmoj/graders/standard.py:13-40, after the process has been waited for:
`processFeedback` is the feedback already set by `populate_result`. -/
def finish (flag : Nat) (processFeedback : String) (casePoints : Rat) (check : CheckAns) :
    Except GradeErr CaseResult :=
  match toCheckerResult casePoints check with
  | .error e => .error e
  | .ok r =>
    .ok { flag := flag ||| (if r.passed then AC else WA)
          points := r.points
          feedback := orFeedback r.feedback processFeedback }

/-- Standard grader. (standard.py:13-40) -/
def gradeStandard (p : Proc) (processFeedback : String) (casePoints : Rat) (runOnError : Bool)
    (checker : Nat → CheckAns) : Except GradeErr CaseResult :=
  let flag := p.flags 0
  finish flag processFeedback casePoints (checkResult flag runOnError checker)

/-- How the judge-supplied `interact` function ends. (interactive.py:94-107) -/
inductive InteractEnd where
  | ret (a : CheckAns)      -- returned (and closing stdin succeeded)
  | wrongAnswer (msg : String)
  | ioError                 -- child stream closed
  | raised                  -- any other exception: escapes
deriving DecidableEq, Repr

/-- `InteractiveGrader._interact_with_process`, dmoj/graders/interactive.py:94-107: the values of
`self.check` and `self.feedback`, or an escaping exception.  (If `interact` returned but
`interactor.close()` raised IOError, `self.check` keeps the returned value; that is covered by
`.ret`.) -/
def interactState : InteractEnd → Except GradeErr (CheckAns × Option String)
  | .ret a => .ok (a, none)
  | .wrongAnswer m => .ok (.bool false, some m)
  | .ioError => .ok (.bool false, none)
  | .raised => .error .checkerRaised

/-- `InteractiveGrader.check_result`, dmoj/graders/interactive.py:109-117. -/
def interactiveCheck (flag : Nat) (casePoints : Rat) (check : CheckAns) (feedback : Option String) :
    Except GradeErr CheckAns :=
  if flag ≠ 0 then .ok (.bool false)
  else match check with
    | .result p pts fb => .ok (.result p pts fb)
    | .bool v => .ok (.result v (if v then casePoints else 0) feedback)
    | _ => .error .assertion

/-- Interactive grader. (interactive.py:93-117) -/
def gradeInteractive (p : Proc) (processFeedback : String) (casePoints : Rat) (e : InteractEnd) :
    Except GradeErr CaseResult :=
  match interactState e with
  | .error x => .error x
  | .ok (check, fb) =>
    match interactiveCheck (p.flags 0) casePoints check fb with
    | .error x => .error x
    | .ok a => finish (p.flags 0) processFeedback casePoints a

/-- Convert the answer of a protocol module. (bridged.py:22-38) -/
def ofContrib : Option Contrib.Answer → CheckAns
  | none => .other false
  | some (.bool v) => .bool v
  | some (.result p pts fb) => .result p pts (some fb)

/-- `BridgedInteractiveGrader.check_result`, dmoj/graders/bridged.py:22-38: the interactor's exit is
interpreted first; `(not result.result_flag) and parsed_result`. -/
def bridgedCheck (flag : Nat) (parsed : Except Contrib.HelperErr (Option Contrib.Answer)) :
    Except Contrib.HelperErr CheckAns :=
  match parsed with
  | .error e => .error e
  | .ok a => if flag ≠ 0 then .ok (.bool false) else .ok (ofContrib a)

/-- Bridged grader; the left error is an internal error about the interactor. (bridged.py:22-38) -/
def gradeBridged (p : Proc) (processFeedback : String) (casePoints : Rat)
    (parsed : Except Contrib.HelperErr (Option Contrib.Answer)) :
    Except (Contrib.HelperErr ⊕ GradeErr) CaseResult :=
  match bridgedCheck (p.flags 0) parsed with
  | .error e => .error (.inl e)
  | .ok a =>
    match finish (p.flags 0) processFeedback casePoints a with
    | .error e => .error (.inr e)
    | .ok r => .ok r

end Verif.Grading
