import Verif.Model.Submission
import Verif.Model.Contrib
import Verif.Model.Message

/-!
# A submission to a problem whose author judges it with code of their own

dmoj/checkers/bridged.py:26-74 under dmoj/graders/standard.py:13-75, dmoj/graders/bridged.py:22-38, dmoj/graders/interactive.py:93-117;
all under dmoj/judge.py:437-507.  The protocol `peg` is left out (C10 treats it).
-/

namespace Verif.Helped
open Verif Verif.Process Verif.Grading Verif.Worker Verif.Submission

/-- The modules of dmoj/contrib other than `peg`. (contrib/__init__.py:1-13) -/
inductive Protocol where
  | default | testlib | coci
deriving DecidableEq, Repr

/-- The author's program after it ended. (checkers/bridged.py:56-60, graders/bridged.py:26-37) -/
structure Helper where
  proc : Proc
  stdout : Bytes
  stderr : Bytes

/-- `ContribModule.parse_return_code`. (contrib/default.py:20-26, testlib.py:24-42, coci.py:17-30) -/
def parseReturn (p : Protocol) (h : Helper) (value : Rat) (feedback : String) : Except Contrib.HelperErr (Option Contrib.Answer) :=
  match p with
  | .default => Contrib.default h.proc value feedback
  | .testlib => Contrib.testlib h.proc value feedback h.stderr
  | .coci => Contrib.coci h.proc value feedback h.stderr

/-- What judges a case, and what it did: a checker program, an interactor program, or a Python `interact` function.  The flag says
whether the configuration asks for its text to be shown. (checkers/bridged.py:36, graders/bridged.py:33) -/
inductive Side where
  | checker (p : Protocol) (feedback : Bool) (h : Helper)
  | interactor (p : Protocol) (feedback : Bool) (h : Helper)
  | code (e : InteractEnd)

/-- `check` of the bridged checker once its program has ended; its output is decoded whether or not it will be shown.
(checkers/bridged.py:56-74) -/
def checkerAns (p : Protocol) (feedback : Bool) (h : Helper) (value : Rat) : CheckAns :=
  match Message.strict h.stdout with
  | none => .unicodeError
  | some t =>
    match parseReturn p h value (if feedback then String.ofList t else "") with
    | .error _ => .raised
    | .ok a => ofContrib a

/-- `grade(case)` of the three graders, as far as the grading loop looks at its result; `none` if it raises.
(standard.py:13-40, bridged.py:22-38, interactive.py:93-117) -/
def gradeCase (value : Rat) (r : Run) : Side → Option Res
  | .checker p feedback h =>
    match gradeStandard r.proc r.feedback value false (fun _ => checkerAns p feedback h value) with
    | .ok x => some ⟨x.flag, x.points⟩
    | .error _ => none
  | .interactor p feedback h =>
    -- `utf8text(stderr) if self.handler_data.feedback else ''` is evaluated before the call
    match (if feedback then Message.strict h.stderr else some []) with
    | none => none
    | some t =>
      match gradeBridged r.proc r.feedback value (parseReturn p h value (String.ofList t)) with
      | .ok x => some ⟨x.flag, x.points⟩
      | .error _ => none
  | .code e =>
    match gradeInteractive r.proc r.feedback value e with
    | .ok x => some ⟨x.flag, x.points⟩
    | .error _ => none

/-- The grading of a submission that compiled and is not aborted: `run n` and `side n` belong to the `n`-th case.
(judge.py:437-507) -/
def world (items : List Item) (run : Nat → Run) (side : Nat → Side) : World where
  grade n := gradeCase (pointsOf items n) (run n) (side n)
  aborted _ := false

/-- Everything the worker does for it. (judge.py:437-507) -/
def judge (shortCircuit warning pretested : Bool) (items : List Item) (run : Nat → Run) (side : Nat → Side) : List Act :=
  gradeCases (world items run side) shortCircuit (.ok warning pretested items)

end Verif.Helped
