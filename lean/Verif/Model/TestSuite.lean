import Verif.Basic

/-!
# The regression suite (dmoj/testsuite.py)

Strings are `String`s, compared only, but for the substring test which is a parameter. Reading the YAML and the
source files is not modelled: a test directory is given as the documents of its `test*.yml`, in the order of
`case_files`. Printing is not modelled, only whether making the text raises; that a text can be coloured is taken for granted (what
happens to feedback for which `ansi_style` raises is in Model/Ansi.lean, C80). The keys of a mapping are distinct.
-/

namespace Verif.TestSuite

/-- A YAML scalar. (testsuite.py:184-224) -/
inductive Scalar where
  | null
  | bool (b : Bool)
  | int (n : Int)
  | float (q : Rat)
  | str (s : String)
deriving DecidableEq

/-- A YAML value where expectations are: a scalar, a list or a mapping (of which only the keys matter there).
(testsuite.py:184-224) -/
inductive Value where
  | scalar (s : Scalar)
  | list (xs : List Scalar)
  | dict (keys : List Scalar)
deriving DecidableEq

/-- The parts of a set in Python, as a list. (testsuite.py:249-274) -/
abbrev PSet (α : Type) := List α

/-- `Tester.all_codes`, testsuite.py:104. -/
def allCodes : PSet String := ["AC", "IE", "TLE", "MLE", "OLE", "RTE", "IR", "WA", "CE", "SC"]

/-- The strings among scalars; `none` if one is not a string. (testsuite.py:249-274) -/
def asStrings (xs : List Scalar) : Option (List String) :=
  xs.mapM fun | .str s => some s | _ => none

/-- `parse_expected_codes`, testsuite.py:249-258; `none` is an exception. -/
def parseCodes (v : Value) : Option (PSet String) :=
  match v with
  | .scalar (.str s) => if s = "*" then some allCodes else if s ∈ allCodes then some [s] else none
  | .scalar _ => none
  | .list xs | .dict xs =>
    match asStrings xs with
    | none => none
    | some ss => if ∀ s ∈ ss, s ∈ allCodes then some ss else none

/-- Truncation towards zero: `int(float)`. (testsuite.py:249-274) -/
def trunc (q : Rat) : Int := Int.tdiv q.num q.den

/-- `int(x)`; `pyInt` is `int(text)`. (testsuite.py:249-274) -/
def toInt (pyInt : String → Option Int) : Scalar → Option Int
  | .null => none
  | .bool b => some b.toInt
  | .int n => some n
  | .float q => some (trunc q)
  | .str s => pyInt s

/-- `parse_points`, testsuite.py:260-266; outer `none` is an exception, inner `none` is `None`. -/
def parsePoints (pyInt : String → Option Int) (v : Value) : Option (Option (PSet Int)) :=
  match v with
  | .scalar .null => some none
  | .scalar (.str s) => if s = "*" then some none else (pyInt s).map fun n => some [n]
  | .scalar (.bool b) => some (some [b.toInt])
  | .scalar (.int n) => some (some [n])
  | .scalar (.float _) => none
  | .list xs | .dict xs => (xs.mapM (toInt pyInt)).map some

/-- `parse_feedback`, testsuite.py:268-274. -/
def parseFeedback (v : Value) : Option (Option (PSet Scalar)) :=
  match v with
  | .scalar .null => some none
  | .scalar (.str s) => if s = "*" then some none else some (some [.str s])
  | .scalar _ => none
  | .list xs | .dict xs => some (some xs)

/-- The expectations by case, as written: a list or a mapping. (testsuite.py:240-247) -/
inductive Cases where
  | list (xs : List Value)
  | dict (xs : List (Scalar × Value))
deriving DecidableEq

/-- `dict(enumerate(cases, 1))` or the items of the mapping: testsuite.py:242-246. -/
def Cases.items : Cases → List (Scalar × Value)
  | .list xs => xs.zipIdx.map fun (v, i) => (.int (i + 1), v)
  | .dict xs => xs

/-- `parse_expect`, testsuite.py:240-247. -/
def parseExpect {α : Type} (all : Value) (cases : Cases) (f : Value → Option α) : Option (α × List (Scalar × α)) :=
  match f all with
  | none => none
  | some a => (cases.items.mapM fun p : Scalar × Value => (f p.2).map fun x => (p.1, x)).map fun cs => (a, cs)

/-- The number equals a key: `True`, `1` and `1.0` are the same key. (testsuite.py:41-66) -/
def isKey (pos : Int) : Scalar → Bool
  | .bool b => decide (b.toInt = pos)
  | .int n => decide (n = pos)
  | .float q => decide (q = (pos : Rat))
  | _ => false

/-- `d[position]` (testsuite.py:41-66) -/
def lookup {α : Type} (pos : Int) (d : List (Scalar × α)) : Option α := (d.find? fun p => isKey pos p.1).map (·.2)

/-- `set_expected`, testsuite.py:26-33. -/
structure Expected where
  codesAll : PSet String
  codesCases : List (Scalar × PSet String)
  pointsAll : Option (PSet Int)
  pointsCases : List (Scalar × Option (PSet Int))
  feedbackAll : Option (PSet Scalar)
  feedbackCases : List (Scalar × Option (PSet Scalar))
deriving DecidableEq

/-- A message of the worker, as far as the manager looks at it. (testsuite.py:18-101) -/
inductive Msg where
  /-- position, first of `readable_codes()`, points, feedback -/
  | case (pos : Int) (code : String) (points : Rat) (feedback : String)
  | compileError
  /-- the worker's exception -/
  | exception (message : String)
  /-- anything else: nothing is done -/
  | other
deriving DecidableEq

/-- `x in set` for a number: an integer equals a float of the same value. (testsuite.py:41-66) -/
def hasPoints (s : PSet Int) (p : Rat) : Bool := s.any fun n => decide ((n : Rat) = p)

/-- `', '.join(set)` raises unless all are strings. (testsuite.py:41-66) -/
def joins (s : PSet Scalar) : Bool := s.all fun | .str _ => true | _ => false

/-- What a packet handler does to `self.failed`: `none` if it raises. (testsuite.py:41-66) -/
abbrev Handled := Option Bool

/-- The check of the code: testsuite.py:42-50. The text is made of strings only, so making it does not raise. -/
def checkCode (e : Expected) (pos : Int) (code : String) (failed : Bool) : Handled :=
  match lookup pos e.codesCases with
  | some s => if code ∉ s then some true else some failed
  | none => if code ∉ e.codesAll then some true else some failed

/-- The check of the points: testsuite.py:52-60. `in None` raises; the text of line 56 joins numbers, which raises. -/
def checkPoints (e : Expected) (pos : Int) (points : Rat) (failed : Bool) : Handled :=
  match lookup pos e.pointsCases with
  | some none => none
  | some (some s) => if !hasPoints s points then (if s = [] then some true else none) else some failed
  | none =>
    match e.pointsAll with
    | none => some failed
    | some s => if !hasPoints s points then some true else some failed

/-- The check of the feedback: testsuite.py:62-66. -/
def checkFeedback (e : Expected) (pos : Int) (feedback : String) (failed : Bool) : Handled :=
  match (lookup pos e.feedbackCases).getD e.feedbackAll with
  | none => some failed
  | some s => if .str feedback ∉ s then (if joins s then some true else none) else some failed

/-- `test_case_status_packet`, testsuite.py:41-66. The flag is kept if a later check raises: given as a pair. -/
def casePacket (e : Expected) (pos : Int) (code : String) (points : Rat) (feedback : String) (failed : Bool) : Bool × Bool :=
  match checkCode e pos code failed with
  | none => (failed, false)
  | some f1 =>
    match checkPoints e pos points f1 with
    | none => (f1, false)
    | some f2 =>
      match checkFeedback e pos feedback f2 with
      | none => (f2, false)
      | some f3 => (f3, true)

/-- `feedback in message` for every feedback until one is found: `none` if one is not a string. (A set is gone
through in an order of its own; here it is that of the list.) (testsuite.py:75-79) -/
def anyIn (contains : String → String → Bool) (message : String) : List Scalar → Option Bool
  | [] => some false
  | .str s :: r => if contains s message then some true else anyIn contains message r
  | _ :: _ => none

/-- `allow_feedback`, testsuite.py:77; `none` if it raises. `contains a b` is `a in b`. -/
def allowFeedback (contains : String → String → Bool) (e : Expected) (message : String) : Option Bool :=
  match e.feedbackAll with
  | none => some true
  | some s => if s = [] then some true else anyIn contains message s

/-- `internal_error_packet`, testsuite.py:75-79, inside the `try` of `Judge.log_internal_error`
(dmoj/judge.py:290-296) which swallows what it raises. -/
def internalPacket (contains : String → String → Bool) (e : Expected) (message : String) (failed : Bool) : Bool :=
  match allowFeedback contains e message with
  | none => failed
  | some a => if "IE" ∉ e.codesAll || !a then true else failed

/-- The grading thread over the messages of the worker (dmoj/judge.py:143-191): a handler that raises ends it with an
internal error, whose text is `trace`; `ending` is the text of the exception that ended the communication with the
worker, if one did. -/
def grade (contains : String → String → Bool) (trace : String) (e : Expected) : List Msg → Option String → Bool → Bool
  | [], none, failed => failed
  | [], some t, failed => internalPacket contains e t failed
  | .case pos code points feedback :: ms, ending, failed =>
    match casePacket e pos code points feedback failed with
    | (f, true) => grade contains trace e ms ending f
    | (f, false) => internalPacket contains e trace f
  | .compileError :: ms, ending, failed => grade contains trace e ms ending (if "CE" ∉ e.codesAll then true else failed)
  | .exception m :: ms, ending, failed => grade contains trace e ms ending (internalPacket contains e m failed)
  | .other :: ms, ending, failed => grade contains trace e ms ending failed

/-- A document `test*.yml`, by key; `none` for a key it lacks. (testsuite.py:184-224) -/
structure Doc where
  skip : Option Bool := none
  language : Option String := none
  time : Option Rat := none
  memory : Option Int := none
  /-- the sources as read; an unreadable one is `none` -/
  source : Option (List (Option String)) := none
  expect : Option Value := none
  cases : Option Cases := none
  points : Option Value := none
  pointsCases : Option Cases := none
  feedback : Option Value := none
  feedbackCases : Option Cases := none
  /-- there is a key that nothing looks at -/
  extra : Option Unit := none
deriving DecidableEq

/-- `config.update(doc)` (testsuite.py:184-224) -/
def Doc.update (a b : Doc) : Doc where
  skip := b.skip <|> a.skip
  language := b.language <|> a.language
  time := b.time <|> a.time
  memory := b.memory <|> a.memory
  source := b.source <|> a.source
  expect := b.expect <|> a.expect
  cases := b.cases <|> a.cases
  points := b.points <|> a.points
  pointsCases := b.pointsCases <|> a.pointsCases
  feedback := b.feedback <|> a.feedback
  feedbackCases := b.feedbackCases <|> a.feedbackCases
  extra := b.extra <|> a.extra

/-- What the worker does with a source: its messages and how the communication ended. (testsuite.py:184-224) -/
abbrev Work := String → String → String → Rat → Int → List Msg × Option String

/-- The outside world of the suite. (testsuite.py:184-224) -/
structure World where
  pyInt : String → Option Int
  contains : String → String → Bool
  trace : String
  executors : List String
  /-- problem, language, source, time, memory -/
  work : Work

/-- The expectations of a configuration: testsuite.py:215-223. -/
def expected (w : World) (c : Doc) : Option Expected :=
  match parseExpect (c.expect.getD (.scalar (.str "AC"))) (c.cases.getD (.dict [])) parseCodes with
  | none => none
  | some (a1, c1) =>
    match parseExpect (c.points.getD (.scalar .null)) (c.pointsCases.getD (.dict [])) (parsePoints w.pyInt) with
    | none => none
    | some (a2, c2) =>
      match parseExpect (c.feedback.getD (.scalar .null)) (c.feedbackCases.getD (.dict [])) parseFeedback with
      | none => none
      | some (a3, c3) => some ⟨a1, c1, a2, c2, a3, c3⟩

/-- The loop over the sources: testsuite.py:228-237. -/
def gradeSources (w : World) (problem language : String) (time : Rat) (memory : Int) (e : Expected) : List String → Nat
  | [] => 0
  | s :: ss =>
    let r := w.work problem language s time memory
    (grade w.contains w.trace e r.1 r.2 false).toNat + gradeSources w problem language time memory e ss

/-- `run_test_case`, testsuite.py:184-238; `none` is an exception. An empty document (`None`) makes `update` raise,
and is given as `none`. -/
def runTestCase (w : World) (problem : String) (docs : List (Option Doc)) : Option Nat :=
  match docs.mapM id with
  | none => none
  | some ds =>
    let c := ds.foldl Doc.update {}
    if c = {} then some 0
    else if c.skip = some true then some 0
    else
      match c.language with
      | none => none
      | some l =>
        if l ∉ w.executors then some 0
        else
          match c.time, c.memory, c.source with
          | some t, some m, some src =>
            match src.mapM id with
            | none => none
            | some ss =>
              match expected w c with
              | none => none
              | some e => some (gradeSources w problem l t m e ss)
          | _, _, _ => none

/-- `test_problem`, testsuite.py:152-182: over the test directories chosen. -/
def testProblem (w : World) (problem : String) : List (List (Option Doc)) → Nat
  | [] => 0
  | d :: ds =>
    (match runTestCase w problem d with
      | none => 1
      | some n => n) + testProblem w problem ds

/-- `test_all`, testsuite.py:130-150: problems that have tests and match. -/
def testAll (w : World) : List (String × List (List (Option Doc))) → Nat
  | [] => 0
  | p :: ps => testProblem w p.1 p.2 + testAll w ps

/-- The exit status: testsuite.py:295. -/
def exitStatus (w : World) (ps : List (String × List (List (Option Doc)))) : Nat := if testAll w ps ≠ 0 then 1 else 0

end Verif.TestSuite
