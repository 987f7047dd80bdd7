import Verif.Model.Result

/-!
# Test-case resolution and the grading loop of the worker

dmoj/graders/base.py:32-52, dmoj/problem.py:210-219 and dmoj/judge.py:437-507.
-/

namespace Verif.Worker
open Verif Verif.Result

/-! ## Resolving the configuration into cases -/

/-- A `test_cases` entry of the configuration: a case with its point value, or an entry with a
`batched` key. (graders/base.py:32-52) -/
inductive Cfg where
  | case (points : Rat)
  | batch (entries : List Cfg)

/-- A resolved `TestCase` (dmoj/problem.py:222-232): position, batch number, points. -/
structure TestCase where
  position : Nat
  batch : Nat
  points : Rat
deriving DecidableEq, Repr

/-- An element of `grader.cases()`: a `TestCase` or a `BatchedTestCase` holding cases. (problem.py:210-233) -/
inductive Item where
  | one (c : TestCase)
  | batch (no : Nat) (cases : List TestCase)
deriving DecidableEq, Repr

/-- `_batch_counter`, `_testcase_counter` (dmoj/graders/base.py:15-16). -/
structure Counters where
  batches : Nat
  cases : Nat
deriving DecidableEq, Repr

/-- `InvalidInitException('nested batches')`. (problem.py:210-233) -/
inductive InitErr where
  | nestedBatches
deriving DecidableEq, Repr

/-- The members of a new `BatchedTestCase`, dmoj/problem.py:215-217: raises if one of them is itself
a `BatchedTestCase`. -/
def batchMembers : List Item → Except InitErr (List TestCase)
  | [] => .ok []
  | .one c :: r =>
    match batchMembers r with
    | .ok l => .ok (c :: l)
    | .error e => .error e
  | .batch _ _ :: _ => .error .nestedBatches

mutual
/-- One iteration of the loop of `_resolve_testcases`, dmoj/graders/base.py:34-47. -/
def resolveOne (batchNo : Nat) (s : Counters) : Cfg → Except InitErr (Item × Counters)
  | .case pts => .ok (.one ⟨s.cases, batchNo, pts⟩, { s with cases := s.cases + 1 })
  | .batch entries =>
    let k := s.batches + 1
    match resolve k { s with batches := k } entries with
    | .error e => .error e
    | .ok (items, s') =>
      match batchMembers items with
      | .error e => .error e
      | .ok cases => .ok (.batch k cases, s')

/-- `_resolve_testcases`, dmoj/graders/base.py:32-48.  (`self._batch_counter` is re-read for the
`BatchedTestCase` and the recursive call before anything else can change it.) -/
def resolve (batchNo : Nat) (s : Counters) : List Cfg → Except InitErr (List Item × Counters)
  | [] => .ok ([], s)
  | c :: r =>
    match resolveOne batchNo s c with
    | .error e => .error e
    | .ok (i, s1) =>
      match resolve batchNo s1 r with
      | .error e => .error e
      | .ok (is, s2) => .ok (i :: is, s2)
end

/-- `BaseGrader.__init__` and `cases()`, dmoj/graders/base.py:12,50-52: which configuration is
graded.  `pretest` is `some` exactly if the key `pretest_test_cases` is present. -/
def isPretested (pretestsOnly : Bool) (pretest : Option (List Cfg)) : Bool :=
  pretestsOnly && pretest.isSome

/-- `cases()` of a fresh grader. (graders/base.py:32-52) -/
def cases (pretestsOnly : Bool) (pretest : Option (List Cfg)) (test : List Cfg) :
    Except InitErr (List Item) :=
  let cfg := match isPretested pretestsOnly pretest, pretest with
    | true, some p => p
    | _, _ => test
  match resolve 0 ⟨0, 0⟩ cfg with
  | .error e => .error e
  | .ok (is, _) => .ok is

/-! ## The grading loop -/

/-- The part of a `Result` that the loop looks at. (result.py:29-49) -/
structure Res where
  flag : Nat
  points : Rat
deriving DecidableEq, Repr

/-- IPC messages of the worker (dmoj/judge.py:39-52), without HELLO/BYE. -/
inductive Event where
  | compileError
  | compileMessage
  | gradingBegin (pretested : Bool)
  | batchBegin (n : Nat)
  | batchEnd (n : Nat)
  | result (batch : Option Nat) (caseNo : Nat) (r : Res)
  | gradingEnd
  | gradingAborted
deriving DecidableEq, Repr

/-- What the worker does, in order: call `grader.grade` on the n-th case, or yield a message. (judge.py:437-507) -/
inductive Act where
  | exec (caseNo : Nat)
  | send (e : Event)
deriving DecidableEq, Repr

/-- The outside world of one grading: what grading the n-th case returns (`none`: it raises), and
whether an abort has been requested by the time it returns. (judge.py:437-507) -/
structure World where
  grade : Nat → Option Res
  aborted : Nat → Bool

/-- The flattening loop, dmoj/judge.py:457-465. -/
def flatten : Nat → List Item → List (Option Nat × TestCase)
  | _, [] => []
  | n, .one c :: r => (none, c) :: flatten n r
  | n, .batch _ cs :: r => cs.map (fun c => (some (n + 1), c)) ++ flatten (n + 1) r

/-- `itertools.groupby(..., key=itemgetter(0))`. (judge.py:437-507) -/
def groupBy : List (Option Nat × TestCase) → List (Option Nat × List TestCase)
  | [] => []
  | (k, c) :: r =>
    match groupBy r with
    | [] => [(k, [c])]
    | (k', cs) :: gs => if k = k' then (k, c :: cs) :: gs else (k, [c]) :: (k', cs) :: gs

/-- Loop state: everything done so far, `case_number`, `is_short_circuiting`,
`is_short_circuiting_enabled`. (judge.py:437-507) -/
structure St where
  acts : List Act
  caseNo : Nat
  sc : Bool
  enabled : Bool

/-- How a loop ends: normally, or the generator has returned / raised. (judge.py:437-507) -/
inductive Ctl where
  | next (s : St)
  | stop (acts : List Act)

/-- `if batch_number` with `batch_number : Optional[int]`: truthiness. (judge.py:437-507) -/
def truthy : Option Nat → Bool
  | none => false
  | some n => n != 0

/-- The inner loop, dmoj/judge.py:474-501. -/
def caseLoop (w : World) (bn : Option Nat) : List TestCase → St → Ctl
  | [], s => .next s
  | c :: cs, s =>
    let n := s.caseNo + 1
    if s.sc then
      caseLoop w bn cs
        { s with acts := s.acts ++ [.send (.result bn n ⟨SC, 0⟩)], caseNo := n }
    else
      match w.grade n with
      | none => .stop (s.acts ++ [.exec n])
      | some r =>
        if w.aborted n then .stop (s.acts ++ [.exec n, .send .gradingAborted])
        else
          let wa := decide (r.flag &&& WA ≠ 0)
          let enabled := if wa then s.enabled || decide (c.points = 0) else s.enabled
          let sc := if wa then s.sc || (bn.isSome || enabled) else s.sc
          caseLoop w bn cs
            { acts := s.acts ++ [.exec n, .send (.result bn n r)], caseNo := n, sc := sc,
              enabled := enabled }

/-- The outer loop, dmoj/judge.py:470-505. -/
def groupLoop (w : World) : List (Option Nat × List TestCase) → St → Ctl
  | [], s => .next s
  | (bn, cs) :: gs, s =>
    let s1 := if truthy bn then { s with acts := s.acts ++ [.send (.batchBegin (bn.getD 0))] } else s
    match caseLoop w bn cs s1 with
    | .stop a => .stop a
    | .next s2 =>
      let s3 := if truthy bn then
          { s2 with acts := s2.acts ++ [.send (.batchEnd (bn.getD 0))], sc := s2.sc && s2.enabled }
        else s2
      groupLoop w gs s3

/-- The result of building the grader (dmoj/judge.py:442-452). -/
inductive Build where
  | compileError
  | ok (warning : Bool) (pretested : Bool) (items : List Item)

/-- `_grade_cases`, dmoj/judge.py:437-507: everything done, in order.  Exceptions of `problem`,
`grader_class` other than CompileError and of `grader.cases()` are not part of this function (they
end the stream early). -/
def gradeCases (w : World) (shortCircuit : Bool) : Build → List Act
  | .compileError => [.send .compileError]
  | .ok warning pretested items =>
    let acts := (if warning then [.send .compileMessage] else []) ++ [.send (.gradingBegin pretested)]
    match groupLoop w (groupBy (flatten 0 items)) ⟨acts, 0, false, shortCircuit⟩ with
    | .stop a => a
    | .next s => s.acts ++ [.send .gradingEnd]

end Verif.Worker
