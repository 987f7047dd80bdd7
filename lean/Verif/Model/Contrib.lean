import Verif.Model.Process

/-!
# Helper programs: error reporting and exit-code protocols

dmoj/utils/helper_files.py, dmoj/contrib/{default,testlib,coci,peg}.py.
Points are exact rationals.
-/

namespace Verif.Contrib
open Verif Verif.Process

/-- Causes reported by `parse_helper_file_error`. (helper_files.py:64-83) -/
inductive Cause where
  | timeLimit | memoryLimit | protectionFault | exitCode | signal
deriving DecidableEq, Repr

/-- Exceptions raised by the protocol modules. (contrib/default.py:20-26) -/
inductive HelperErr where
  | helper (c : Cause)           -- InternalError of parse_helper_file_error
  | assertion                    -- testlib IE exit code
  | invalidPartial               -- no / malformed partial points
  | outOfRange                   -- partial points out of range
deriving DecidableEq, Repr

/-- A `CheckerResult` (or the boolean it will be converted to): passed, points, feedback. (contrib/default.py:20-26) -/
inductive Answer where
  | bool (b : Bool)
  | result (passed : Bool) (points : Rat) (feedback : String)
deriving DecidableEq, Repr

/-- `parse_helper_file_error`, dmoj/utils/helper_files.py:64-83: `none` is a plain return. -/
def parseHelperFileError (p : Proc) : Option Cause :=
  if p.isTle then some .timeLimit
  else if p.isMle then some .memoryLimit
  else if p.protectionFault then some .protectionFault
  else if p.returncode ≠ 0 then
    if p.returncode > 0 then some .exitCode else some .signal
  else none

/-- The final `else` branch of the protocols: raise, or fall off the end (Python `None`). (contrib/default.py:20-26) -/
def fallthrough (p : Proc) : Except HelperErr (Option Answer) :=
  match parseHelperFileError p with
  | some c => .error (.helper c)
  | none => .ok none

/-- dmoj/contrib/default.py:20-26. -/
def default (p : Proc) (pointValue : Rat) (feedback : String) : Except HelperErr (Option Answer) :=
  if p.returncode = 0 then .ok (some (.result true pointValue feedback))
  else if p.returncode = 1 then .ok (some (.result false 0 feedback))
  else fallthrough p

/-- ASCII digit. (contrib/testlib.py:17, contrib/coci.py:10) -/
def isDigit (c : Byte) : Bool := decide (48 ≤ c) && decide (c ≤ 57)

/-- `int(b'...')` for a string of ASCII digits. (contrib/testlib.py:17, contrib/coci.py:10) -/
def digitsVal (s : Bytes) : Nat := s.foldl (fun n c => n * 10 + (c.toNat - 48)) 0

/-- Drop a literal prefix. (contrib/testlib.py:17, contrib/coci.py:10) -/
def dropPrefix (pre s : Bytes) : Option Bytes :=
  if pre.isPrefixOf s then some (s.drop pre.length) else none

/-- One line against `points (\d+)` anchored at both ends (dmoj/contrib/testlib.py:17). -/
def matchPoints (line : Bytes) : Option Nat :=
  match dropPrefix (b "points ") line with
  | some d => if d ≠ [] ∧ d.all isDigit then some (digitsVal d) else none
  | none => none

/-- `repartial.search(stderr)` with `re.M`: `^`/`$` match at line boundaries given by `\n` only, and
the pattern cannot match across a `\n`, so the search is the first line that matches.
(contrib/testlib.py:17, contrib/coci.py:10) -/
def searchPoints (stderr : Bytes) : Option Nat :=
  (splitBy (· == 10) stderr).findSome? matchPoints

/-- dmoj/contrib/testlib.py:24-42. -/
def testlib (p : Proc) (pointValue : Rat) (feedback : String) (stderr : Bytes) :
    Except HelperErr (Option Answer) :=
  if p.returncode = 0 then .ok (some (.result true pointValue feedback))
  else if p.returncode = 7 then
    match searchPoints stderr with
    | none => .error .invalidPartial
    | some pts =>
      if ¬ (0 ≤ (pts : Rat) ∧ (pts : Rat) ≤ pointValue) then .error .outOfRange
      else .ok (some (.result true pts feedback))
  else if p.returncode = 1 then .ok (some (.result false 0 feedback))
  else if p.returncode = 2 then
    .ok (some (.result false 0 (if feedback = "" then "Presentation Error" else feedback)))
  else if p.returncode = 3 then .error .assertion
  else fallthrough p

/-- One line against `partial ((\d+)\/(\d*[1-9]\d*))` (dmoj/contrib/coci.py:10). -/
def matchFraction (line : Bytes) : Option (Nat × Nat) :=
  match dropPrefix (b "partial ") line with
  | some d =>
    let num := d.takeWhile isDigit
    match d.dropWhile isDigit with
    | c :: den =>
      if c = 47 ∧ num ≠ [] ∧ den.all isDigit ∧ den.any (fun x => isDigit x && x != 48) then
        some (digitsVal num, digitsVal den)
      else none
    | [] => none
  | none => none

/-- `repartial.search(stderr)` of the coci module. (contrib/testlib.py:17, contrib/coci.py:10) -/
def searchFraction (stderr : Bytes) : Option (Nat × Nat) :=
  (splitBy (· == 10) stderr).findSome? matchFraction

/-- dmoj/contrib/coci.py:17-30; `/` is exact (Python: float division). -/
def coci (p : Proc) (pointValue : Rat) (feedback : String) (stderr : Bytes) :
    Except HelperErr (Option Answer) :=
  if p.returncode = 7 then
    match searchFraction stderr with
    | none => .error .invalidPartial
    | some (n, d) =>
      let percentage : Rat := (n : Rat) / (d : Rat)
      if ¬ (0 ≤ percentage ∧ percentage ≤ 1) then .error .outOfRange
      else .ok (some (.result true (percentage * pointValue) feedback))
  else testlib p pointValue feedback stderr

/-- The loop of dmoj/contrib/peg.py:21-29 over adjacent feedback lines; `parse` is `float(...)`
restricted to finite values (`none` = ValueError). -/
def pegLoop (parse : String → Option Rat) : List String → Option Rat
  | l1 :: l2 :: r =>
    match parse l1, parse l2 with
    | some x, some y =>
      if y = 0 then pegLoop parse (l2 :: r)
      else if x / y > 0 then some (x / y)
      else pegLoop parse (l2 :: r)
    | _, _ => pegLoop parse (l2 :: r)
  | _ => none

/-- dmoj/contrib/peg.py:14-32; `feedbackLines` is `feedback.split('\n')`. -/
def peg (parse : String → Option Rat) (p : Proc) (pointValue : Rat) (feedbackLines : List String) :
    Except HelperErr (Option Answer) :=
  if p.returncode = 0 then .ok (some (.bool true))
  else if p.returncode = 1 then
    match pegLoop parse feedbackLines with
    | some r => .ok (some (.result true (pointValue * r) ""))
    | none => .ok (some (.bool false))
  else fallthrough p

end Verif.Contrib
