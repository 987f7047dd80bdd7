import Verif.Basic
import Mathlib.Data.Int.Bitwise

/-! # Verdict flags (dmoj/result.py) -/

namespace Verif.Result

/-- dmoj/result.py:7-15. -/
def AC : Nat := 0
/-- result.py:7-15. -/
def WA : Nat := 1 <<< 0
/-- result.py:7-15. -/
def RTE : Nat := 1 <<< 1
/-- result.py:7-15. -/
def TLE : Nat := 1 <<< 2
/-- result.py:7-15. -/
def MLE : Nat := 1 <<< 3
/-- result.py:7-15. -/
def IR : Nat := 1 <<< 4
/-- result.py:7-15. -/
def SC : Nat := 1 <<< 5
/-- result.py:7-15. -/
def OLE : Nat := 1 <<< 6
/-- result.py:7-15. -/
def IE : Nat := 1 <<< 30

/-- `CODE_DISPLAY_ORDER`, dmoj/result.py:27, with `getattr(Result, flag)` resolved. -/
def displayOrder : List (String × Nat) :=
  [("IE", IE), ("TLE", TLE), ("MLE", MLE), ("OLE", OLE), ("RTE", RTE), ("IR", IR), ("WA", WA),
   ("SC", SC)]

/-- Python's truth value of `flag & code` on integers of either sign (two's complement). (result.py:54, 61) -/
def hasCode (flag : Int) (code : Nat) : Bool := decide (Int.land flag (code : Int) ≠ 0)

/-- The loop of `get_main_code`, dmoj/result.py:51-56. -/
def mainLoop (flag : Int) : List (String × Nat) → Nat
  | [] => AC
  | (_, code) :: r => if hasCode flag code then code else mainLoop flag r

/-- `Result.get_main_code`, dmoj/result.py:51-56. -/
def getMainCode (flag : Int) : Nat := mainLoop flag displayOrder

/-- The loop of `readable_codes`, dmoj/result.py:59-62. -/
def readableLoop (flag : Int) : List (String × Nat) → List String
  | [] => []
  | (name, code) :: r =>
    if hasCode flag code then name :: readableLoop flag r else readableLoop flag r

/-- `Result.readable_codes`, dmoj/result.py:58-63 (`or ['AC']`). -/
def readableCodes (flag : Int) : List String :=
  match readableLoop flag displayOrder with
  | [] => ["AC"]
  | l => l

end Verif.Result
