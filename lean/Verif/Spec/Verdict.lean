import Verif.Model.Grading

/-! # Specification of verdict codes, resource verdicts and case results -/

namespace Verif.Spec
open Verif Verif.Process Verif.Grading

/-- The eight codes in order of priority, each with its bit in the flag word. -/
def priority : List (String × Nat) :=
  [("IE", 30), ("TLE", 2), ("MLE", 3), ("OLE", 6), ("RTE", 1), ("IR", 4), ("WA", 0), ("SC", 5)]

/-- The names of the codes present in a flag word, most important first. -/
def presentCodes (flag : Int) : List (String × Nat) := priority.filter (fun c => flag.testBit c.2)

/-- A process that did nothing wrong. -/
structure Clean (p : Proc) : Prop where
  exit : p.returncode = 0
  cpu : p.sigxcpu = false
  wall : p.shocked = false
  time : p.timeLimit = 0 ∨ p.execTime ≤ p.timeLimit
  memory : p.memLimit = 0 ∨ p.maxMemory ≤ p.memLimit
  output : p.markedOle = false

/-- A process over one of its time limits. -/
def TimeExceeded (p : Proc) : Prop :=
  p.sigxcpu = true ∨ p.shocked = true ∨ (0 < p.timeLimit ∧ p.timeLimit < p.execTime)

/-- A process over its memory limit. -/
def MemoryExceeded (p : Proc) : Prop := 0 < p.memLimit ∧ p.memLimit < p.maxMemory

/-- The judge's reading of a checker answer: passed or not, and the points, if it is a legal
answer. -/
def verdict (casePoints : Rat) : CheckAns → Option (Bool × Rat)
  | .bool true => some (true, casePoints)
  | .bool false => some (false, 0)
  | .result p pts _ => some (p, pts)
  | .unicodeError => some (false, 0)
  | _ => none

end Verif.Spec
