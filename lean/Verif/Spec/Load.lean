import Verif.Model.Load

/-!
# What an `init.yml` says
-/

namespace Verif.Load.Spec

open Verif.Load (Y World Archive Yaml)

/-- The document of the problem is this dictionary. -/
def Document (w : World) (l : List (String × Y)) : Prop := w.root = true ∧ w.init = some (.doc (.map l)) ∧ l ≠ []

/-- The document has this setting. -/
def Says (l : List (String × Y)) (k : String) (v : Y) : Prop := l.lookup k = some v

/-- It has not. -/
def Silent (l : List (String × Y)) (k : String) : Prop := l.lookup k = none

/-- No test cases are mentioned. -/
def NoCases (l : List (String × Y)) : Prop := Silent l "test_cases" ∧ Silent l "test-cases"

/-- The archive is a zip file with these members. -/
def HasArchive (w : World) (l : List (String × Y)) (names : List String) : Prop :=
  ∃ s, s ≠ "" ∧ Says l "archive" (.str s) ∧ w.archive s = .zip names

/-- A value that counts as none. -/
inductive Nothing : Y → Prop
  | null : Nothing .null
  | false : Nothing (.bool false)
  | zero : Nothing (.num 0)
  | text : Nothing (.str "")
  | list : Nothing (.list [])
  | map : Nothing (.map [])

/-- A value that can be a key of a dictionary. -/
inductive Key : Y → Prop
  | null : Key .null
  | bool (b : Bool) : Key (.bool b)
  | num (n : Int) : Key (.num n)
  | str (s : String) : Key (.str s)

/-- An element of a list that counts as a pair of a key and a value: two elements of which the first can be a key, two keys, two letters. -/
inductive PairLike : Y → Prop
  | list (k v : Y) : Key k → PairLike (.list [k, v])
  | keys (a b : String × Y) : PairLike (.map [a, b])
  | letters (s : String) (a b : Char) : s.toList = [a, b] → PairLike (.str s)

/-- A setting of the search: in `test_cases`, or else beside it. -/
def Effective (l m : List (String × Y)) (k : String) (v : Y) : Prop := Says m k v ∨ Silent m k ∧ Says l k v

/-- There is no such setting. -/
def Nowhere (l m : List (String × Y)) (k : String) : Prop := Silent m k ∧ Silent l k

/-- The settings are of the kinds they are meant to be. -/
structure Proper (w : World) (l : List (String × Y)) : Prop where
  archive : Silent l "archive" ∨ ∃ s, Says l "archive" (.str s) ∧ w.archive s ≠ .unreadable
  cases : NoCases l ∨ (∃ cs, Says l "test_cases" (.list cs)) ∨ ∃ m, Says l "test_cases" (.map m) ∧
    (∀ k, k = "input_format" ∨ k = "output_format" → Silent m k ∧ Silent l k ∨ ∃ s p, Says m k (.str s) ∧ w.compile s = some p) ∧
    (Silent m "case_points" ∧ Silent l "case_points" ∨ ∃ ps, Says m "case_points" (.list ps))

end Verif.Load.Spec
