import Verif.Basic

/-!
# Specification: walking a path component by component
-/

namespace Verif.Path

/-- The non-empty pieces between slashes. -/
def components (s : List Char) : List (List Char) :=
  let rec go (cur : List Char) : List Char → List (List Char)
    | [] => if cur = [] then [] else [cur]
    | c :: r => if c = '/' then (if cur = [] then go [] r else cur :: go [] r) else go (cur ++ [c]) r
  go [] s

/-- One step of a walk; a position is the list of directory names from the root. -/
def stepDir (pos : List (List Char)) (c : List Char) : List (List Char) :=
  if c = ['.'] then pos
  else if c = ['.', '.'] then pos.dropLast
  else pos ++ [c]

/-- Where a walk starting at the root ends. -/
def walk (cs : List (List Char)) : List (List Char) := cs.foldl stepDir []

/-- Rendering of a position. -/
def render (pos : List (List Char)) : List Char :=
  if pos = [] then ['/'] else pos.flatMap fun c => '/' :: c

/-- What the flags of `open(2)` ask for, by bit position (Linux, x86). -/
structure Wants where
  accessMode : Nat      -- 0 read only, 1 write only, 2 read and write, 3 reserved
  create : Bool
  exclusive : Bool
  truncate : Bool
  tmpfile : Bool

/-- Decoding of the flags: bits 0-1 access mode, 6 O_CREAT, 7 O_EXCL, 9 O_TRUNC, 16 and 22
O_TMPFILE. -/
def decodeFlags (f : Nat) : Wants :=
  ⟨f % 4, f.testBit 6, f.testBit 7, f.testBit 9, f.testBit 16 && f.testBit 22⟩

end Verif.Path
