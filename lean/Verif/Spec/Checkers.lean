import Verif.Basic
import Mathlib.Data.List.DropRight

/-!
# Specification vocabulary for the checkers

Written with list library functions only (`List.splitOnP`), independent of the model.
-/

namespace Verif.Spec
open Verif

/-- The lines of an output: `\r` and `\n` both end a line. -/
def lines (s : Bytes) : List Bytes := s.splitOnP isLine

/-- Non-empty lines. -/
def neLines (s : Bytes) : List Bytes := (lines s).filter (fun l => l ≠ [])

/-- The whitespace separated tokens of a byte string. -/
def tokens (s : Bytes) : List Bytes := (s.splitOnP isWhite).filter (fun t => t ≠ [])

/-- The non-blank lines of an output, each as its list of tokens. -/
def tokenLines (s : Bytes) : List (List Bytes) := ((lines s).map tokens).filter (fun l => l ≠ [])

/-- Remove trailing whitespace. -/
def trimRight (s : Bytes) : Bytes := s.rdropWhile isWhite

/-- Remove leading and trailing whitespace. -/
def trim (s : Bytes) : Bytes := (s.dropWhile isWhite).rdropWhile isWhite

/-- ASCII lower-casing, via the character table of Lean. -/
def asciiLower (c : Byte) : Byte :=
  if c.toNat < 128 then UInt8.ofNat (Char.ofNat c.toNat).toLower.toNat else c

/-- The significant bytes of an output for the `easy` checker. -/
def significant (s : Bytes) : Bytes := (s.filter (fun c => !isWhite c)).map asciiLower

end Verif.Spec
