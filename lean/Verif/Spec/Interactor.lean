import Verif.Spec.Checkers
import Mathlib.Data.Nat.Digits.Defs

/-!
# What the tokens and integers of a stream are
-/

namespace Verif.Interactor.Spec
open Verif.Spec

/-- `l` is a line: bytes other than newlines, with a newline at the end. -/
def IsLine (l : Bytes) : Prop := ∃ t, l = t ++ [10] ∧ 10 ∉ t

/-- `ls` are the lines of `s`; the last one may lack its newline, but is not empty. -/
def IsLines (ls : List Bytes) (s : Bytes) : Prop :=
  ls.flatten = s ∧ (∀ l ∈ ls.dropLast, IsLine l) ∧ ∀ l ∈ ls.getLast?, IsLine l ∨ l ≠ [] ∧ 10 ∉ l

/-- The tokens got from one line: its words; but a blank line gives an empty token, and the word of a line with
only one comes with the blanks before it. -/
def lineTokens (l : Bytes) : List Bytes :=
  match tokens l with
  | [] => [[]]
  | [_] => [l.rdropWhile isWhite]
  | ws => ws

/-- A decimal digit. -/
def IsDigit (c : Byte) : Prop := ∃ n : Nat, n < 10 ∧ c = UInt8.ofNat (48 + n)

/-- Value of a string of digits. -/
def value (ds : Bytes) : Nat := Nat.ofDigits 10 (ds.reverse.map fun c => c.toNat - 48)

/-- The text of an integer: blanks, a sign or none, groups of digits with single underscores between them,
blanks. -/
def IntText (t : Bytes) (v : Int) : Prop :=
  ∃ (pre sign : Bytes) (groups : List Bytes) (post : Bytes),
    t = pre ++ sign ++ (groups.intersperse [95]).flatten ++ post ∧
    (∀ c ∈ pre, isWhite c = true) ∧ (∀ c ∈ post, isWhite c = true) ∧
    groups ≠ [] ∧ (∀ g ∈ groups, g ≠ [] ∧ ∀ c ∈ g, IsDigit c) ∧
    (sign = [] ∧ v = value groups.flatten ∨ sign = [43] ∧ v = value groups.flatten ∨ sign = [45] ∧ v = -(value groups.flatten : Int))

/-- The UTF-8 encoding of some characters. -/
def IsText (t : Bytes) : Prop := ∃ cs : List Char, t = cs.flatMap String.utf8EncodeChar

end Verif.Interactor.Spec
