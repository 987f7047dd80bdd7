import Verif.Basic

/-!
# What an executor should make of the text of a submission

Stated without `Model/Source.lean`.
-/

namespace Verif.Spec.Source

abbrev Str := List Char

/-! ## The package clause of a Go program (The Go Programming Language Specification: Comments, Tokens, Package clause) -/

/-- What may come before the package clause: white space and comments. A line comment ends with its line; a block comment at the first `*/`.
The first flag: is there a `/*` within a line comment? -/
inductive Lead : Bool → Str → Prop where
  | nil (odd : Bool) : Lead odd []
  | blank {odd : Bool} {s : Str} (c : Char) : c = ' ' ∨ c = '\t' ∨ c = '\r' ∨ c = '\n' → Lead odd s → Lead odd (c :: s)
  | line {odd : Bool} {s : Str} (body : Str) (nl : Str) : (∀ c ∈ body, c ≠ '\n' ∧ c ≠ '\r') → nl = ['\n'] ∨ nl = ['\r', '\n'] →
      (odd = false → ¬ ['/', '*'] <:+: '/' :: body) → Lead odd s → Lead odd ('/' :: '/' :: body ++ nl ++ s)
  | block {odd : Bool} {s : Str} (body : Str) : ¬ ['*', '/'] <:+: body ++ ['*'] → Lead odd s → Lead odd ('/' :: '*' :: body ++ '*' :: '/' :: s)

/-- A letter, a digit or `_`; the others that Go allows are not in ASCII. -/
def Letter (c : Char) : Prop := ('A' ≤ c ∧ c ≤ 'Z') ∨ ('a' ≤ c ∧ c ≤ 'z') ∨ ('0' ≤ c ∧ c ≤ '9') ∨ c = '_'

/-! ## Features of an assembly program -/

/-- `f` is one of the names of a list: it has no separator in it, and one (or nothing) on either side. -/
def Listed (sep : Char → Prop) (l f : Str) : Prop :=
  f ≠ [] ∧ (∀ c ∈ f, ¬ sep c) ∧ ∃ a b, l = a ++ f ++ b ∧ (∀ c ∈ a.getLast?, sep c) ∧ (∀ c ∈ b.head?, sep c)

/-- No line begins with one of the characters that announce features. -/
def Silent (s : Str) : Prop := ∀ a c b, s = a ++ c :: b → (∀ d ∈ a.getLast?, d = '\n') → c ∉ ['#', ';', '@', '|', '!']

/-! ## Line ends -/

/-- The second text is the first with all line ends (`\n`, `\r\n`, or `\r` alone) written as `\n`. -/
inductive LineEnds : Str → Str → Prop where
  | nil : LineEnds [] []
  | char {s t : Str} (c : Char) : c ≠ '\r' → LineEnds s t → LineEnds (c :: s) (c :: t)
  | crlf {s t : Str} : LineEnds s t → LineEnds ('\r' :: '\n' :: s) ('\n' :: t)
  | cr {s t : Str} : s.head? ≠ some '\n' → LineEnds s t → LineEnds ('\r' :: s) ('\n' :: t)

end Verif.Spec.Source
