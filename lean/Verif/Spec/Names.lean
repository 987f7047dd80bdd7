import Verif.Model.Names

/-!
# What a file name says, in a problem setter's words

Nothing here refers to patterns: a name is a text with numbers in it.
-/

namespace Verif.Names.Spec

open Verif.Names (Chars Str)

/-- The facts about Unicode that matter: digits are word characters; a dot is not; a character is the same as itself; the
dot and the letters of `in` and `out` are neither digits nor whitespace; a line break is no digit. -/
structure Sane (u : Chars) : Prop where
  digit_word : ∀ c, u.digit c = true → u.word c = true
  dot : u.word '.' = false
  refl : ∀ c, u.same c c = true
  plain : ∀ c ∈ ['.', 'i', 'n', 'o', 'u', 't'], u.digit c = false ∧ u.space c = false
  newline : u.digit '\n' = false

/-- The same text, ignoring case. -/
inductive Same (u : Chars) : Str → Str → Prop where
  | nil : Same u [] []
  | cons {c x s t} : u.same c x = true → Same u s t → Same u (c :: s) (x :: t)

/-- The name has the marker (`in` or `out`): it begins with it, or has it after a dot, ignoring case. -/
def Marked (u : Chars) (m name : Str) : Prop :=
  (∃ a b, name = a ++ b ∧ Same u m a) ∨ ∃ p a b, name = p ++ a ++ b ∧ Same u ('.' :: m) a

/-- The last number of a name, with what is before and after it. -/
structure Last (u : Chars) (name pre num post : Str) : Prop where
  name : name = pre ++ num ++ post
  nonempty : num ≠ []
  digits : ∀ c ∈ num, u.digit c = true
  whole : ∀ c, pre.getLast? = some c → u.digit c = false
  last : ∀ c ∈ post, u.digit c = false

/-- The text before the last number ends in another number: standing at the beginning or after something that is
neither letter, digit nor underscore, and with no whitespace between the two. -/
def Before (u : Chars) (pre num : Str) : Prop :=
  ∃ q sep, pre = q ++ num ++ sep ∧ num ≠ [] ∧ (∀ c ∈ num, u.digit c = true) ∧
    (∀ c, q.getLast? = some c → u.word c = false) ∧
    sep ≠ [] ∧ ∀ c ∈ sep, u.digit c = false ∧ u.space c = false

/-- The name is that of a test file with this marker: it has the marker and a number, with no whitespace after the last
number. -/
def Taken (u : Chars) (m name : Str) : Prop :=
  Marked u m name ∧ ∃ pre num post, Last u name pre num post ∧ ∀ c ∈ post, u.space c = false

/-- The number of the case: the last one. -/
def CaseNo (u : Chars) (name num : Str) : Prop := ∃ pre post, Last u name pre num post

/-- The number of the batch: the one before. -/
def BatchNo (u : Chars) (name num : Str) : Prop := ∃ pre n post, Last u name pre n post ∧ Before u pre num

/-- The cases of an entry. -/
def filesIn {P : Type} : Problem.Entry P → List Problem.Files
  | .batched cs _ => cs
  | .single f _ => [f]

end Verif.Names.Spec
