import Verif.Basic
import Mathlib.Logic.Relation

/-!
# Regular expressions: the part of Python's `re` the file system patterns use

`re` is not part of the repository. Here is its documented syntax and meaning for literals, escapes, `.`, `$`, classes
`[...]`, `\d`, `\w`, groups `(?:...)`, negative look-ahead `(?!...)`, alternatives and `*`, `+`, `?` (also lazy).
Other syntax — `^`, capturing groups, `{m,n}`, ranges in classes — is rejected by `step`. A doubled repetition such as
`a**`, an error in Python, is accepted here. `re.escape` is that of Python 3.7 and later.
-/

namespace Verif.Regex

/-- isolate.py:238-256, for `re.compile` and `match`. -/
abbrev Str := List Char

/-- Members of a class. (isolate.py:238-256, for `re.compile` and `match`) -/
inductive Item where
  | one (c : Char)
  | digit
  | word
deriving DecidableEq, Repr

/-- isolate.py:238-256, for `re.compile` and `match`. -/
inductive Re where
  | eps
  | chr (c : Char)
  | any
  | cls (l : List Item)
  | seq (a b : Re)
  | alt (a b : Re)
  | star (a : Re)
  | notAhead (a : Re)
  | eos
deriving DecidableEq, Repr

/-- Unicode's decimal digits and word characters. (isolate.py:238-256, for `re.compile` and `match`) -/
structure Chars where
  digit : Char → Bool
  word : Char → Bool

/-- A character belongs to a class member. (isolate.py:238-256, for `re.compile` and `match`) -/
def Item.has (u : Chars) : Item → Char → Bool
  | .one c, x => c == x
  | .digit, x => u.digit x
  | .word, x => u.word x

/-- `r` matches a prefix of the first text, leaving the second. `$` is the end, also before a final newline.
(isolate.py:238-256, for `re.compile` and `match`) -/
def M (u : Chars) : Re → Str → Str → Prop
  | .eps, s, t => s = t
  | .chr c, s, t => s = c :: t
  | .any, s, t => ∃ c, c ≠ '\n' ∧ s = c :: t
  | .cls l, s, t => ∃ c, l.any (fun i => i.has u c) = true ∧ s = c :: t
  | .seq a b, s, t => ∃ m, M u a s m ∧ M u b m t
  | .alt a b, s, t => M u a s t ∨ M u b s t
  | .star a, s, t => Relation.ReflTransGen (M u a) s t
  | .notAhead a, s, t => s = t ∧ ¬ ∃ t', M u a s t'
  | .eos, s, t => s = t ∧ (s = [] ∨ s = ['\n'])

/-- `re.compile(...).match(text) is not None` (isolate.py:238-256, for `re.compile` and `match`) -/
def Accepts (u : Chars) (r : Re) (text : Str) : Prop := ∃ t, M u r text t

/-! ## Parsing, one character at a time -/

/-- What the next character means. (isolate.py:238-256, for `re.compile` and `match`) -/
inductive Mode where
  | plain
  /-- after a repetition: `?` makes it lazy -/
  | rep
  | esc
  | paren
  | parenQ
  | cls (l : List Item)
  | clsEsc (l : List Item)
deriving DecidableEq, Repr

/-- An open group: whether it is a look-ahead, its finished alternatives, the items of the current one.
(isolate.py:238-256, for `re.compile` and `match`) -/
structure Frame where
  look : Bool := false
  alts : List Re := []
  cur : List Re := []
deriving DecidableEq, Repr

/-- isolate.py:238-256, for `re.compile` and `match`. -/
structure State where
  mode : Mode := .plain
  top : Frame := {}
  rest : List Frame := []
deriving DecidableEq, Repr

/-- isolate.py:238-256, for `re.compile` and `match`. -/
def seqs : List Re → Re
  | [] => .eps
  | a :: l => .seq a (seqs l)

/-- isolate.py:238-256, for `re.compile` and `match`. -/
def altsOf : Re → List Re → Re
  | a, [] => a
  | a, b :: l => .alt a (altsOf b l)

/-- The expression of a frame. (isolate.py:238-256, for `re.compile` and `match`) -/
def Frame.re (f : Frame) : Re :=
  match f.alts ++ [seqs f.cur] with
  | [] => .eps
  | a :: l => altsOf a l

/-- isolate.py:238-256, for `re.compile` and `match`. -/
def Frame.add (f : Frame) (r : Re) : Frame := { f with cur := f.cur ++ [r] }

/-- Add an item. (isolate.py:238-256, for `re.compile` and `match`) -/
def State.add (s : State) (r : Re) : State := { s with mode := .plain, top := s.top.add r }

/-- Repeat the last item. (isolate.py:238-256, for `re.compile` and `match`) -/
def State.repeat (s : State) (f : Re → Re) : Option State :=
  match s.top.cur.getLast? with
  | none => none
  | some a => some { s with mode := .rep, top := { s.top with cur := s.top.cur.dropLast ++ [f a] } }

/-- `)` (isolate.py:238-256, for `re.compile` and `match`) -/
def State.close (s : State) : Option State :=
  match s.rest with
  | [] => none
  | g :: rest => some { mode := .plain, top := g.add (if s.top.look then .notAhead s.top.re else s.top.re), rest := rest }

/-- Characters that a backslash makes literal. (isolate.py:238-256, for `re.compile` and `match`) -/
def escapable : List Char := "()[]{}?*+-|^$\\.&~# \t\n\r\x0b\x0c/".toList

/-- A character outside classes, not after a backslash or an opening parenthesis.
(isolate.py:238-256, for `re.compile` and `match`) -/
def plainStep (s : State) (c : Char) : Option State :=
  match c with
  | '\\' => some { s with mode := .esc }
  | '(' => some { s with mode := .paren }
  | '[' => some { s with mode := .cls [] }
  | ')' => s.close
  | '|' => some { s with mode := .plain, top := { s.top with alts := s.top.alts ++ [seqs s.top.cur], cur := [] } }
  | '.' => some (s.add .any)
  | '$' => some (s.add .eos)
  | '*' => s.repeat .star
  | '+' => s.repeat fun a => .seq a (.star a)
  | '?' => s.repeat fun a => .alt a .eps
  | '^' => none
  | '{' => none
  | c => some (s.add (.chr c))

/-- isolate.py:238-256, for `re.compile` and `match`. -/
def step (s : State) (c : Char) : Option State :=
  match s.mode with
  | .plain => plainStep s c
  | .rep => if c = '?' then some { s with mode := .plain } else plainStep s c
  | .esc =>
    if c = 'd' then some (s.add (.cls [.digit]))
    else if c = 'w' then some (s.add (.cls [.word]))
    else if c ∈ escapable then some (s.add (.chr c))
    else none
  | .paren => if c = '?' then some { s with mode := .parenQ } else none
  | .parenQ =>
    if c = ':' then some { mode := .plain, top := {}, rest := s.top :: s.rest }
    else if c = '!' then some { mode := .plain, top := { look := true }, rest := s.top :: s.rest }
    else none
  | .cls l =>
    if c = ']' then (if l = [] then none else some (s.add (.cls l)))
    else if 2 ≤ l.length ∧ l.getLast? = some (.one '-') then none
    else if c = '\\' then some { s with mode := .clsEsc l }
    else if c = '^' ∧ l = [] then none
    else some { s with mode := .cls (l ++ [.one c]) }
  | .clsEsc l =>
    if c = 'd' then some { s with mode := .cls (l ++ [.digit]) }
    else if c = 'w' then some { s with mode := .cls (l ++ [.word]) }
    else none

/-- The pattern is complete. (isolate.py:238-256, for `re.compile` and `match`) -/
def State.done (s : State) : Option Re :=
  if s.rest = [] ∧ (s.mode = .plain ∨ s.mode = .rep) then some s.top.re else none

/-- `re.compile`; `none`: an error, or syntax not treated. (isolate.py:238-256, for `re.compile` and `match`) -/
def parse (p : Str) : Option Re := (p.foldlM step {}).bind State.done

/-- The characters `re.escape` puts a backslash before. (isolate.py:238-256, for `re.compile` and `match`) -/
def special : List Char := "()[]{}?*+-|^$\\.&~# \t\n\r\x0b\x0c".toList

/-- `re.escape` (isolate.py:238-256, for `re.compile` and `match`) -/
def escape (s : Str) : Str := s.flatMap fun c => if c ∈ special then ['\\', c] else [c]

end Verif.Regex
