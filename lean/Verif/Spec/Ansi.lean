import Verif.Model.Ansi

/-! # Colours: what should happen -/

namespace Verif.Ansi

/-- The feedback cannot be taken for the end of a coloured text. -/
def Harmless (feedback : Str) : Prop := ¬ ∃ a b, feedback = a ++ ']' :: '(' :: b

/-- Numbers have none of the characters that mean something in a coloured text. -/
def Number (s : Str) : Prop := ']' ∉ s

/-- Times and memory in brackets. -/
def Usage (s : Str) : Prop := ∃ n, Number n ∧ s = '[' :: (n ++ [']', ' '])

/-- `ESC` -/
def escape : Char := Char.ofNat 27

/-- A decimal digit. -/
def digit (c : Char) : Bool := '0' ≤ c && c ≤ '9'

/-- What programs that colour their messages write. -/
inductive Piece where
  | text (t : Str)
  /-- `ESC [ p ; ... m`: colours -/
  | sgr (ps : List Str)
  /-- `ESC [ K`: erase to the end of the line -/
  | erase
  /-- `ESC [ n K`: erase a part of the line -/
  | eraseN (n : Str)
deriving DecidableEq, Repr

/-- Parameters separated by `;`. -/
def params' : List Str → Str
  | [] => []
  | [p] => p
  | p :: l => p ++ ';' :: params' l

def Piece.render : Piece → Str
  | .text t => t
  | .sgr ps => escape :: '[' :: params' ps ++ ['m']
  | .erase => [escape, '[', 'K']
  | .eraseN n => escape :: '[' :: n ++ ['K']

def render : List Piece → Str
  | [] => []
  | p :: l => p.render ++ render l

/-- The message without its colours. -/
def plain : List Piece → Str
  | [] => []
  | .text t :: l => t ++ plain l
  | _ :: l => plain l

/-- One or two digits. -/
def Short (p : Str) : Prop := (p.length = 1 ∨ p.length = 2) ∧ ∀ c ∈ p, digit c = true

/-- The colours the expression knows: at most two short parameters, and perhaps a third of three digits. -/
def Known : List Str → Prop
  | [] => True
  | [p] => Short p
  | [p, q] => Short p ∧ Short q
  | [p, q, r] => Short p ∧ Short q ∧ r.length = 3 ∧ ∀ c ∈ r, digit c = true
  | _ => False

/-- The characters after an erase cannot be taken for a part of it. -/
def Stops : Str → Prop
  | [] => True
  | c :: r => ¬ (digit c = true ∨ c = ',' ∨ ('A' ≤ c ∧ c ≤ 'Z')) ∧ c ≠ 'm' ∧ c ≠ '|' ∧ (c = ';' → ∀ d ∈ r.head?, digit d = false)

/-- A message with known colours only, whose erases stop. -/
def Usual : List Piece → Prop
  | [] => True
  | .text t :: l => escape ∉ t ∧ Usual l
  | .sgr ps :: l => Known ps ∧ Usual l
  | .erase :: l => Stops (render l) ∧ Usual l
  | .eraseN n :: l => (Short n ∧ (n.length = 1 → Stops (render l))) ∧ Usual l

/-- What may stand after `ESC [` in a sequence that is removed, by the expression of utils/ansi.py:7: perhaps parameters, perhaps a letter. -/
inductive Code : Str → Prop where
  | bare (l : Str) (hl : l = [] ∨ l ∈ [['m'], ['|'], ['K']]) : Code l
  | params (p q r l : Str) (hp : (p.length = 1 ∨ p.length = 2) ∧ ∀ c ∈ p, digit c = true ∨ c = ',' ∨ ('A' ≤ c ∧ c ≤ 'Z'))
      (hq : q = [] ∨ ∃ n, q = ';' :: n ∧ Short n) (hr : r = [] ∨ ∃ n, r = ';' :: n ∧ n.length = 3 ∧ ∀ c ∈ n, digit c = true)
      (hl : l = [] ∨ l ∈ [['m'], ['|'], ['K']]) : Code (p ++ (q ++ (r ++ l)))

/-- Sequences are taken out, and nothing else. -/
inductive Removed : Str → Str → Prop where
  | nil : Removed [] []
  | keep (c : Char) (s t : Str) (h : c = escape → s.head? ≠ some '[') (hs : Removed s t) : Removed (c :: s) (c :: t)
  | code (p s t : Str) (hp : Code p) (hs : Removed s t) : Removed (escape :: '[' :: (p ++ s)) t

end Verif.Ansi
