import Verif.Basic

/-! # Java text as its compiler reads it, and declarations of public classes -/

namespace Verif.Spec.Java

abbrev Str := List Char

/-- One character of a literal: written as itself, or after a backslash. -/
inductive Lit where
  | plain (c : Char)
  | esc (c : Char)
  deriving DecidableEq, Repr

def Lit.text : Lit → Str
  | .plain c => [c]
  | .esc c => ['\\', c]

/-- The pieces of a program: characters of code, comments (a line comment with the end of its line) and literals. -/
inductive Seg where
  | code (c : Char)
  | block (b : Str)
  | line (b : Str) (nl : Char)
  | str (b : List Lit)
  | chr (b : Lit)
  deriving DecidableEq, Repr

def Seg.text : Seg → Str
  | .code c => [c]
  | .block b => '/' :: '*' :: (b ++ ['*', '/'])
  | .line b nl => '/' :: '/' :: (b ++ [nl])
  | .str b => '"' :: (b.flatMap Lit.text ++ ['"'])
  | .chr b => '\'' :: (b.text ++ ['\''])

/-- The program. -/
def text (l : List Seg) : Str := l.flatMap Seg.text

/-- Its code without comments and literals. -/
def Seg.code' : Seg → Str
  | .code c => [c]
  | .line _ nl => [nl]
  | _ => []

def code (l : List Seg) : Str := l.flatMap Seg.code'

/-- Each piece is what it says: comments end where they end, and so on. -/
def Seg.Ok : Seg → Prop
  | .code c => c ≠ '"' ∧ c ≠ '\''
  | .block b => ¬ ['*', '/'] <:+: b ++ ['*']
  | .line b nl => (∀ c ∈ b, c ≠ '\n' ∧ c ≠ '\r') ∧ (nl = '\n' ∨ nl = '\r')
  | .str b => ∀ c, Lit.plain c ∈ b → c ≠ '"' ∧ c ≠ '\\'
  | .chr b => ∀ c, b = .plain c → c ≠ '\'' ∧ c ≠ '\\'

/-- The pieces of text between block comments. -/
def betweenBlocks : Str → List Seg → List Str
  | t, [] => [t]
  | t, .block _ :: l => t :: betweenBlocks [] l
  | t, s :: l => betweenBlocks (t ++ s.text) l

/-- The pieces of code between line comments. -/
def betweenLines : Str → List Seg → List Str
  | t, [] => [t]
  | t, .line _ nl :: l => t :: betweenLines [nl] l
  | t, s :: l => betweenLines (t ++ s.code') l

/-- What the judge needs besides: literals and line comments contain no `/*`, line comments no quotes, and the code has no `//`. -/
structure Clean (l : List Seg) : Prop where
  ok : ∀ s ∈ l, s.Ok
  noBlock : ∀ t ∈ betweenBlocks [] l, ¬ ['/', '*'] <:+: t
  noQuote : ∀ b nl, Seg.line b nl ∈ l → '"' ∉ b ∧ '\'' ∉ b
  noLine : ∀ t ∈ betweenLines [] l, ¬ ['/', '/'] <:+: t ++ ['/']

/-- The orders of modifiers the judge accepts between `public` and `class`. -/
def allowed : List (List Str) :=
  let s := "strictfp".toList
  let a := "abstract".toList
  let f := "final".toList
  [[], [s], [a], [f], [s, a], [s, f], [a, s], [f, s], [s, s], [s, a, s], [s, f, s]]

def White (sp : Char → Bool) (x : Str) : Prop := x ≠ [] ∧ ∀ c ∈ x, sp c = true

/-- The text of a declaration up to the name. -/
def Decl (sp : Char → Bool) (d : Str) : Prop := ∃ (x y : Str) (ms : List (Str × Str)),
  d = "public".toList ++ x ++ (ms.flatMap fun m => m.1 ++ m.2) ++ "class".toList ++ y ∧
    White sp x ∧ White sp y ∧ (∀ m ∈ ms, White sp m.2) ∧ ms.map Prod.fst ∈ allowed

/-- The characters before and after do not belong to a word. -/
def Before (w : Char → Bool) (pre : Str) : Prop := ∀ c, pre.getLast? = some c → w c = false

def After (w : Char → Bool) (post : Str) : Prop := ∀ c, post.head? = some c → w c = false

/-- What is assumed of `\w` and `\s`. -/
structure Classes (w sp : Char → Bool) : Prop where
  letters : ∀ c ∈ "publicstrictfpabstractfinalclasspackage".toList, w c = true
  disjoint : ∀ c, sp c = true → w c = false
  punct : w '/' = false ∧ w '.' = false ∧ w '-' = false ∧ w '$' = false ∧ w ';' = false
  spPunct : sp '$' = false ∧ sp '.' = false ∧ sp ';' = false

end Verif.Spec.Java
