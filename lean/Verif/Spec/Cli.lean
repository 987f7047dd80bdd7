import Verif.Basic

/-!
# How a line is typed

Stated without `Model/Cli.lean`: the quoting rules of a POSIX shell, without expansions and comments.
-/

namespace Verif.Cli.Spec

abbrev Str := List Char

/-- Separates words. -/
def Blank (c : Char) : Prop := c = ' ' ∨ c = '\t' ∨ c = '\r' ∨ c = '\n'

/-- Between double quotes: a backslash quotes a double quote or a backslash and stands for itself before anything else. -/
inductive Inside : Str → Str → Prop where
  | nil : Inside [] []
  | char (c : Char) (t v : Str) (h1 : c ≠ '"') (h2 : c ≠ '\\') : Inside t v → Inside (c :: t) (c :: v)
  | quoted (c : Char) (t v : Str) (h : c = '"' ∨ c = '\\') : Inside t v → Inside ('\\' :: c :: t) (c :: v)
  | kept (c : Char) (t v : Str) (h1 : c ≠ '"') (h2 : c ≠ '\\') : Inside t v → Inside ('\\' :: c :: t) ('\\' :: c :: v)

/-- A piece of a word, and what it stands for. -/
inductive Piece : Str → Str → Prop where
  | plain (c : Char) (h1 : ¬ Blank c) (h2 : c ≠ '\'') (h3 : c ≠ '"') (h4 : c ≠ '\\') : Piece [c] [c]
  | escaped (c : Char) : Piece ['\\', c] [c]
  | single (t : Str) (h : '\'' ∉ t) : Piece ('\'' :: (t ++ ['\''])) t
  | double (t v : Str) (h : Inside t v) : Piece ('"' :: (t ++ ['"'])) v

/-- A word: one piece or more. -/
inductive Word : Str → Str → Prop where
  | one (t v : Str) : Piece t v → Word t v
  | more (t v t' v' : Str) : Piece t v → Word t' v' → Word (t ++ t') (v ++ v')

/-- A line and its words. -/
inductive Line : Str → List Str → Prop where
  | nil : Line [] []
  | blank (c : Char) (s : Str) (ws : List Str) : Blank c → Line s ws → Line (c :: s) ws
  | last (t v : Str) : Word t v → Line t [v]
  | word (t v : Str) (c : Char) (s : Str) (ws : List Str) : Word t v → Blank c → Line s ws → Line (t ++ c :: s) (v :: ws)

/-- A word quoted as a user would: between single quotes, each of its own single quotes between double quotes (`shlex.quote` does so where needed). -/
def enquote (w : Str) : Str := '\'' :: (w.flatMap (fun c => if c = '\'' then "'\"'\"'".toList else [c]) ++ ['\''])

/-- Words quoted, with blanks between. -/
def typed : List Str → Str
  | [] => []
  | [w] => enquote w
  | w :: ws => enquote w ++ ' ' :: typed ws

/-- The commands there are. -/
def commandNames : List String := ["problems", "submissions", "submit", "resubmit", "rejudge", "diff", "show", "help", "quit"]

end Verif.Cli.Spec
