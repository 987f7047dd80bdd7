import Verif.Spec.Cli
import Verif.Model.Args

/-!
# Format strings of helper programs

A format string is a line as typed at a shell, in which the names of the files may stand where a word or a part of one does, outside quotes. Only the names of
the three fields are taken from the model.
-/

namespace Verif.Args.Spec
open Verif.Cli.Spec

/-- A piece of a word of a format string, and what it stands for. -/
inductive FPiece (file : Field → Str) : Str → Str → Prop where
  | lit (t v : Str) (h : Piece t v) (h1 : '{' ∉ t) (h2 : '}' ∉ t) : FPiece file t v
  | brace (c : Char) (h : c = '{' ∨ c = '}') : FPiece file [c, c] [c]
  | file (f : Field) : FPiece file ('{' :: (f.name ++ ['}'])) (file f)

/-- A word. -/
inductive FWord (file : Field → Str) : Str → Str → Prop where
  | one (t v : Str) : FPiece file t v → FWord file t v
  | more (t v t' v' : Str) : FPiece file t v → FWord file t' v' → FWord file (t ++ t') (v ++ v')

/-- A format string and its words. -/
inductive FLine (file : Field → Str) : Str → List Str → Prop where
  | nil : FLine file [] []
  | blank (c : Char) (s : Str) (ws : List Str) : Blank c → FLine file s ws → FLine file (c :: s) ws
  | last (t v : Str) : FWord file t v → FLine file t [v]
  | word (t v : Str) (c : Char) (s : Str) (ws : List Str) : FWord file t v → Blank c → FLine file s ws → FLine file (t ++ c :: s) (v :: ws)

/-- A format string with the fields replaced: braces are doubled or around the name of a field. -/
inductive Renders (q : Field → Str) : Str → Str → Prop where
  | nil : Renders q [] []
  | char (c : Char) (s t : Str) (h1 : c ≠ '{') (h2 : c ≠ '}') : Renders q s t → Renders q (c :: s) (c :: t)
  | brace (c : Char) (s t : Str) (h : c = '{' ∨ c = '}') : Renders q s t → Renders q (c :: c :: s) (c :: t)
  | file (f : Field) (s t : Str) : Renders q s t → Renders q ('{' :: (f.name ++ '}' :: s)) (q f ++ t)

/-- The kinds of helper programs there are. -/
def kindNames : List Str := ["default", "testlib", "coci", "peg"].map String.toList

/-- The words are files with these contents, one by one. -/
inductive Reads (files : List (Str × Bytes)) : List Str → List Bytes → Prop where
  | nil : Reads files [] []
  | cons (a : Str) (b : Bytes) (as : List Str) (bs : List Bytes) : (∀ b', (a, b') ∈ files ↔ b' = b) → Reads files as bs → Reads files (a :: as) (b :: bs)

end Verif.Args.Spec
