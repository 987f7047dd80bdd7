import Verif.Spec.Ansi

/-! # What a terminal shows -/

namespace Verif.Ansi

/-- How a character looks: number of its colour and of that behind it, attributes. -/
structure Look where
  fg : Option Nat := none
  bg : Option Nat := none
  attrs : List Nat := []
deriving DecidableEq, Repr

/-- A parameter of `m` (ECMA-48, select graphic rendition). -/
def Look.sgr (l : Look) (n : Nat) : Look :=
  if n = 0 then {}
  else if n < 10 then { l with attrs := n :: l.attrs }
  else if 30 ≤ n ∧ n < 38 then { l with fg := some (n - 30) }
  else if 40 ≤ n ∧ n < 48 then { l with bg := some (n - 40) }
  else l

/-- What the terminal is reading. -/
inductive Reading where
  | text
  | esc
  | csi (n : Nat)

/-- The characters shown, with their looks. -/
def screen : Reading → Look → List Char → List (Char × Look)
  | _, _, [] => []
  | .text, l, c :: r => if c = escape then screen .esc l r else (c, l) :: screen .text l r
  | .esc, l, c :: r => if c = '[' then screen (.csi 0) l r else screen .text l r
  | .csi n, l, c :: r =>
    if digit c then screen (.csi (n * 10 + (c.toNat - 48))) l r
    else if c = 'm' then screen .text (l.sgr n) r
    else screen .text l r

/-- The characters a terminal shows for a text. -/
def shown (s : List Char) : List Char := (screen .text {} s).map (·.1)

/-- The colours by their numbers. -/
def colours : List String := ["grey", "red", "green", "yellow", "blue", "magenta", "cyan", "white"]

/-- The attributes with their numbers. -/
def attributes : List (String × Nat) := [("bold", 1), ("dark", 2), ("underline", 4), ("blink", 5), ("reverse", 7), ("concealed", 8)]

/-- Names with commas between them. -/
def commas : List (List Char) → List Char
  | [] => []
  | [a] => a
  | a :: l => a ++ ',' :: commas l

/-- The text in parentheses that asks for a colour, one behind it and attributes. -/
def wish (fg bg : Option (Fin 8)) (as : List (String × Nat)) : List Char :=
  (match fg with | some c => colours[c].toList | none => []) ++
    (match bg with | some c => ",on_".toList ++ colours[c].toList | none => []) ++
    (if as = [] then [] else '|' :: commas (as.map (·.1.toList)))

end Verif.Ansi
