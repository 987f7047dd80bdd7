import Verif.Model.Result

/-!
# Colours in the log and in internal errors: dmoj/utils/ansi.py, dmoj/judge.py:140-187, 202-222, 276-297

`colored` is that of `termcolor` (1.1.0; later ones behave the same when colours are on): an unknown colour or attribute is a `KeyError`, more than two
colours a `TypeError`. Characters are Unicode scalar values. Numbers are given as the texts `%` makes of them.
-/

namespace Verif.Ansi

/-- utils/ansi.py:11. -/
abbrev Str := List Char

/-- The text after a fixed word. (utils/ansi.py:22-24) -/
def word (p s : Str) : Option Str := if p.isPrefixOf s then some (s.drop p.length) else none

/-- `(.*?)` followed by what `k` matches: as few characters as possible, none of them a newline.
(utils/ansi.py:22-24) -/
def lazily {α : Type} (k : Str → Option α) : Str → Option (Str × α)
  | [] => (k []).map fun a => ([], a)
  | c :: r =>
    match k (c :: r) with
    | some a => some ([], a)
    | none => if c = '\n' then none else (lazily k r).map fun x => (c :: x.1, x.2)

/-- `#ansi\[(.*?)\]\((.*?)\)` at the beginning of a text, ansi.py:23: the groups and the rest. -/
def tag (s : Str) : Option (Str × Str × Str) :=
  match word "#ansi[".toList s with
  | none => none
  | some s =>
    match lazily (fun s => match word "](".toList s with
      | none => none
      | some s => lazily (word ")".toList) s) s with
    | none => none
    | some (a, b, r) => some (a, b, r)

/-- The names `termcolor` knows, with their codes. (utils/ansi.py:20) -/
def colour (s : Str) : Option Nat :=
  (["grey", "red", "green", "yellow", "blue", "magenta", "cyan", "white"].map String.toList).idxOf? s |>.map (30 + ·)
/-- utils/ansi.py:20. -/
def highlight (s : Str) : Option Nat :=
  (["on_grey", "on_red", "on_green", "on_yellow", "on_blue", "on_magenta", "on_cyan", "on_white"].map String.toList).idxOf? s |>.map (40 + ·)
/-- utils/ansi.py:20. -/
def attrCode (s : Str) : Option Nat :=
  ([("bold".toList, 1), ("dark".toList, 2), ("underline".toList, 4), ("blink".toList, 5), ("reverse".toList, 7), ("concealed".toList, 8)] : List (Str × Nat)).lookup s

/-- `'\033[%dm%s' % (code, text)` (utils/ansi.py:20) -/
def paint (code : Nat) (text : Str) : Str := "\x1b[".toList ++ (toString code).toList ++ 'm' :: text

/-- `termcolor.colored(text, *colors, attrs=attrs)` with `colors[0]` `None` if empty; `none` is an exception.
(utils/ansi.py:20) -/
def colored (text : Str) (colors attrs : List Str) : Option Str :=
  let first : Option Str :=
    match colors with
    | [] => some text
    | [c] => if c.isEmpty then some text else (colour c).map (paint · text)
    | [c, h] => do
      let t ← if c.isEmpty then some text else (colour c).map (paint · text)
      (highlight h).map (paint · t)
    | _ => none
  let rec go : List Str → Str → Option Str
    | [], t => some (t ++ "\x1b[0m".toList)
    | a :: l, t => (attrCode a).bind fun k => go l (paint k t)
  first.bind (go attrs)

/-- `s.split(c)` (utils/ansi.py:15-19) -/
def splitOn (c : Char) : Str → List Str
  | [] => [[]]
  | x :: r => if x = c then [] :: splitOn c r else
    match splitOn c r with
    | [] => [[x]]
    | h :: t => (x :: h) :: t

/-- `format_inline`, ansi.py:14-20. -/
def inline (text spec : Str) : Option Str :=
  match splitOn '|' spec with
  | [] => none
  | [c] => colored text (splitOn ',' c) []
  | c :: a :: _ => colored text (splitOn ',' c) (splitOn ',' a)

theorem lazily_le {α : Type} (k : Str → Option α) (f : α → Nat) (hk : ∀ s a, k s = some a → f a ≤ s.length) (s : Str) (x : Str × α)
    (h : lazily k s = some x) : f x.2 ≤ s.length := by
  induction s generalizing x with
  | nil =>
    simp only [lazily, Option.map_eq_some_iff] at h
    obtain ⟨a, h1, rfl⟩ := h
    exact hk _ _ h1
  | cons c r ih =>
    simp only [lazily] at h
    split at h
    · next a h1 => cases h; exact hk _ _ h1
    · split at h
      · cases h
      · simp only [Option.map_eq_some_iff] at h
        obtain ⟨y, h1, rfl⟩ := h
        exact Nat.le_trans (ih y h1) (Nat.le_succ _)

theorem word_le (p s r : Str) (h : word p s = some r) : r.length + p.length ≤ s.length := by
  unfold word at h
  split at h
  · next hp =>
    cases h
    have := (List.isPrefixOf_iff_prefix.1 hp).length_le
    simp; omega
  · cases h

theorem tag_lt (s a b r : Str) (h : tag s = some (a, b, r)) : r.length < s.length := by
  unfold tag at h
  split at h
  · cases h
  · next s1 h1 =>
    have h1 := word_le _ _ _ h1
    split at h
    · cases h
    · next a' b' r' h2 =>
      cases h
      have := lazily_le _ (fun (y : Str × Str) => y.2.length) (by
        intro s y hy
        split at hy
        · cases hy
        · next s2 h3 =>
          have h3 := word_le _ _ _ h3
          have := lazily_le _ List.length (fun s a ha => by have := word_le _ _ _ ha; omega) _ _ hy
          omega) _ _ h2
      simp at h1 this; omega

/-- `ansi_style`, ansi.py:11-24; `none` is an exception. -/
def style (noAnsi : Bool) (s : Str) : Option Str :=
  match s with
  | [] => some []
  | c :: s' =>
    match _h : tag (c :: s') with
    | none => (style noAnsi s').map (c :: ·)
    | some (a, b, r) =>
      match if noAnsi then some a else inline a b with
      | none => none
      | some t => (style noAnsi r).map (t ++ ·)
  termination_by s.length
  decreasing_by
    · simp
    · exact tag_lt _ _ _ _ _h

/-- A result as `_ipc_result` sees it, with the texts of its number, times and memory. (judge.py:202-222) -/
structure Res where
  batch : Bool := false
  /-- `'%2d'` -/
  number : Str := " 1".toList
  flag : Int
  feedback : Str := []
  /-- `'[%.3fs (%.3fs) | %dkb] '` -/
  usage : Str := "[0.010s (0.010s) | 1024kb] ".toList
deriving DecidableEq, Repr

/-- `COLORS_BYID`, result.py:17-27. -/
def byId : List (Str × Str) :=
  [("AC", "green"), ("WA", "red"), ("RTE", "yellow"), ("TLE", "white"), ("MLE", "yellow"), ("IR", "yellow"), ("SC", "magenta"),
   ("OLE", "yellow"), ("IE", "red")].map fun p => (p.1.toList, p.2.toList)

/-- `'#ansi[%s](%s|bold)' % ('--' if x == 'SC' else x, Result.COLORS_BYID[x])`, judge.py:206; `none` is a `KeyError`. -/
def codeTag (x : Str) : Option Str :=
  (byId.lookup x).map fun c =>
    "#ansi[".toList ++ (if x = "SC".toList then "--".toList else x) ++ "](".toList ++ c ++ "|bold)".toList

/-- `', '.join` (judge.py:202-222) -/
def join : List Str → Str
  | [] => []
  | [a] => a
  | a :: l => a ++ ", ".toList ++ join l

/-- The line of `_ipc_result` before `ansi_style`, judge.py:202-220. -/
def line (r : Res) : Option Str :=
  match (Result.readableCodes r.flag).mapM fun x => codeTag x.toList with
  | none => none
  | some [] => none
  | some (first :: others) =>
    let aux := if others.isEmpty then [] else '{' :: join others ++ "}".toList
    let fb := if r.feedback.isEmpty then [] else "(#ansi[".toList ++ r.feedback ++ "](|underline)) ".toList
    let info := if Result.hasCode r.flag Result.SC then [] else r.usage ++ fb ++ aux
    some ((if r.batch then "  ".toList else []) ++ "Test case ".toList ++ r.number ++ ' ' :: first ++ ' ' :: info)

/-- What leaves the grading thread for a message. (judge.py:143-186) -/
inductive Out where
  /-- the result is put in the queue -/
  | queued (r : Res)
  | internalError
deriving DecidableEq, Repr

/-- `_grading_thread_main`, judge.py:140-187, on results: the line is made and logged before the result is queued (judge.py:220-221); an exception
ends the loop and is reported as an internal error (judge.py:176-177). -/
def thread (noAnsi : Bool) : List Res → List Out
  | [] => []
  | r :: rs =>
    match (line r).bind (style noAnsi) with
    | none => [.internalError]
    | some _ => .queued r :: thread noAnsi rs

/-! ## Removing colours -/

/-- utils/ansi.py:6-8. -/
def isDigit (c : Char) : Bool := '0' ≤ c && c ≤ '9'

/-- `[0-9,A-Z]` -/
def isFirst (c : Char) : Bool := isDigit c || c == ',' || ('A' ≤ c && c ≤ 'Z')

/-- `(;[0-9]{1,2})?` -/
def two : Str → Str
  | ';' :: a :: b :: r => if isDigit a then if isDigit b then r else b :: r else ';' :: a :: b :: r
  | [';', a] => if isDigit a then [] else [';', a]
  | s => s

/-- `(;[0-9]{3})?` -/
def three : Str → Str
  | ';' :: a :: b :: c :: r => if isDigit a && isDigit b && isDigit c then r else ';' :: a :: b :: c :: r
  | s => s

/-- `([0-9,A-Z]{1,2}(;[0-9]{1,2})?(;[0-9]{3})?)?` -/
def params : Str → Str
  | a :: b :: r => if isFirst a then if isFirst b then three (two r) else three (two (b :: r)) else a :: b :: r
  | [a] => if isFirst a then [] else [a]
  | [] => []

/-- `[m|K]?` (utils/ansi.py:6-8) -/
def letter : Str → Str
  | c :: r => if c = 'm' || c = '|' || c = 'K' then r else c :: r
  | [] => []

theorem two_le (s : Str) : (two s).length ≤ s.length := by
  fun_cases two s <;> (simp_all; try omega)
theorem three_le (s : Str) : (three s).length ≤ s.length := by
  fun_cases three s <;> (simp_all; try omega)
theorem params_le (s : Str) : (params s).length ≤ s.length := by
  fun_cases params s <;> simp_all
  · exact Nat.le_trans (Nat.le_trans (three_le _) (two_le _)) (by omega)
  · exact Nat.le_trans (Nat.le_trans (three_le _) (two_le _)) (by simp)
theorem letter_le (s : Str) : (letter s).length ≤ s.length := by
  fun_cases letter s <;> simp_all

/-- The escape character. (utils/ansi.py:6-8) -/
def esc : Char := '\x1b'

/-- `strip_ansi`, ansi.py:6-8. Everything after `\x1b\[` in the expression is optional and taken greedily, so it always matches and nothing is ever given back. -/
def stripAnsi : Str → Str
  | [] => []
  | [c] => [c]
  | a :: b :: r => if a = esc ∧ b = '[' then stripAnsi (letter (params r)) else a :: stripAnsi (b :: r)
  termination_by s => s.length
  decreasing_by
    · have h1 := letter_le (params r); have h2 := params_le r
      simp; omega
    · simp

end Verif.Ansi
