import Verif.Model.Problem

/-!
# Which files of an archive are test cases, when the configuration does not say

dmoj/problem.py:20-21 and 135-153. The names are matched with Python's `re`, which is not part of the repository: here
is its documented syntax and meaning for the constructs the two patterns use. A match is found by backtracking: `run`
lists the ways an expression can match from a place, in the order in which they are tried, and the first one that
carries through the whole pattern counts. Repetition is treated for single characters only, as in the patterns;
`parse` rejects other syntax.
-/

namespace Verif.Names

/-- problem.py:20-21. -/
abbrev Str := List Char

/-- Unicode as `re` sees it: decimal digits, whitespace, word characters, and which characters are the same ignoring
case. (problem.py:150-151, `re.compile(..., re.IGNORECASE)`) -/
structure Chars where
  digit : Char → Bool
  space : Char → Bool
  word : Char → Bool
  same : Char → Char → Bool

/-- Something that matches one character. (problem.py:20-21) -/
inductive One where
  | lit (c : Char)
  /-- `.` -/
  | any
  /-- `\d` -/
  | digit
  /-- `\s` -/
  | space
  /-- `\W` -/
  | nonword
  /-- `[^...]` -/
  | noneOf (digit space : Bool)
deriving DecidableEq, Repr

/-- problem.py:20-21. -/
def One.has (u : Chars) : One → Char → Bool
  | .lit c, x => u.same c x
  | .any, x => x != '\n'
  | .digit, x => u.digit x
  | .space, x => u.space x
  | .nonword, x => !u.word x
  | .noneOf d s, x => !(d && u.digit x) && !(s && u.space x)

/-- Expressions. (problem.py:20-21) -/
inductive Re where
  | eps
  | one (o : One)
  /-- `^` -/
  | start
  /-- `$` -/
  | eos
  | seq (a b : Re)
  | alt (a b : Re)
  /-- `*`, or `*?` when lazy -/
  | star (lazy : Bool) (o : One)
  /-- `?` -/
  | opt (a : Re)
  /-- `(?=...)` -/
  | look (a : Re)
  /-- `(?P<name>...)` -/
  | group (name : Str) (a : Re)
deriving DecidableEq, Repr

/-- A place in the text, and the groups matched so far, the latest first. (problem.py:76) -/
structure At where
  first : Bool
  rest : Str
  groups : List (Str × Str) := []
deriving DecidableEq, Repr

/-- The places after no, one, two, ... characters of a kind. (problem.py:20-21) -/
def takes (p : Char → Bool) : Bool → Str → List (Bool × Str)
  | b, [] => [(b, [])]
  | b, c :: r => (b, c :: r) :: (if p c then takes p false r else [])

/-- The ways to match from a place, in the order tried. (problem.py:76) -/
def run (u : Chars) : Re → At → List At
  | .eps, s => [s]
  | .one o, s =>
    match s.rest with
    | [] => []
    | c :: r => if o.has u c then [{ s with first := false, rest := r }] else []
  | .start, s => if s.first then [s] else []
  | .eos, s => if s.rest = [] ∨ s.rest = ['\n'] then [s] else []
  | .seq a b, s => (run u a s).flatMap (run u b)
  | .alt a b, s => run u a s ++ run u b s
  | .star lazy o, s =>
    let l := (takes (o.has u) s.first s.rest).map fun x => { s with first := x.1, rest := x.2 }
    if lazy then l else l.reverse
  | .opt a, s => run u a s ++ [s]
  | .look a, s =>
    match run u a s with
    | [] => []
    | t :: _ => [{ s with groups := t.groups }]
  | .group n a, s =>
    (run u a s).map fun t => { t with groups := (n, s.rest.take (s.rest.length - t.rest.length)) :: t.groups }

/-! ## Parsing, one character at a time -/

/-- What the next character means. (problem.py:20-21, `re.compile`) -/
inductive Mode where
  | plain
  /-- after `*` -/
  | star
  /-- after `+` or `?` -/
  | rep
  | esc
  | paren
  | parenQ
  | parenP
  | name (n : Str)
  | cls
  | clsNot (digit space : Bool)
  | clsEsc (digit space : Bool)
deriving DecidableEq, Repr

/-- problem.py:20-21. -/
inductive Kind where
  | plain
  | look
  | named (n : Str)
deriving DecidableEq, Repr

/-- An open group: its finished alternatives and the items of the current one. (problem.py:20-21, `re.compile`) -/
structure Frame where
  kind : Kind := .plain
  alts : List Re := []
  cur : List Re := []
deriving DecidableEq, Repr

/-- problem.py:20-21, `re.compile`. -/
structure State where
  mode : Mode := .plain
  top : Frame := {}
  rest : List Frame := []
deriving DecidableEq, Repr

/-- problem.py:20-21. -/
def seqs : List Re → Re
  | [] => .eps
  | [a] => a
  | a :: l => .seq a (seqs l)

/-- problem.py:20-21. -/
def altsOf : List Re → Re
  | [] => .eps
  | [a] => a
  | a :: l => .alt a (altsOf l)

/-- problem.py:20-21. -/
def Frame.re (f : Frame) : Re :=
  let r := altsOf (f.alts ++ [seqs f.cur])
  match f.kind with
  | .plain => r
  | .look => .look r
  | .named n => .group n r

/-- problem.py:20-21. -/
def State.add (s : State) (r : Re) : State := { s with mode := .plain, top := { s.top with cur := s.top.cur ++ [r] } }

/-- Replace the last item. (problem.py:20-21, `re.compile`) -/
def State.last (s : State) (m : Mode) (f : Re → Option (List Re)) : Option State :=
  match s.top.cur.getLast? with
  | none => none
  | some a => (f a).map fun l => { s with mode := m, top := { s.top with cur := s.top.cur.dropLast ++ l } }

/-- problem.py:20-21, `re.compile`. -/
def State.open (s : State) (k : Kind) : State := { mode := .plain, top := { kind := k }, rest := s.top :: s.rest }

/-- problem.py:20-21, `re.compile`. -/
def plainStep (s : State) (c : Char) : Option State :=
  match c with
  | '\\' => some { s with mode := .esc }
  | '(' => some { s with mode := .paren }
  | '[' => some { s with mode := .cls }
  | ')' =>
    match s.rest with
    | [] => none
    | g :: rest => some { mode := .plain, top := { g with cur := g.cur ++ [s.top.re] }, rest := rest }
  | '|' => some { s with mode := .plain, top := { s.top with alts := s.top.alts ++ [seqs s.top.cur], cur := [] } }
  | '.' => some (s.add (.one .any))
  | '^' => some (s.add .start)
  | '$' => some (s.add .eos)
  | '*' => s.last .star fun
    | .one o => some [.star false o]
    | _ => none
  | '+' => s.last .rep fun
    | .one o => some [.one o, .star false o]
    | _ => none
  | '?' => s.last .rep fun a => some [.opt a]
  | '{' => none
  | ']' => none
  | '}' => none
  | c => some (s.add (.one (.lit c)))

/-- problem.py:20-21, `re.compile`. -/
def step (s : State) (c : Char) : Option State :=
  match s.mode with
  | .plain => plainStep s c
  | .star =>
    if c = '?' then s.last .plain fun
      | .star _ o => some [.star true o]
      | _ => none
    else if c = '*' ∨ c = '+' then none
    else plainStep s c
  | .rep => if c = '*' ∨ c = '+' ∨ c = '?' then none else plainStep s c
  | .esc =>
    if c = 'd' then some (s.add (.one .digit))
    else if c = 's' then some (s.add (.one .space))
    else if c = 'W' then some (s.add (.one .nonword))
    else if c = '.' then some (s.add (.one (.lit '.')))
    else none
  | .paren => if c = '?' then some { s with mode := .parenQ } else none
  | .parenQ =>
    if c = ':' then some (s.open .plain)
    else if c = '=' then some (s.open .look)
    else if c = 'P' then some { s with mode := .parenP }
    else none
  | .parenP => if c = '<' then some { s with mode := .name [] } else none
  | .name n => if c = '>' then some (s.open (.named n)) else some { s with mode := .name (n ++ [c]) }
  | .cls => if c = '^' then some { s with mode := .clsNot false false } else none
  | .clsNot d p =>
    if c = ']' then some (s.add (.one (.noneOf d p)))
    else if c = '\\' then some { s with mode := .clsEsc d p }
    else none
  | .clsEsc d p =>
    if c = 'd' then some { s with mode := .clsNot true p }
    else if c = 's' then some { s with mode := .clsNot d true }
    else none

/-- `re.compile`; `none`: an error, or syntax not treated. (problem.py:150-151) -/
def parse (p : Str) : Option Re :=
  match p.foldlM step {} with
  | none => none
  | some s => if s.rest = [] ∧ (s.mode = .plain ∨ s.mode = .star ∨ s.mode = .rep) then some s.top.re else none

/-- `match.group(name)`; `none`: `None`. (problem.py:64-68) -/
def groupOf (n : Str) (t : At) : Option String := (t.groups.lookup n).map String.ofList

/-- `pattern.match(filename)` and the two groups. (problem.py:75-82) -/
def matches? (u : Chars) (r : Re) : Problem.Pattern := fun file =>
  ((run u r { first := true, rest := file.toList }).head?).map fun t =>
    (groupOf "batch".toList t, groupOf "case".toList t)

/-- `DEFAULT_TEST_CASE_INPUT_PATTERN` (problem.py:20) -/
def inputPattern : Str := "^(?=.*?\\.in|in).*?(?:(?:^|\\W)(?P<batch>\\d+)[^\\d\\s]+)?(?P<case>\\d+)[^\\d\\s]*$".toList

/-- `DEFAULT_TEST_CASE_OUTPUT_PATTERN` (problem.py:21) -/
def outputPattern : Str := "^(?=.*?\\.out|out).*?(?:(?:^|\\W)(?P<batch>\\d+)[^\\d\\s]+)?(?P<case>\\d+)[^\\d\\s]*$".toList

/-- `_resolve_test_cases` when neither `test_cases` nor its formats are given, problem.py:135-153: `files` is
`archive.namelist()`, or `none` without an archive; `points` is the problem's. The outer `none` is the exception about
the missing archive (or a pattern that does not compile). -/
def guess {P : Type} (u : Chars) (int : String → Option Int) (files : Option (List String)) (points : P) :
    Option (Except Problem.MatchErr (List (Problem.Entry P))) :=
  match files, parse inputPattern, parse outputPattern with
  | some l, some i, some o => some (Problem.matchTestCases int l (matches? u i) (matches? u o) fun _ => some points)
  | _, _, _ => none

end Verif.Names
