import Verif.Basic

/-!
# Finding the class of a Java program: dmoj/executors/java_executor.py:15-38, 214-239

Text is a list of characters; `\w` and `\s` of python's `re` are the parameters `w` and `sp`. The regular expressions are written
as functions; where their backtracking matters the comments say why it cannot change the result.
-/

namespace Verif.JavaClass

/-- java_executor.py:30-38. -/
abbrev Str := List Char

/-- The text after the first `*/`. (java_executor.py:15) -/
def blockEnd : Str → Option Str
  | [] => none
  | [_] => none
  | a :: b :: r => if a = '*' ∧ b = '/' then some r else blockEnd (b :: r)

theorem blockEnd_shorter (s r : Str) (h : blockEnd s = some r) : r.length < s.length := by
  fun_induction blockEnd s <;> grind

/-- `recomment.sub('', source)`, java_executor.py:15, 31: every `/*` with a `*/` after it is removed up to there. -/
def stripBlock : Str → Str
  | [] => []
  | [c] => [c]
  | a :: b :: r =>
    if a = '/' ∧ b = '*' then
      match h : blockEnd r with
      | some r' => stripBlock r'
      | none => a :: stripBlock (b :: r)
    else a :: stripBlock (b :: r)
  termination_by s => s.length
  decreasing_by
    · have := blockEnd_shorter _ _ h; simp; omega
    · simp
    · simp

/-- After an opening `"`: the text after the closing one; `\` takes the next character with it (`.` matches newlines, `DOTALL`).
(java_executor.py:16) -/
def strEnd : Str → Option Str
  | [] => none
  | c :: r =>
    if c = '"' then some r
    else if c = '\\' then
      match r with
      | [] => none
      | _ :: r' => strEnd r'
    else strEnd r

/-- After an opening `'`: one character, or `\` and one character, and the closing `'`. (java_executor.py:16) -/
def chrEnd : Str → Option Str
  | '\\' :: _ :: '\'' :: r => some r
  | c :: '\'' :: r => if c ≠ '\'' ∧ c ≠ '\\' then some r else none
  | _ => none

theorem strEnd_shorter (s r : Str) (h : strEnd s = some r) : r.length < s.length := by
  fun_induction strEnd s <;> grind

theorem chrEnd_shorter (s r : Str) (h : chrEnd s = some r) : r.length < s.length := by
  revert h; fun_cases chrEnd s <;> grind

/-- `restring.sub('', ...)`, java_executor.py:16, 31. -/
def stripLit : Str → Str
  | [] => []
  | c :: r =>
    if c = '"' then
      match h : strEnd r with
      | some r' => stripLit r'
      | none => c :: stripLit r
    else if c = '\'' then
      match h : chrEnd r with
      | some r' => stripLit r'
      | none => c :: stripLit r
    else c :: stripLit r
  termination_by s => s.length
  decreasing_by
    · have := strEnd_shorter _ _ h; simp; omega
    · simp
    · have := chrEnd_shorter _ _ h; simp; omega
    · simp
    · simp

/-- java_executor.py:17. -/
def newline (c : Char) : Bool := c = '\n' || c = '\r'

/-- From the end of the line on; `none` if the text ends before (the lookahead `(?=[\r\n])` fails).
(java_executor.py:17) -/
def lineRest : Str → Option Str
  | [] => none
  | c :: r => if newline c then some (c :: r) else lineRest r

theorem lineRest_shorter (s r : Str) (h : lineRest s = some r) : r.length ≤ s.length := by
  fun_induction lineRest s <;> grind

/-- `reinline_comment.sub('', ...)`, java_executor.py:17, 31. -/
def stripLine : Str → Str
  | [] => []
  | [c] => [c]
  | a :: b :: r =>
    if a = '/' ∧ b = '/' then
      match h : lineRest r with
      | some r' => stripLine r'
      | none => a :: stripLine (b :: r)
    else a :: stripLine (b :: r)
  termination_by s => s.length
  decreasing_by
    · have := lineRest_shorter _ _ h; simp; omega
    · simp
    · simp

/-- java_executor.py:31. -/
def strip (s : Str) : Str := stripLine (stripLit (stripBlock s))

/-- A fixed word. (java_executor.py:18-20) -/
def word (p s : Str) : Option Str := if p.isPrefixOf s then some (s.drop p.length) else none

/-- `\s+`, greedily. What follows it in the expressions is never white space, so giving some back never helps.
(java_executor.py:18-20) -/
def spaces (sp : Char → Bool) (s : Str) : Option Str :=
  match s with
  | c :: r => if sp c then some (r.dropWhile sp) else none
  | [] => none

/-- A fixed word and white space. (java_executor.py:18-20) -/
def wordSp (sp : Char → Bool) (p s : Str) : Option Str := (word p s).bind (spaces sp)

/-- `(?:p\s+)?`, greedily: in `s? a? s?` a word taken by the first possible position is never missing later.
(java_executor.py:18-20) -/
def opt (sp : Char → Bool) (ps : List Str) (s : Str) : Str := ((ps.findSome? fun p => wordSp sp p s)).getD s

/-- A word boundary between two characters (or the end). (java_executor.py:18-20) -/
def boundary (w : Char → Bool) (a : Char) (r : Str) : Bool :=
  match r with
  | [] => w a
  | d :: _ => w a != w d

/-- java_executor.py:18-20. -/
def ident (w : Char → Bool) (c : Char) : Bool := w c || c = '$'

/-- `[\w$][\w$]*?\b`: the shortest text of these characters that ends at a word boundary. (java_executor.py:18-20) -/
def nameAt (w : Char → Bool) : Str → Option Str
  | [] => none
  | c :: r =>
    if ident w c then
      if boundary w c r then some [c] else (nameAt w r).map (c :: ·)
    else none

/-- `reclass` from `public` on, java_executor.py:18-20. -/
def classAt (w sp : Char → Bool) (s : Str) : Option Str := do
  let s ← wordSp sp "public".toList s
  let s := opt sp ["strictfp".toList] s
  let s := opt sp ["abstract".toList, "final".toList] s
  let s := opt sp ["strictfp".toList] s
  let s ← wordSp sp "class".toList s
  nameAt w s

/-- `re.search` of an expression that begins with a word boundary and a word character; `prev`: whether the character before is one
of a word. (java_executor.py:30-38) -/
def search (w : Char → Bool) (at_ : Str → Option Str) : Bool → Str → Option Str
  | _, [] => none
  | prev, c :: r =>
    match (if prev then none else at_ (c :: r)) with
    | some g => some g
    | none => search w at_ (w c) r

/-- `[^.;]+(?:\.[^.;]+)*?;`: up to the first `;`, with no empty part between dots. (java_executor.py:21) -/
def noEmpty : Bool → Str → Bool
  | start, [] => !start
  | start, c :: r => if c = '.' then !start && noEmpty true r else noEmpty false r

/-- `repackage` from `package` on, java_executor.py:21. White space may be given back: `package  ;` matches with a name of one space. -/
def packageAt (sp : Char → Bool) (s : Str) : Option Str := do
  let s ← word "package".toList s
  match s with
  | [] => none
  | c :: r =>
    if sp c then
      let rest := r.dropWhile sp
      let take := fun (t : Str) =>
        match t.dropWhile (· ≠ ';') with
        | [] => none
        | _ :: _ => if noEmpty true (t.takeWhile (· ≠ ';')) then some (t.takeWhile (· ≠ ';')) else none
      match take rest with
      | some g => some g
      | none =>
        match (r.takeWhile sp).getLast? with
        | some c' => take (c' :: rest)
        | none => none
    else none

/-- java_executor.py:30-38. -/
inductive Err where
  | noClass
  | package (name : Str)
  deriving DecidableEq, Repr

/-- `find_class`, java_executor.py:30-38. -/
def findClass (w sp : Char → Bool) (source : Str) : Except Err Str :=
  let s := strip source
  match search w (classAt w sp) false s with
  | none => .error .noClass
  | some g =>
    match search w (packageAt sp) false s with
    | some p => .error (.package p)
    | none => .ok g

end Verif.JavaClass
