import Verif.Basic

/-!
# What the user is told about a failed case: dmoj/result.py:72-101, dmoj/executors/gcc_executor.py:84-92,
python_executor.py:49-56, java_executor.py:114-139, mono_executor.py:77-83

Text is a list of characters; the decoding of the standard error with `errors='replace'` is done before. `\w` of python's `re` is
the parameter `word`.
-/

namespace Verif.Feedback

/-- result.py:73-98. -/
abbrev Str := List Char

/-- What is known about the process; `fault` is the name in `protection_fault`, `signal` 0 is none.
(result.py:73-98) -/
structure Proc where
  ir : Bool
  rte : Bool
  tle : Bool
  mle : Bool
  ole : Bool
  initialized : Bool
  signal : Nat
  fault : Option Str
deriving DecidableEq, Repr

/-- `needle in s` (result.py:73-98) -/
def contains (needle : Str) : Str → Bool
  | [] => needle.isPrefixOf []
  | c :: s => needle.isPrefixOf (c :: s) || contains needle s

/-- `s.replace('sys_', '', 1)`: the first occurrence, wherever it is. (result.py:73-98) -/
def dropSys : Str → Str
  | [] => []
  | c :: s => if "sys_".toList.isPrefixOf (c :: s) then (c :: s).drop 4 else c :: dropSys s

/-- `get_feedback_str`, result.py:72-98, for a process without an attribute `feedback` (nothing in the judge sets one). `parse` is
the executor's `parse_feedback_from_stderr`; `none` there is an `InternalError`, and an executor without one gives `''`. -/
def feedback (strsignal : Nat → Str) (parse : Str → Proc → Option Str) (err : Str) (p : Proc) : Option Str :=
  let failed := (p.ir || p.rte) && !(p.tle || p.mle || p.ole)
  match (if failed then parse err p else some []) with
  | none => none
  | some f =>
    let f :=
      if f.isEmpty && failed then
        if !p.initialized || contains "error while loading shared libraries".toList err then "failed initializing".toList
        else if p.signal ≠ 0 then strsignal p.signal
        else f
      else f
    some (match p.fault with
      | some call => dropSys call ++ " syscall disallowed".toList
      | none => f)

/-! ## C and C++, gcc_executor.py:84-92 -/

/-- gcc_executor.py:16, 84-92. -/
def cppHead : Str := "terminate called after throwing an instance of '".toList

/-- `[A-Za-z0-9_:]` -/
def cppChar (c : Char) : Bool :=
  ('A' ≤ c && c ≤ 'Z') || ('a' ≤ c && c ≤ 'z') || ('0' ≤ c && c ≤ '9') || c == '_' || c == ':'

/-- `\r?$` with `re.M` (gcc_executor.py:16, 84-92) -/
def lineEnd : Str → Bool
  | [] => true
  | ['\r'] => true
  | '\r' :: '\n' :: _ => true
  | '\n' :: _ => true
  | _ => false

/-- `recppexc` at the beginning of a text: the group. The characters of the group cannot be the quote after it, so there is one
way to match. (gcc_executor.py:16, 84-92) -/
def cppAt (s : Str) : Option Str :=
  if cppHead.isPrefixOf s then
    let r := s.drop cppHead.length
    let g := r.takeWhile cppChar
    match r.dropWhile cppChar with
    | '\'' :: r => if g ≠ [] ∧ lineEnd r = true then some g else none
    | _ => none
  else none

/-- `deque(finditer(..), maxlen=1)`. Going on one character after the beginning of a match instead of after its end makes no
difference: no match begins inside another one (`cpp_inside`). (gcc_executor.py:16, 84-92) -/
def cppLast : Str → Option Str
  | [] => none
  | c :: s =>
    match cppLast s with
    | some g => some g
    | none => cppAt (c :: s)

/-- `bytes` is the length of the standard error before decoding. (gcc_executor.py:16, 84-92) -/
def parseCpp (bytes : Nat) (err : Str) (_ : Proc) : Option Str :=
  if err = [] ∨ bytes > 2048 then some []
  else match cppLast err with
    | none => some []
    | some g => some (if g.length > 40 then [] else g)

/-! ## Python, python_executor.py:49-56 -/

/-- The lines of a text: `split('\n')`. (python_executor.py:7, 49-56) -/
def lines : Str → List Str
  | [] => [[]]
  | c :: s =>
    match lines s with
    | l :: r => if c = '\n' then [] :: l :: r else (c :: l) :: r
    | [] => []

/-- python_executor.py:7, 49-56. -/
def header : Str := "Traceback (most recent call last):".toList

/-- `[a-zA-Z_]` (python_executor.py:7, 49-56) -/
def idStart (c : Char) : Bool := ('A' ≤ c && c ≤ 'Z') || ('a' ≤ c && c ≤ 'z') || c == '_'

/-- `([a-zA-Z_]\w*)(?::[^\n]*?)?$` on a whole line: the group. (python_executor.py:7, 49-56) -/
def excLine (word : Char → Bool) (l : Str) : Option Str :=
  match l with
  | [] => none
  | c :: r =>
    if idStart c then
      match r.dropWhile word with
      | [] => some (c :: r.takeWhile word)
      | d :: _ => if d = ':' then some (c :: r.takeWhile word) else none
    else none

/-- The rest of a match after the line with the header: `.*?\n` takes one line and then as few as possible; the group, and what
comes after its line. (python_executor.py:7, 49-56) -/
def excAfter (word : Char → Bool) : List Str → Option (Str × List Str)
  | [] => none
  | [_] => none
  | _ :: l :: r =>
    match excLine word l with
    | some g => some (g, r)
    | none => excAfter word (l :: r)

theorem excAfter_shorter (word : Char → Bool) : ∀ (ls : List Str) (g : Str) (r : List Str),
    excAfter word ls = some (g, r) → r.length < ls.length
  | [], _, _, h => nomatch h
  | [_], _, _, h => nomatch h
  | _ :: l :: r, g, r', h => by
    simp only [excAfter] at h
    cases he : excLine word l with
    | some g' => rw [he] at h; cases h; simp; omega
    | none =>
      rw [he] at h
      have := excAfter_shorter word (l :: r) g r' h
      simp only [List.length_cons] at this ⊢
      omega

/-- The last match of `retraceback`: a line that ends in the header begins one; after a match the search goes on behind its last
line. (python_executor.py:7, 49-56) -/
def pyLast (word : Char → Bool) (last : Option Str) : List Str → Option Str
  | [] => last
  | l :: r =>
    if header.isSuffixOf l then
      match h : excAfter word r with
      | some (g, r') => pyLast word (some g) r'
      | none => last
    else pyLast word last r
termination_by ls => ls.length
decreasing_by
  · have := excAfter_shorter word r g r' h
    simp only [List.length_cons]
    omega
  · simp

/-- `bytes` is the length of the standard error before decoding. (python_executor.py:7, 49-56) -/
def parsePy (bytes : Nat) (word : Char → Bool) (err : Str) (_ : Proc) : Option Str :=
  if err = [] ∨ bytes > 2048 then some []
  else match pyLast word none (lines err) with
    | none => some []
    | some g => some (if g.length > 20 then [] else g)

/-! ## Java, java_executor.py:114-139 -/

/-- java_executor.py:22, 114-139. -/
def marker : Str := "7257b50d-e37a-4664-b1a5-b1340b4206c0: ".toList

/-- The group of `reexception` on a line: what follows the first marker. (java_executor.py:22, 114-139) -/
def javaLine : Str → Option Str
  | [] => none
  | c :: s => if marker.isPrefixOf (c :: s) then some ((c :: s).drop marker.length) else javaLine s

/-- The last line with a marker. (java_executor.py:22, 114-139) -/
def javaLast (ls : List Str) : Option Str := (ls.filterMap javaLine).getLast?

/-- `log`: the crash log in the submission's directory, if there is one. (java_executor.py:22, 114-139) -/
def parseJava (log : Option Str) (err : Str) (p : Proc) : Option Str :=
  let rest : Option Str :=
    if contains "Error: Main method not found in class".toList err then
      some "public static void main(String[] args) not found".toList
    else match javaLast (lines err) with
      | none => some "abnormal termination".toList
      | some g => some (g.takeWhile (· ≠ ':'))
  if p.ir || p.rte then
    match log with
    | some l =>
      if contains "There is insufficient memory for the Java Runtime".toList l then
        some "insufficient memory to initialize JVM".toList
      else none
    | none => rest
  else rest

/-! ## Mono, mono_executor.py:77-83 -/

/-- mono_executor.py:11. -/
def monoHead : Str := "FATAL UNHANDLED EXCEPTION: ".toList

/-- `(.*?):`, where the group may not have a newline: the group, and what follows the match. (mono_executor.py:11) -/
def monoAt (s : Str) : Option (Str × Str) :=
  match s.dropWhile (fun c => c ≠ ':' && c ≠ '\n') with
  | ':' :: r => some (s.takeWhile (fun c => c ≠ ':' && c ≠ '\n'), r)
  | _ => none

theorem monoAt_shorter {s g r : Str} (h : monoAt s = some (g, r)) : r.length < s.length := by
  unfold monoAt at h
  split at h
  · next r' e =>
    have := (List.dropWhile_sublist (fun c => c ≠ ':' && c ≠ '\n') (l := s)).length_le
    rw [e] at this
    cases h
    exact Nat.lt_of_succ_le this
  · cases h

/-- The group of the last match of `reexception`, `deque(.., maxlen=1)`. `prev` is the character before, for `\b`: the expression begins with a
word character. (mono_executor.py:11, 78) -/
def monoLast (word : Char → Bool) (prev : Option Char) (last : Option Str) : Str → Option Str
  | [] => last
  | c :: s =>
    if !(prev.any word) && monoHead.isPrefixOf (c :: s) then
      match h : monoAt ((c :: s).drop monoHead.length) with
      | some (g, r) => monoLast word (some ':') (some g) r
      | none => monoLast word (some c) last s
    else monoLast word (some c) last s
termination_by s => s.length
decreasing_by
  · have h1 := monoAt_shorter h
    have h2 : ((c :: s).drop monoHead.length).length ≤ (c :: s).length := by simp
    simp only [List.length_cons] at h2
    exact Nat.lt_of_lt_of_le h1 (by simpa using h2)
  · simp
  · simp

/-- `parse_feedback_from_stderr`, mono_executor.py:77-83. -/
def parseMono (word : Char → Bool) (err : Str) (_ : Proc) : Option Str :=
  match monoLast word none none err with
  | none => some []
  | some g => some g

end Verif.Feedback
