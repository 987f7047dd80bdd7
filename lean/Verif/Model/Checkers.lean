import Verif.Basic

/-!
# The built-in checkers (dmoj/checkers/*)

All of the arguments are already bytes (the `utf8bytes` calls are the identity on bytes,
dmoj/utils/unicode.py:34-39).
-/

namespace Verif.Checkers
open Verif

/-! ## Standard checker: C code with two cursors

Buffers are lists, cursors are natural numbers, every buffer read goes through `s[pos]?`;
an out-of-bounds read is the outcome `none`. `size_t` wrap-around is not modelled (a buffer
is smaller than the address space). -/

/-- dmoj/checkers/_checker.c:53-54: `while (j < jlen && iswhite(judge[j])) ++j;` -/
def skipLead (s : Bytes) (pos : Nat) : Option Nat :=
  if _h : pos < s.length then
    match s[pos]? with
    | none => none
    | some c => if isWhite c then skipLead s (pos + 1) else some pos
  else some pos
termination_by s.length - pos

/-- The loop of `skip_spaces`, dmoj/checkers/_checker.c:39-46, with the two flags. -/
def skipLoop (s : Bytes) (pos : Nat) (sawLine sawSpace : Bool) : Option (Nat × Bool × Bool) :=
  if _h : pos < s.length then
    match s[pos]? with
    | none => none
    | some c =>
      let sawLine := sawLine || isLine c
      if !isWhite c then some (pos, sawLine, sawSpace)
      else skipLoop s (pos + 1) sawLine true
  else some (pos, sawLine, sawSpace)
termination_by s.length - pos

/-- `skip_spaces`, dmoj/checkers/_checker.c:37-48: new position and 2/1/0. -/
def skipSpaces (s : Bytes) (pos : Nat) : Option (Nat × Nat) :=
  match skipLoop s pos false false with
  | none => none
  | some (pos', l, sp) => some (pos', if l then 2 else if sp then 1 else 0)

/-- Result of the token comparison loop: mismatch (`return 0`) or the two new cursors. (_checker.c:50-66) -/
inductive CmpRes where
  | differ
  | cont (j p : Nat)
deriving DecidableEq, Repr

/-- dmoj/checkers/_checker.c:61-64: the token comparison loop. -/
def cmpLoop (judge process : Bytes) (j p : Nat) : Option CmpRes :=
  if _h : j < judge.length then
    match judge[j]? with
    | none => none
    | some cj =>
      if isWhite cj then some (.cont j p)
      else if process.length ≤ p then some .differ
      else match process[p]? with
        | none => none
        | some cp => if cj ≠ cp then some .differ else cmpLoop judge process (j + 1) (p + 1)
  else some (.cont j p)
termination_by judge.length - j

/-- The `for (;;)` loop of dmoj/checkers/_checker.c:55-65.  The fuel bounds the number of
iterations; running out of fuel is also the outcome `none`, and `standardC_total` (in
`Verif/Lemmas/Standard.lean`) shows that `jlen + 1` iterations always suffice. -/
def stdLoop (judge process : Bytes) : Nat → Nat → Nat → Option Bool
  | 0, _, _ => none
  | fuel + 1, j, p =>
    match skipSpaces judge j with
    | none => none
    | some (j, js) =>
      match skipSpaces process p with
      | none => none
      | some (p, ps) =>
        if j == judge.length || p == process.length then
          some (j == judge.length && p == process.length)
        else if js ≠ ps then some false
        else match cmpLoop judge process j p with
          | none => none
          | some .differ => some false
          | some (.cont j p) => stdLoop judge process fuel j p

/-- `check_standard`, dmoj/checkers/_checker.c:50-66. -/
def standardC (judge process : Bytes) : Option Bool :=
  match skipLead judge 0 with
  | none => none
  | some j =>
    match skipLead process 0 with
    | none => none
    | some p => stdLoop judge process (judge.length + 1) j p

/-- dmoj/checkers/standard.py:7-10: note the swapped arguments. -/
def standard (processOutput judgeOutput : Bytes) : Option Bool :=
  standardC judgeOutput processOutput

/-! ## Results of Python checkers -/

/-- What a checker returns: a plain boolean or a `CheckerResult`
(dmoj/result.py:104-115).  Points are exact rationals (Python uses floats). -/
inductive Outcome where
  | bool (b : Bool)
  | result (passed : Bool) (points : Rat) (feedback : Option String)
deriving DecidableEq, Repr

/-- Exceptions a checker can let escape. (sorted.py:11-12) -/
inductive CheckErr where
  | internalError (msg : String)
  | valueError
deriving DecidableEq, Repr

/-! ## sorted / unordered -/

/-- Python's ordering of sequences (used by `list.sort`): lexicographic, a proper prefix is
smaller. (sorted.py:27-28) -/
def lexLe {α : Type} [DecidableEq α] (le : α → α → Bool) : List α → List α → Bool
  | [], _ => true
  | _ :: _, [] => false
  | a :: as, c :: cs => if a = c then lexLe le as cs else le a c

/-- Order of `bytes` objects. (sorted.py:27-28) -/
def bytesLe : Bytes → Bytes → Bool := lexLe (fun a c => decide (a ≤ c))

/-- Order of lists of `bytes` objects. (sorted.py:27-28) -/
def bytesListLe : List Bytes → List Bytes → Bool := lexLe bytesLe

/-- The comparison loop of dmoj/checkers/sorted.py:30-34 (`zip` stops at the shorter). -/
def zipAllEq {α : Type} [DecidableEq α] : List α → List α → Bool
  | a :: as, c :: cs => if a ≠ c then false else zipAllEq as cs
  | _, _ => true

/-- dmoj/checkers/sorted.py:8-34.  `list.sort` is modelled by `List.mergeSort` with Python's
ordering. -/
def sorted (processOutput judgeOutput : Bytes) (splitOn : String) : Except CheckErr Bool :=
  if splitOn = "lines" then
    let pl := dropEmpty (splitBy isLine processOutput)
    let jl := dropEmpty (splitBy isLine judgeOutput)
    if pl.length ≠ jl.length then .ok false
    else
      let pl := (pl.map pySplit).mergeSort bytesListLe
      let jl := (jl.map pySplit).mergeSort bytesListLe
      .ok (zipAllEq pl jl)
  else if splitOn = "whitespace" then
    let pl := dropEmpty (splitBy isWhite processOutput)
    let jl := dropEmpty (splitBy isWhite judgeOutput)
    if pl.length ≠ jl.length then .ok false
    else .ok (zipAllEq (pl.mergeSort bytesLe) (jl.mergeSort bytesLe))
  else .error (.internalError "invalid `split_on` mode")

/-- dmoj/checkers/unordered.py:6-10. -/
def unordered (processOutput judgeOutput : Bytes) : Except CheckErr Bool :=
  sorted processOutput judgeOutput "whitespace"

/-! ## easy -/

/-- A Python `Counter` as an association list in insertion order. (easy.py:10) -/
abbrev Counter := List (Byte × Nat)

/-- `counter[c] += 1`. (easy.py:10) -/
def Counter.bump : Counter → Byte → Counter
  | [], c => [(c, 1)]
  | (k, n) :: r, c => if k = c then (k, n + 1) :: r else (k, n) :: Counter.bump r c

/-- `Counter(s)`. (easy.py:10) -/
def Counter.ofBytes (s : Bytes) : Counter := s.foldl Counter.bump []

/-- `dict.get`. (easy.py:10) -/
def Counter.get? : Counter → Byte → Option Nat
  | [], _ => none
  | (k, n) :: r, c => if k = c then some n else Counter.get? r c

/-- Dictionary equality: same size and every item of the left one is in the right one. (easy.py:10) -/
def Counter.eq (x y : Counter) : Bool :=
  x.length == y.length && x.all (fun kv => y.get? kv.1 == some kv.2)

/-- dmoj/checkers/easy.py:7-10.  `re.sub(b'\s+', b'', s)` removes exactly the whitespace bytes. -/
def easy (processOutput judgeOutput : Bytes) : Bool :=
  let processAll := processOutput.filter (fun c => !isWhite c)
  let judgeAll := judgeOutput.filter (fun c => !isWhite c)
  (Counter.ofBytes (processAll.map lowerByte)).eq (Counter.ofBytes (judgeAll.map lowerByte))

/-! ## rstripped -/

/-- dmoj/checkers/rstripped.py:17-19. -/
def rstrippedLoop : List Bytes → List Bytes → Bool
  | p :: ps, j :: js => if rstrip p ≠ rstrip j then false else rstrippedLoop ps js
  | _, _ => true

/-- dmoj/checkers/rstripped.py:6-21. -/
def rstripped (processOutput judgeOutput : Bytes) (filterNewLine : Bool) : Bool :=
  let pl := splitBy isLine processOutput
  let jl := splitBy isLine judgeOutput
  let pl := if filterNewLine then dropEmpty pl else pl
  let jl := if filterNewLine then dropEmpty jl else jl
  if pl.length ≠ jl.length then false else rstrippedLoop pl jl

/-! ## identical -/

/-- The feedback of a presentation error, dmoj/checkers/identical.py:14. -/
def peFeedback : String := "Presentation Error, check your whitespace"

/-- dmoj/checkers/identical.py:8-15.  The outer `Option` is the out-of-bounds outcome of the C
checker. -/
def identical (processOutput judgeOutput : Bytes) (peAllowed : Bool) : Option Outcome :=
  if judgeOutput = processOutput then some (.bool true)
  else if peAllowed then
    match standardC judgeOutput processOutput with
    | none => none
    | some std => some (.result false 0 (if std then some peFeedback else none))
  else some (.result false 0 none)

/-! ## linecount -/

/-- The marks of dmoj/checkers/linecount.py:7. -/
def cross : Char := '✗'
/-- linecount.py:7. -/
def tick : Char := '✓'

/-- The loop of dmoj/checkers/linecount.py:22-28: `cases` starts as all crosses, one per judge
line; position `i` becomes a tick when the stripped lines agree; second component is `count`. -/
def linecountLoop : List Bytes → List Bytes → List Char × Nat
  | p :: ps, j :: js =>
    let r := linecountLoop ps js
    if strip p = strip j then (tick :: r.1, r.2 + 1) else (cross :: r.1, r.2)
  | [], js => (js.map (fun _ => cross), 0)
  | _ :: _, [] => ([], 0)

/-- dmoj/checkers/linecount.py:10-32. -/
def linecount (processOutput judgeOutput : Bytes) (pointValue : Rat) (feedback : Bool) : Outcome :=
  let pl := dropEmpty (splitBy isLine processOutput)
  let jl := dropEmpty (splitBy isLine judgeOutput)
  if jl.length < pl.length then .bool false
  else if jl.isEmpty then .bool true
  else
    let r := linecountLoop pl jl
    .result (r.2 == jl.length) (pointValue * ((r.2 : Rat) / (jl.length : Rat)))
      (some (if feedback then String.ofList r.1 else ""))

/-- dmoj/checkers/linecount.py:35 and dmoj/graders/standard.py:52: which built-in checkers ask to
be run even when the process failed. -/
def linecountRunOnError : Bool := true

end Verif.Checkers
