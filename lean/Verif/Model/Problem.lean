import Mathlib.Data.List.Sort
import Verif.Basic

/-!
# Problem data: newline normalisation, test case discovery, data selection, lookup order

dmoj/problem.py, dmoj/judgeenv.py:210-223.
-/

namespace Verif.Problem
open Verif

/-! ## Normalisation, dmoj/problem.py:235-255 -/

/-- `data.replace(b'\r\n', b'\r')`: leftmost, non-overlapping. (problem.py:235-255) -/
def crlfToCr : Bytes → Bytes
  | [] => []
  | [c] => [c]
  | c :: d :: r => if c = 13 ∧ d = 10 then 13 :: crlfToCr r else c :: crlfToCr (d :: r)

/-- `data.replace(b'\r', b'\n')`. (problem.py:235-255) -/
def crToLf (s : Bytes) : Bytes := s.map fun c => if c = 13 then 10 else c

/-- `_normalize`, dmoj/problem.py:235-255; `none` is Python's `None`. -/
def normalize (binary : Bool) (data : Option Bytes) : Bytes :=
  let data := data.getD []
  if binary || data.isEmpty then data
  else
    let data := crToLf (crlfToCr data)
    if data.getLast? = some 10 then data else data ++ [10]

/-! ## Test case discovery, dmoj/problem.py:63-127 -/

/-- A batch or case id: an integer if `int()` accepts the text, otherwise the text. (problem.py:64-73) -/
inductive Id where
  | int (n : Int)
  | str (s : String)
deriving DecidableEq, Repr

/-- Python truth value. (problem.py:64-73) -/
def Id.truthy : Id → Bool
  | .int n => n != 0
  | .str s => s != ""

/-- `<=` between ids of the same type (the mixed cases are arbitrary and never consulted). (problem.py:107-125) -/
def Id.le : Id → Id → Bool
  | .int a, .int c => decide (a ≤ c)
  | .str a, .str c => decide (a ≤ c)
  | .int _, .str _ => true
  | .str _, .int _ => false

/-- Same Python type (otherwise `<` raises TypeError). (problem.py:107-125) -/
def Id.sameType : Id → Id → Bool
  | .int _, .int _ => true
  | .str _, .str _ => true
  | _, _ => false

/-- `try_match_int`, dmoj/problem.py:64-73.  The argument is the value of the group: `none` when the
pattern has no such group or it did not take part in the match; `int` is Python's `int(str)`. -/
def tryMatchInt (int : String → Option Int) : Option String → Option Id
  | none => none
  | some s => match int s with
    | some n => some (.int n)
    | none => some (.str s)

/-- What a pattern yields for a file name: no match, or the groups `batch` and `case`. (problem.py:75-82) -/
abbrev Pattern := String → Option (Option String × Option String)

/-- `parse_position`, dmoj/problem.py:75-82. -/
def parsePosition (int : String → Option Int) (pat : Pattern) (file : String) :
    Option (Option Id × Option Id) :=
  (pat file).map fun g => (tryMatchInt int g.1, tryMatchInt int g.2)

/-- `_TestCase`, dmoj/problem.py:84-86. -/
structure Files where
  inp : Option String
  out : Option String
deriving DecidableEq, Repr

/-- A dictionary as an association list in insertion order: `d[k]` of a `defaultdict`, modified. (problem.py:89-104) -/
def upd {α : Type} (dflt : α) (f : α → α) (k : Id) : List (Id × α) → List (Id × α)
  | [] => [(k, f dflt)]
  | (k', v) :: r => if k' = k then (k', f v) :: r else (k', v) :: upd dflt f k r

/-- `groups`, dmoj/problem.py:89. -/
abbrev Groups := List (Id × List (Id × Files))

/-- Errors raised. (problem.py:89-104) -/
inductive MatchErr where
  | noCase            -- InvalidInitException('test case format yielded no case number')
  | conflict          -- InvalidInitException('problem has conflicting test cases')
  | typeError         -- sorting integers and strings
  | stopIteration     -- case_points exhausted
deriving DecidableEq, Repr

/-- `batch or case`, dmoj/problem.py:104. -/
def groupKey (batch : Option Id) (case : Id) : Id :=
  match batch with
  | none => case
  | some b => if b.truthy then b else case

/-- Which attribute is set. (problem.py:89-104) -/
inductive FileType where
  | input | output
deriving DecidableEq, Repr

/-- `setattr(case, filetype, file)`. (problem.py:89-104) -/
def Files.set (t : FileType) (file : String) (f : Files) : Files :=
  match t with
  | .input => { f with inp := some file }
  | .output => { f with out := some file }

/-- The inner loop of dmoj/problem.py:92-104 for one file type. -/
def pass (parse : String → Option (Option Id × Option Id)) (t : FileType) :
    List String → Groups × List Id → Except MatchErr (Groups × List Id)
  | [], s => .ok s
  | f :: fs, (groups, batchIds) =>
    match parse f with
    | none => pass parse t fs (groups, batchIds)
    | some (_, none) => .error .noCase
    | some (batch, some case) =>
      let batchIds := match batch with
        | some b => b :: batchIds
        | none => batchIds
      pass parse t fs
        (upd [] (upd ⟨none, none⟩ (Files.set t f) case) (groupKey batch case) groups, batchIds)

/-- `sorted(d.items())` for a dictionary: keys are distinct, so only keys are compared; comparing an
integer with a string raises. (problem.py:107-125) -/
def sortItems {α : Type} (d : List (Id × α)) : Except MatchErr (List (Id × α)) :=
  if d.all (fun x => d.all fun y => x.1.sameType y.1) then
    .ok (d.insertionSort fun x y => x.1.le y.1 = true)
  else .error .typeError

/-- A resulting configuration entry. (problem.py:107-125) -/
inductive Entry (P : Type) where
  | batched (cases : List Files) (points : P)
  | single (case : Files) (points : P)
deriving DecidableEq, Repr

/-- The loop of dmoj/problem.py:107-125; `points i` is the i-th element of the iterator
`case_points`. -/
def emit {P : Type} (points : Nat → Option P) (batchIds : List Id) :
    Nat → List (Id × List (Id × Files)) → Except MatchErr (List (Entry P))
  | _, [] => .ok []
  | i, (id, cases) :: r =>
    if id ∈ batchIds then
      match sortItems cases with
      | .error e => .error e
      | .ok cs =>
        match points i with
        | none => .error .stopIteration
        | some p =>
          match emit points batchIds (i + 1) r with
          | .error e => .error e
          | .ok es => .ok (.batched (cs.map (·.2)) p :: es)
    else
      match cases with
      | [(_, f)] =>
        match points i with
        | none => .error .stopIteration
        | some p =>
          match emit points batchIds (i + 1) r with
          | .error e => .error e
          | .ok es => .ok (.single f p :: es)
      | _ => .error .conflict     -- a group is never empty

/-- `_match_test_cases`, dmoj/problem.py:63-127. -/
def matchTestCases {P : Type} (int : String → Option Int) (files : List String) (inPat outPat : Pattern)
    (points : Nat → Option P) : Except MatchErr (List (Entry P)) :=
  match pass (parsePosition int inPat) .input files ([], []) with
  | .error e => .error e
  | .ok s =>
    match pass (parsePosition int outPat) .output files s with
    | .error e => .error e
    | .ok (groups, batchIds) =>
      match sortItems groups with
      | .error e => .error e
      | .ok gs => emit points batchIds 0 gs

/-! ## Test data of one case, dmoj/problem.py:257-347, 371-372 -/

/-- The relevant configuration of a case; `none` stands for any falsy value. (problem.py:222-233) -/
structure CaseCfg where
  generator : Bool
  inp : Option String
  out : Option String
  binary : Bool
deriving DecidableEq, Repr

/-- One run of the generator: its two output streams, and whether `parse_helper_file_error` raises
for it. (problem.py:257-324) -/
structure GenRun where
  stdout : Option Bytes
  stderr : Option Bytes
  bad : Bool

/-- Exceptions. (problem.py:257-324) -/
inductive DataErr where
  | missing      -- KeyError of the problem data
  | generator    -- InternalError of parse_helper_file_error
deriving DecidableEq, Repr

/-- Outside world: problem files, and what the n-th generator run does. (problem.py:257-324) -/
structure DataWorld where
  files : String → Option Bytes
  run : Nat → GenRun

/-- `self._generated` and the number of generator runs so far. (problem.py:257-324) -/
structure CaseState where
  generated : Option (Bytes × Bytes)
  runs : Nat
deriving DecidableEq, Repr

/-- `_run_generator`, dmoj/problem.py:257-324: compiling and launching are not modelled (they raise
before anything is stored); `_generated` is set before the exit status is looked at. -/
def runGenerator (w : DataWorld) (c : CaseCfg) (s : CaseState) : CaseState × Except DataErr Unit :=
  let r := w.run s.runs
  ({ generated := some (normalize c.binary r.stdout, normalize c.binary r.stderr), runs := s.runs + 1 },
    if r.bad then .error .generator else .ok ())

/-- `if self._generated is None: self._run_generator(...)`. (problem.py:326-347) -/
def ensure (w : DataWorld) (c : CaseCfg) (s : CaseState) : CaseState × Except DataErr Unit :=
  match s.generated with
  | some _ => (s, .ok ())
  | none => runGenerator w c s

/-- `self._normalize(self.problem.problem_data[name])`. (problem.py:326-347) -/
def readFile (w : DataWorld) (c : CaseCfg) (name : String) : Except DataErr Bytes :=
  match w.files name with
  | none => .error .missing
  | some d => .ok (normalize c.binary (some d))

/-- dmoj/problem.py:336-337. -/
def inFile (w : DataWorld) (c : CaseCfg) : Except DataErr Bytes :=
  match c.inp with
  | some f => readFile w c f
  | none => .ok []

/-- `input_data`, dmoj/problem.py:326-337. -/
def inputData (w : DataWorld) (c : CaseCfg) (s : CaseState) : CaseState × Except DataErr Bytes :=
  if c.generator && (c.out.isNone || c.inp.isNone) then
    match ensure w c s with
    | (s, .error e) => (s, .error e)
    | (s, .ok ()) =>
      match s.generated with
      | some (i, _) => if i ≠ [] then (s, .ok i) else (s, inFile w c)
      | none => (s, inFile w c)
  else (s, inFile w c)

/-- `output_data`, dmoj/problem.py:339-347. -/
def outputData (w : DataWorld) (c : CaseCfg) (s : CaseState) : CaseState × Except DataErr Bytes :=
  match c.out with
  | some f => (s, readFile w c f)
  | none =>
    if c.generator then
      match ensure w c s with
      | (s, .error e) => (s, .error e)
      | (s, .ok ()) =>
        match s.generated with
        | some (_, o) => (s, .ok o)
        | none => (s, .ok [])
    else (s, .ok [])

/-- `free_data`, dmoj/problem.py:371-372. -/
def freeData (s : CaseState) : CaseState := { s with generated := none }

/-- Accesses to a case. (problem.py:326-347, 371-372) -/
inductive Access where
  | input | output | free
deriving DecidableEq, Repr

/-- A sequence of accesses: final state and the answers of the input/output accesses. (problem.py:326-347, 371-372) -/
def accesses (w : DataWorld) (c : CaseCfg) :
    CaseState → List Access → CaseState × List (Access × Except DataErr Bytes)
  | s, [] => (s, [])
  | s, .input :: r =>
    let (s1, a) := inputData w c s
    let (s2, as) := accesses w c s1 r
    (s2, (.input, a) :: as)
  | s, .output :: r =>
    let (s1, a) := outputData w c s
    let (s2, as) := accesses w c s1 r
    (s2, (.output, a) :: as)
  | s, .free :: r => accesses w c (freeData s) r

/-! ## Problem data lookup, dmoj/problem.py:188-203 -/

/-- Result of a lookup. (problem.py:188-203) -/
inductive Lookup where
  | found (d : Bytes)
  | keyError
deriving DecidableEq, Repr

/-- `ProblemDataManager.__getitem__`: the dictionary itself, then `__missing__`
(dmoj/problem.py:194-203): the problem directory (`none`: IOError), then the archive if there is one
(`getinfo` raises KeyError). -/
def dataLookup (mem dir : String → Option Bytes) (archive : Option (String → Option Bytes))
    (key : String) : Lookup :=
  match mem key with
  | some d => .found d
  | none =>
    match dir key with
    | some d => .found d
    | none =>
      match archive with
      | none => .keyError
      | some z =>
        match z key with
        | some d => .found d
        | none => .keyError

/-! ## Problem roots, dmoj/judgeenv.py:210-223 -/

/-- `_problem_root_cache`: problem id to root directory. (judgeenv.py:210-223) -/
abbrev RootCache (R : Type) := List (String × R)

/-- One call of `get_problem_root`: `has r id` says whether `<r>/<id>/init.yml` is a file now; the
returned directory `<r>/<id>` is represented by `r`; `none` is KeyError. (judgeenv.py:210-223) -/
def getProblemRoot {R : Type} (has : R → String → Bool) (roots : List R) (cache : RootCache R)
    (id : String) : RootCache R × Option R :=
  let cache :=
    match cache.lookup id with
    | some r =>
      if has r id then cache
      else match roots.find? (has · id) with
        | some r => (id, r) :: cache
        | none => cache
    | none =>
      match roots.find? (has · id) with
      | some r => (id, r) :: cache
      | none => cache
  (cache, cache.lookup id)

/-- A history of calls, the file system and the roots changing in between. (judgeenv.py:210-223) -/
def rootCalls {R : Type} : RootCache R → List ((R → String → Bool) × List R × String) → RootCache R
  | cache, [] => cache
  | cache, (has, roots, id) :: r => rootCalls (getProblemRoot has roots cache id).1 r

end Verif.Problem
