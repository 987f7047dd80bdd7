import Verif.Model.Names

/-!
# Loading a problem: dmoj/problem.py:24-61, 129-153, 175-185

From `init.yml` to the list of test cases. Values are YAML documents; keys that are not strings are left out, they are
never asked for. Dynamic keys (`...+`, `...++`) are not treated here (C30), nor the objects' identity.
-/

namespace Verif.Load
open Problem (Pattern Entry MatchErr)

/-- A value of a document; `num` is any other scalar. (problem.py:41) -/
inductive Y where
  | null
  | bool (b : Bool)
  | num (n : Int)
  | str (s : String)
  | list (l : List Y)
  | map (l : List (String × Y))

/-- `yaml.safe_load`: a document, or the class of the error. (problem.py:41, 57) -/
inductive Yaml where
  | doc (y : Y)
  | parserError
  | scannerError
  /-- ReaderError, ComposerError, ConstructorError -/
  | otherError

/-- What is at the path of the archive. (problem.py:175-185) -/
inductive Archive where
  | missing
  | notZip
  /-- a directory, or no permission -/
  | unreadable
  | zip (names : List String)

/-- What a problem is loaded from; `init` is `none` if `init.yml` cannot be read, `root` is `false` if no directory has the
problem. (problem.py:24-61) -/
structure World where
  root : Bool
  init : Option Yaml
  archive : String → Archive
  u : Names.Chars
  int : String → Option Int
  /-- `re.compile(text, re.IGNORECASE)` for a configured format; `none`: `re.error` -/
  compile : String → Option Pattern

/-- Exceptions. (problem.py:24-61) -/
inductive Err where
  | invalidInit
  | keyError
  | typeError
  | valueError
  | attributeError
  | yamlError
  | osError
  | reError
  | stopIteration
deriving DecidableEq, Repr

/-- Python's truth value; of a node, whether it is empty. (problem.py:42, 144-146, 176) -/
def Y.truthy : Y → Bool
  | .null => false
  | .bool b => b
  | .num n => n != 0
  | .str s => s != ""
  | .list l => !l.isEmpty
  | .map l => !l.isEmpty

/-- `ConfigNode(value)` for what is read from a node: `raw_config or {}` makes an empty list an empty dictionary.
(config.py:46-54, 116-117) -/
def Y.wrap : Y → Y
  | .list [] => .map []
  | y => y

/-- What `dict.update` makes of an element of a list: a pair, or an error; a pair whose first is no string is dropped.
(config.py:50) -/
def pairOf : Y → Except Err (Option (String × Y))
  | .list [.str k, v] => .ok (some (k, v))
  | .list [.list _, _] => .error .typeError
  | .list [.map _, _] => .error .typeError
  | .list [_, _] => .ok none
  | .list _ => .error .valueError
  | .map [(k, _), (k', _)] => .ok (some (k, .str k'))
  | .map _ => .error .valueError
  | .str s =>
    match s.toList with
    | [a, b] => .ok (some (String.singleton a, .str (String.singleton b)))
    | _ => .error .valueError
  | _ => .error .typeError

/-- The elements one after the other. (config.py:50) -/
def pairs : List Y → Except Err (List (String × Y))
  | [] => .ok []
  | y :: l =>
    match pairOf y with
    | .error e => .error e
    | .ok p =>
      match pairs l with
      | .error e => .error e
      | .ok r => .ok (p.toList ++ r)

/-- The key is there, for lists an element, for texts a part: `'signature_grader' in doc`. (problem.py:48) -/
def inDoc (k : String) : Y → Option Bool
  | .map l => some ((l.lookup k).isSome)
  | .list l => some (l.any fun | .str s => s == k | _ => false)
  | .str s => some (decide (k.toList <:+: s.toList))
  | _ => none

/-- The defaults. (problem.py:46-55) -/
def defaults (meta_ : Y) (signature : Bool) : List (String × Y) :=
  [("wall_time_factor", .num 3), ("output_prefix_length", .num (if signature then 0 else 64)),
    ("output_limit_length", .num 25165824), ("binary_data", .bool false), ("short_circuit", .bool true),
    ("points", .num 1), ("symlinks", .map []), ("meta", meta_)]

/-- `ConfigNode(doc, defaults=...)`: the first entry of a key counts. A later pair of a list counts more than an earlier.
(problem.py:44-56, config.py:46-54) -/
def configOf (meta_ : Y) (doc : Y) : Except Err (List (String × Y)) :=
  match inDoc "signature_grader" doc with
  | none => .error .typeError
  | some s =>
    match doc with
    | .map l => .ok (l ++ defaults meta_ s)
    | .list l =>
      match pairs l with
      | .error e => .error e
      | .ok r => .ok (r.reverse ++ defaults meta_ s)
    | _ => .error .valueError

/-- `self.config[name]` (problem.py:147) -/
def item (c : List (String × Y)) (k : String) : Y := ((c.lookup k).getD .null).wrap

/-- The text with hyphens for underscores. (config.py:84) -/
def hyphens (k : String) : String := String.ofList (k.toList.map fun c => if c = '_' then '-' else c)

/-- `self.config.name` (config.py:83-84) -/
def attr (c : List (String × Y)) (k : String) : Y :=
  match item c k with
  | .null => item c (hyphens k)
  | y => y

/-- `_resolve_archive_files`, problem.py:175-185. -/
def archiveOf (w : World) (c : List (String × Y)) : Except Err (Option (List String)) :=
  let a := attr c "archive"
  if a.truthy then
    match a with
    | .str s =>
      match w.archive s with
      | .missing => .error .invalidInit
      | .notZip => .error .invalidInit
      | .unreadable => .error .osError
      | .zip l => .ok (some l)
    | _ => .error .typeError
  else .ok none

/-- `get_with_default(name, ...)`; `none`: the default. `t` is the node of the test cases, `none` when there is none.
(problem.py:144-147) -/
def withDefault (c : List (String × Y)) (t : Option (List (String × Y))) (k : String) : Option Y :=
  match t with
  | none => none
  | some [] => none
  | some l =>
    let v := match l.lookup k with
      | some v => v.wrap
      | none => item c k
    if v.truthy then some v else none

/-- `re.compile(...)` (problem.py:150-151) -/
def pattern (w : World) (dflt : Names.Str) : Option Y → Except Err Pattern
  | none =>
    match Names.parse dflt with
    | some r => .ok (Names.matches? w.u r)
    | none => .error .reError
  | some (.str s) =>
    match w.compile s with
    | some p => .ok p
    | none => .error .reError
  | some _ => .error .typeError

/-- `iter(...)` of the points: the elements of a list, the keys of a dictionary, the characters of a text; by default the points
of the problem again and again. (problem.py:152) -/
def pointsOf (c : List (String × Y)) : Option Y → Except Err (Nat → Option Y)
  | none => .ok fun _ => some (attr c "points")
  | some (.list l) => .ok fun i => (l[i]?).map Y.wrap
  | some (.map l) => .ok fun i => (l[i]?).map fun x => .str x.1
  | some (.str s) => .ok fun i => (s.toList[i]?).map fun x => .str (String.singleton x)
  | some _ => .error .typeError

/-- The test cases: those in the configuration, or found. (problem.py:135-153) -/
inductive Cases where
  | given (l : List Y)
  | found (l : List (Entry Y))

/-- The exceptions of `_match_test_cases`. (problem.py:63-127) -/
def ofMatch : MatchErr → Err
  | .noCase => .invalidInit
  | .conflict => .invalidInit
  | .typeError => .typeError
  | .stopIteration => .stopIteration

/-- problem.py:149-153: the arguments in the order in which they are evaluated, then the search. -/
def find (w : World) (c : List (String × Y)) (files : Option (List String)) (t : Option (List (String × Y))) : Except Err Cases :=
  match files with
  | none => .error .invalidInit
  | some names =>
    match pattern w Names.inputPattern (withDefault c t "input_format") with
    | .error e => .error e
    | .ok i =>
      match pattern w Names.outputPattern (withDefault c t "output_format") with
      | .error e => .error e
      | .ok o =>
        match pointsOf c (withDefault c t "case_points") with
        | .error e => .error e
        | .ok p =>
          match Problem.matchTestCases w.int names i o p with
          | .error e => .error (ofMatch e)
          | .ok l => .ok (.found l)

/-- `_resolve_test_cases`, problem.py:135-153. -/
def casesOf (w : World) (c : List (String × Y)) (files : Option (List String)) : Except Err Cases :=
  match attr c "test_cases" with
  | .list l => .ok (.given l)
  | .null => find w c files none
  | .map l => find w c files (some l)
  | _ => .error .attributeError

/-- A loaded problem. (problem.py:24-61) -/
structure Loaded where
  config : List (String × Y)
  archive : Option (List String)
  cases : Cases

/-- Archive and test cases, problem.py:60-61. -/
def resolve (w : World) (c : List (String × Y)) : Except Err Loaded :=
  match archiveOf w c with
  | .error e => .error e
  | .ok a =>
    match casesOf w c a with
    | .error e => .error e
    | .ok l => .ok ⟨c, a, l⟩

/-- `Problem(...)`, problem.py:24-61. -/
def load (w : World) (meta_ : Y) : Except Err Loaded :=
  if w.root then
    match w.init with
    | none => .error .invalidInit
    | some .parserError => .error .invalidInit
    | some .scannerError => .error .invalidInit
    | some .otherError => .error .yamlError
    | some (.doc y) =>
      if y.truthy then
        match configOf meta_ y with
        | .error e => .error e
        | .ok c => resolve w c
      else .error .invalidInit
  else .error .keyError

end Verif.Load
