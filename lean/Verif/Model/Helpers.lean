import Verif.Model.Config
/-!
Which grader, checker and generator a problem is judged with, and how the helper programs are put together:
dmoj/problem.py:156-173, 257-324, 349-369, dmoj/utils/helper_files.py:16-61, dmoj/graders/bridged.py:94-105,
dmoj/graders/signature.py, and the source files of dmoj/executors/gcc_executor.py:28-43.

Dynamic keys of the configuration are left out here (they are the subject of C30): the lookups are those of
`ConfigNode.__getitem__` on nodes without such keys for the names in question.
-/

namespace Verif.Helpers

open Verif.Config

/-- `node[s]`, dmoj/config.py:86-120 without dynamic keys. -/
def look (heap : Heap) : Chain → Name → Res
  | [], _ => .value .null
  | r :: rest, s =>
    match own heap r (.str s) with
    | some v => wrap v (r :: rest)
    | none =>
      match rest with
      | [] => .value .null
      | p :: _ => if nonEmpty heap p then look heap rest s else .value .null

/-- `node.s`, dmoj/config.py:83-84. -/
def attr (heap : Heap) (c : Chain) (s : Name) : Res :=
  match look heap c s with
  | .value .null => look heap c (dashed s)
  | r => r

/-- `node.get(s, dflt)`, dmoj/config.py:70-71. -/
def getOr (heap : Heap) (c : Chain) (s : Name) (dflt : Res) : Res :=
  let r := look heap c s
  if r.truthy heap then r else dflt

/-! ### Graders -/

/-- problem.py:162-173. -/
inductive Grader
  | custom | signature | interactive | standard
deriving DecidableEq, Repr

/-- `s in node`: a `ConfigNode` has no `__contains__`, so Python goes through `__iter__` (dmoj/config.py:128-132),
the keys of the node's own dictionary. -/
def contains (heap : Heap) (r : Nat) (s : Name) : Bool :=
  match heap[r]? with
  | some (.dict l) => l.any fun e => e.1 = .str s
  | some (.list l) => l.any fun v => v = .str s
  | none => false

/-- `grader_class`, dmoj/problem.py:162-173, for the root node of the configuration. -/
def graderClass (heap : Heap) (root : Nat) : Grader :=
  if contains heap root "custom_judge".toList then .custom
  else if contains heap root "signature_grader".toList then .signature
  else if contains heap root "interactive".toList then .interactive
  else .standard

/-! ### Checkers -/

/-- A checker module: whether it has a callable `check`. (problem.py:156-160, 349-369) -/
structure Module where
  id : Nat
  check : Bool
deriving DecidableEq, Repr

/-- Loading a module from a file: it cannot be read, its code raises `AttributeError`, or something else.
(problem.py:156-160, 349-369) -/
inductive LoadErr
  | io | attribute | other
deriving DecidableEq, Repr

/-- What is outside: the attributes of the package `dmoj.checkers`, and the files of the problem.
(problem.py:156-160, 349-369) -/
structure CheckerWorld where
  builtin : Name → Option Module
  file : Name → Except LoadErr Module

/-- problem.py:156-160, 349-369. -/
inductive CheckerErr
  /-- `InvalidInitException`. -/
  | invalidInit
  /-- `TypeError`, not caught. -/
  | typeError
  /-- Raised by the code of the checker, not caught. -/
  | raised
deriving DecidableEq, Repr

/-- The checker found by its name, dmoj/problem.py:357-365. A name that is not a string makes `'.' in name` or
the loading raise `TypeError`. -/
def byName (w : CheckerWorld) : Res → Except CheckerErr Module
  | .value (.str name) =>
    if '.' ∈ name then
      match w.file name with
      | .ok m => .ok m
      | .error .io => .error .invalidInit
      | .error .attribute => .error .invalidInit
      | .error .other => .error .raised
    else
      match w.builtin name with
      | some m => .ok m
      | none => .error .invalidInit
  | _ => .error .typeError

/-- `partial(checker.check, **params)`, dmoj/problem.py:369: `**` wants a dictionary with strings for keys; of a list it asks the node
for `keys()`, which raises `InvalidInitException` (dmoj/config.py:65-68). -/
def keywords (heap : Heap) : Option Res → Except CheckerErr Unit
  | none => .ok ()
  | some (.node (r :: _)) =>
    match heap[r]? with
    | some (.dict l) => if l.all fun e => match e.1 with | .str _ => true | .int _ => false then .ok () else .error .typeError
    | some (.list _) => .error .invalidInit
    | none => .error .typeError
  | some _ => .error .typeError

/-- `checker`, dmoj/problem.py:349-369: the module and the parameters (`none`: no parameters). -/
def checker (w : CheckerWorld) (heap : Heap) (case : Chain) : Except CheckerErr (Module × Option Res) :=
  let name := getOr heap case "checker".toList (.value (.str "standard".toList))
  let r : Except CheckerErr (Module × Option Res) := match name with
    | .node c =>
      let args := look heap c "args".toList
      let params := if args.truthy heap then some args else none
      (byName w (look heap c "name".toList)).map fun m => (m, params)
    | v => (byName w v).map fun m => (m, none)
  match r with
  | .error e => .error e
  | .ok (m, p) => if m.check then (keywords heap p).map fun _ => (m, p) else .error .invalidInit

/-! ### Generators -/

/-- problem.py:257-324. -/
inductive GenErr
  | invalidInit
  /-- `AttributeError` or `TypeError`: the declaration has a shape the code does not expect. -/
  | crash
deriving DecidableEq, Repr

/-- `list(node)` and `l += node`: elements of a list, keys of a dictionary, characters of a string.
(problem.py:257-324) -/
def elements (heap : Heap) : Res → Option (List V)
  | .node (r :: _) =>
    match heap[r]? with
    | some (.list l) => some l
    | some (.dict l) => some (l.map fun e => match e.1 with
      | .str s => .str s
      | .int n => .int n)
    | none => none
  | .value (.str s) => some (s.map fun c => .str [c])
  | _ => none

/-- What the generator is run with. (problem.py:257-324) -/
structure Options where
  files : List V
  flags : List V
  args : List V
  time : Res
  memory : Res
  compilerTime : Res
  cached : Res
  lang : Res
deriving DecidableEq, Repr

/-- The limits of the judge's configuration (`env.generator_*`). (problem.py:257-324) -/
structure GenEnv where
  time : Int
  memory : Int
  compilerTime : Int

/-- `a or b`. (problem.py:257-324) -/
def orElse (heap : Heap) (a b : Res) : Res := if a.truthy heap then a else b

/-- `filenames` of a string or list, `none` for other things (dmoj/problem.py:269-272, 274-277). -/
def fileNames (heap : Heap) : Res → Except GenErr (List V)
  | .value (.str s) => .ok [.str s]
  | .node (r :: _) =>
    match heap[r]? with
    | some (.list l) => .ok l
    | _ => .error .invalidInit
  | _ => .error .crash

/-- The optional extension of a list, dmoj/problem.py:281-284. -/
def extend (heap : Heap) (l : List V) (r : Res) : Except GenErr (List V) :=
  if r.truthy heap then
    match elements heap r with
    | some x => .ok (l ++ x)
    | none => .error .crash
  else .ok l

/-- The settings of `_run_generator`, dmoj/problem.py:257-293, for `gen` as configured (which counts as true) and
the value of `generator_args`. -/
def options (env : GenEnv) (heap : Heap) (gen args : Res) : Except GenErr Options :=
  let dflt (files args : List V) : Options :=
    ⟨files, [], args, .value (.int env.time), .value (.int env.memory), .value (.int env.compilerTime),
      .value (.bool true), .value .null⟩
  match extend heap [] args with
  | .error e => .error e
  | .ok args =>
    match gen with
    | .value (.str s) => .ok (dflt [.str s] args)
    | .node (r :: rest) =>
      match heap[r]? with
      | some (.list l) => .ok (dflt l args)
      | _ =>
        let c := r :: rest
        match fileNames heap (attr heap c "source".toList) with
        | .error e => .error e
        | .ok files =>
          match extend heap [] (attr heap c "flags".toList) with
          | .error e => .error e
          | .ok flags =>
            match (if args.isEmpty then extend heap [] (attr heap c "args".toList) else .ok args) with
            | .error e => .error e
            | .ok args =>
              .ok ⟨files, flags, args,
                orElse heap (attr heap c "time_limit".toList) (.value (.int env.time)),
                orElse heap (attr heap c "memory_limit".toList) (.value (.int env.memory)),
                orElse heap (attr heap c "compiler_time_limit".toList) (.value (.int env.compilerTime)),
                getOr heap c "cached".toList (.value (.bool true)),
                attr heap c "language".toList⟩
    | _ => .error .crash

/-! ### Putting a helper program together -/

/-- What is known of an executor class. (helper_files.py:16-61) -/
structure Exec where
  /-- A `CompiledExecutor`. -/
  compiled : Bool
  /-- A `GCCExecutor`: takes `aux_sources`. -/
  gcc : Bool
  ext : Name
  /-- The attribute `flags`, if there is one. -/
  flags : Option (List Name)
  /-- `compiler_time_limit` of the class. -/
  limit : Option Int
deriving DecidableEq, Repr

/-- helper_files.py:16-61. -/
inductive AuxErr
  /-- No executor for the language. -/
  | noExecutor
  /-- `InternalError`: several files for a language other than C or C++. -/
  | multiFile
  /-- A keyword argument the executor does not know. -/
  | typeError
  /-- No file at all. -/
  | indexError
  /-- A file cannot be read. -/
  | io
deriving DecidableEq, Repr

/-- `os.path.basename`. (helper_files.py:20-36) -/
def basename (s : Name) : Name := (s.reverse.takeWhile (· ≠ '/')).reverse

/-- `os.path.splitext(s)[1]`: from the last dot of the last component on, unless only dots come before it.
(helper_files.py:20-36) -/
def extension (s : Name) : Name :=
  let r := (basename s).reverse
  let e := r.takeWhile (· ≠ '.')
  match r.drop e.length with
  | [] => []
  | dot :: before => if before.all (· = '.') then [] else (dot :: e.reverse)

/-- `d[k] = v`. (gcc_executor.py:28-43) -/
def put {α : Type} (k : Name) (v : α) : List (Name × α) → List (Name × α)
  | [] => [(k, v)]
  | (k', v') :: d => if k' = k then (k, v) :: d else (k', v') :: put k v d

/-- `sources`, helper_files.py:20-24: by the last component of the path. -/
def sources (read : Name → Option (List UInt8)) : List Name → List (Name × List UInt8) → Except AuxErr (List (Name × List UInt8))
  | [], d => .ok d
  | f :: fs, d =>
    match read f with
    | none => .error .io
    | some data => sources read fs (put (basename f) data d)

/-- helper_files.py:20-36. -/
def useCpp (files : List Name) : Bool := files.any fun f => extension f = ".cpp".toList || extension f = ".cc".toList

/-- helper_files.py:20-36. -/
def useC (files : List Name) : Bool := files.any fun f => extension f = ".c".toList

/-- `best_choices`, helper_files.py:35. -/
def choices (files : List Name) : List Name :=
  if useCpp files then ["CPP20", "CPP17", "CPP14", "CPP11", "CPP03"].map String.toList else ["C11", "C"].map String.toList

/-- `lang`, helper_files.py:34-36. -/
def chooseLang (executors : List (Name × Exec)) (files : List Name) : Option Name → Option Name
  | some l => some l
  | none => (choices files).find? fun l => (executors.lookup l).isSome

/-- `create_files` of `GCCExecutor`, gcc_executor.py:36-43: the directory, and the files given to the compiler. -/
def createFiles (ext : Name) : List (Name × List UInt8) → List (Name × List UInt8) × List Name → List (Name × List UInt8) × List Name
  | [], s => s
  | (name, data) :: rest, (dir, paths) =>
    let name := if '.' ∈ name then name else name ++ '.' :: ext
    createFiles ext rest (put name data dir, paths ++ [name])

/-- `GCCExecutor.__init__`, gcc_executor.py:28-31: the main source joins the auxiliary ones. -/
def sourceDict (ext : Name) (problem : Name) (main : Option (List UInt8)) (aux : List (Name × List UInt8)) : List (Name × List UInt8) :=
  match main with
  | some (b :: bs) => put (problem ++ ext) (b :: bs) aux
  | _ => aux

/-- The program that is made. (helper_files.py:16-61) -/
structure Built where
  lang : Name
  /-- The directory in which it is compiled or run. -/
  dir : List (Name × List UInt8)
  /-- The files the compiler is given. -/
  paths : List Name
  flags : Option (List Name)
  /-- The time limit of its compiler: not set for executors that do not compile. -/
  limit : Option (Option Int)
  cached : Bool
deriving DecidableEq, Repr

/-- `compile_with_auxiliary_files`, helper_files.py:16-61, up to the constructor of the executor and, for
`GCCExecutor`, its `create_files`. Other executors write the one source to a file named after the problem and their
extension. -/
def auxiliary (executors : List (Name × Exec)) (read : Name → Option (List UInt8)) (files : List Name) (flags : List Name)
    (lang : Option Name) (limit : Option Int) (cached : Bool) : Except AuxErr Built :=
  match sources read files [] with
  | .error e => .error e
  | .ok src =>
    match chooseLang executors files lang with
    | none => .error .noExecutor
    | some l =>
      match executors.lookup l with
      | none => .error .noExecutor
      | some x =>
        let flags := x.flags.map fun f => flags ++ f
        let limit := if x.compiled then some limit else none
        if useCpp files || useC files then
          if x.gcc then
            let (dir, paths) := createFiles x.ext (sourceDict x.ext "_aux_file".toList none src) ([], [])
            .ok ⟨l, dir, paths, flags, limit, cached⟩
          else .error .typeError
        else
          match src with
          | [] => .error .indexError
          | [(_, data)] =>
            if x.gcc then
              let (dir, paths) := createFiles x.ext (sourceDict x.ext "_aux_file".toList (some data) []) ([], [])
              .ok ⟨l, dir, paths, flags, limit, false⟩
            else
              let name := "_aux_file.".toList ++ x.ext
              .ok ⟨l, [(name, data)], [name], flags, limit, false⟩
          | _ => .error .multiFile

/-- The interactor of a bridged problem, dmoj/graders/bridged.py:94-105: the limit of the compiler is the configured
one or nothing. -/
def interactorLimit (heap : Heap) (handler : Chain) : Option Int :=
  match attr heap handler "compiler_time_limit".toList with
  | .value (.int n) => some n
  | _ => none

/-! ### Signature grading -/

/-- `siggraders`, signature.py:11. -/
def sigLanguages : List Name :=
  ["C", "C11", "CPP03", "CPP11", "CPP14", "CPP17", "CPP20", "CLANG", "CLANGX"].map String.toList

/-- A string as bytes (ASCII; `utf8bytes`). (signature.py:10-32) -/
def bytes (s : Name) : List UInt8 := s.map fun c => UInt8.ofNat c.toNat

/-- `submission_prefix`, signature.py:20-22; `uuid` stands for the random name. -/
def prefixOf (header : Name) (allowMain : Bool) (uuid : Name) : List UInt8 :=
  bytes ("#include \"".toList ++ header ++ "\"\n".toList) ++
    if allowMain then [] else bytes ("#define main main_".toList ++ uuid ++ "\n".toList)

/-- `_generate_binary` of the signature grader, signature.py:10-32, with `create_files`: what is compiled; `none`:
`InternalError`. -/
def signature (ext lang problem header : Name) (entry headerData source : List UInt8) (allowMain : Bool) (uuid : Name) :
    Option (List (Name × List UInt8) × List Name) :=
  if lang ∈ sigLanguages then
    let aux := put header headerData (put (problem ++ "_submission".toList) (prefixOf header allowMain uuid ++ source) [])
    some (createFiles ext (sourceDict ext problem (some entry) aux) ([], []))
  else none

end Verif.Helpers
