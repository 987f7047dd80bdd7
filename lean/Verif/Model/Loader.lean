/-!
Which executors the judge offers: the command line options `-e` and `-x` (dmoj/judgeenv.py:105-107, 139-140),
dmoj/utils/load.py, dmoj/executors/__init__.py, `initialize` of the executors, `run_self_test`, `get_runtime_versions` and
`parse_version` (dmoj/executors/base_executor.py:120-231), and the versions in the handshake (dmoj/judgeenv.py:310-313,
dmoj/packet.py:90-91).

No module of the package defines `aliases` (load.py:37-40), so they are left out. Texts are lists of characters; bytes of
standard streams are taken as characters. What is printed is left out, and `print` is taken not to raise.
-/

namespace Verif.Loader

/-- judgeenv.py:139-140. -/
abbrev Name := List Char

/-! ### Names -/

/-- `s.split(',')` (judgeenv.py:139-140) -/
def split : List Char → List Name
  | [] => [[]]
  | c :: s =>
    if c = ',' then [] :: split s
    else
      match split s with
      | [] => [[c]]
      | x :: xs => (c :: x) :: xs

/-- `arg and set(arg.split(',')) or set()`, judgeenv.py:139-140. -/
def names : Option (List Char) → List Name
  | none => []
  | some [] => []
  | some (c :: s) => split (c :: s)

/-- executors/__init__.py:8. -/
def upperOrDigit (c : Char) : Bool := ('A' ≤ c && c ≤ 'Z') || ('0' ≤ c && c ≤ '9')

/-- `_reexecutor`, executors/__init__.py:8: `([A-Z0-9]+)\.py$`, where `$` also matches before a line feed at the end. -/
def stem (f : Name) : Option Name :=
  let s := f.takeWhile upperOrDigit
  let r := f.dropWhile upperOrDigit
  if s ≠ [] ∧ (r = ".py".toList ∨ r = ".py\n".toList) then some s else none

/-- `_unsupported_executors`, executors/__init__.py:13. -/
def unsupported : List Name := ["BASH".toList]

/-- Order of code points, as for python strings. (utils/load.py:6-12) -/
def before (a b : Name) : Bool := decide (a ≤ b)

/-- `set(l)`, in some order. (utils/load.py:6-12) -/
def distinct : List Name → List Name
  | [] => []
  | n :: l => if n ∈ l then distinct l else n :: distinct l

/-- utils/load.py:6-12. -/
def insert (n : Name) : List Name → List Name
  | [] => [n]
  | m :: l => if before n m then n :: m :: l else m :: insert n l

/-- `sorted(l)` (utils/load.py:6-12) -/
def sorted : List Name → List Name
  | [] => []
  | n :: l => insert n (sorted l)

/-- `get_available_modules`, load.py:6-12, as called by executors/__init__.py:18-21. -/
def available (listing only exclude : List Name) : List Name :=
  let found := listing.filterMap stem
  let found := if only = [] then found else found.filter (· ∈ only)
  let found := found.filter (· ∉ exclude ++ unsupported)
  sorted (distinct found)

/-! ### Versions -/

/-- base_executor.py:33, 226-231. -/
def digit (c : Char) : Bool := '0' ≤ c && c ≤ '9'

/-- The runs of digits of `\d+(\.\d+)*` after the digits `cur` (backwards), as long as possible. `\d` and `int` are taken for
ASCII. (base_executor.py:33, 226-231) -/
def runs (cur : List Char) : List Char → List (List Char)
  | [] => [cur.reverse]
  | [c] => if digit c then [(c :: cur).reverse] else [cur.reverse]
  | c :: d :: s =>
    if digit c then runs (c :: cur) (d :: s)
    else if c = '.' ∧ digit d = true then cur.reverse :: runs [d] s
    else [cur.reverse]

/-- `int` of a run of digits. (base_executor.py:33, 226-231) -/
def number (l : List Char) : Nat := l.foldl (fun n c => 10 * n + (c.toNat - '0'.toNat)) 0

/-- `parse_version`, base_executor.py:227-232, with `version_regex` of base_executor.py:33 (`least = 2`) or of
`SingleDigitVersionMixin`, mixins.py:163 (`least = 1`): the first place at which there is a version. -/
def parseVersion (least : Nat) : List Char → Option (List Nat)
  | [] => none
  | c :: s =>
    if digit c = true ∧ least ≤ (runs [c] s).length then some ((runs [c] s).map number)
    else parseVersion least s

/-- What `subprocess.check_output` does: the output, `CalledProcessError`, or another exception (`OSError` if the program cannot
be started, an output that is not UTF-8). (base_executor.py:197-224) -/
inductive Out
  | text (s : List Char)
  | failed
  | raised
deriving DecidableEq

/-- base_executor.py:197-224. -/
abbrev Version := List Nat
/-- base_executor.py:197-224. -/
abbrev Versions := List (Name × Version)

/-- Exceptions: which one does not matter here. (base_executor.py:197-224) -/
abbrev M := Except Unit

/-- The flags tried one after the other, base_executor.py:206-221. -/
def tryFlags (least : Nat) (run : List Name → Out) : List (List Name) → M (Option Version)
  | [] => .ok none
  | f :: fs =>
    match run f with
    | .failed => tryFlags least run fs
    | .raised => .error ()
    | .text s =>
      match parseVersion least s with
      | some (v :: vs) => .ok (some (v :: vs))
      | _ => tryFlags least run fs

/-- A key `initialize` asks for: it must be there; its value must be a file; for Java, the same, but a key without value counts
as no key. (base_executor.py:120-131) -/
inductive Need
  | key
  | file
  | soft
deriving DecidableEq

/-- What the classes differ in. `gcc`: a `GCCExecutor`. (base_executor.py:120-131) -/
structure Cls where
  gcc : Bool := false
  least : Nat := 2
  /-- Whether there is a `test_program`. -/
  hasTest : Bool := true
  /-- What must be configured besides the command. -/
  needs : List (Name × Need) := []
  /-- `get_command`; for Java the compiler. -/
  command : Name
  /-- `<name>_home` and the name of the program in its `bin`, for the executors of scripts. -/
  home : Option (Name × Name) := none
  /-- The names `get_versionable_commands` looks up. -/
  versionable : List Name
  flags : Name → List (List Name)
  /-- `get_runtime_versions` of `BF`; those of `TCL` and `PYPY` are left out. -/
  fixed : Option Versions := none

/-- The self-test: an exception when the program is made, started or run, or its results. `faultRaises`: there is a protection
fault that cannot be printed. (base_executor.py:133-187) -/
inductive Test
  | raised
  | ran (tle mle ir rte ole : Bool) (stdout stderr : List Char) (faultRaises : Bool)

/-- The machine: the configured paths (`none`: no such key; `some none`: a key without value), the files, what programs say
about their version, how the self-tests go. (base_executor.py:120-231) -/
structure World where
  runtime : Name → Option (Option Name)
  isFile : Name → Bool
  run : Name → List Name → Out
  test : Name → Test

/-- `runtime_dict.get(key)` (base_executor.py:120-131) -/
def path (w : World) (key : Name) : Option Name := (w.runtime key).join

/-- `os.path.join` of an absolute or relative directory with two names. (script_executor.py:15-22) -/
def inBin (home prog : Name) : Name :=
  let h := if home.getLast? = some '/' ∨ home = [] then home else home ++ ['/']
  h ++ "bin/".toList ++ prog

/-- `get_command`, base_executor.py:120-122, script_executor.py:15-22, RUBY2.py:36-42: an existing key counts for scripts even
without value. -/
def command (w : World) (c : Cls) : Option Name :=
  match c.home with
  | none => path w c.command
  | some (key, prog) =>
    match w.runtime c.command with
    | some p => p
    | none => (path w key).map fun h => inBin h prog

/-- The versions of the commands in turn, base_executor.py:204-221: `versions.append((runtime, version or ()))`. A missing path
makes `check_output` (or the lookup) raise. -/
def probe (w : World) (c : Cls) : List Name → M Versions
  | [] => .ok []
  | r :: rs =>
    match (if r = c.command then command w c else path w r) with
    | none => .error ()
    | some p =>
      match tryFlags c.least (w.run p) (c.flags r) with
      | .error e => .error e
      | .ok v =>
        match probe w c rs with
        | .error e => .error e
        | .ok vs => .ok ((r, v.getD []) :: vs)

/-- base_executor.py:197-224. -/
abbrev Cache := List (Name × Versions)

/-- `get_runtime_versions`, base_executor.py:197-224: the cache is by the name of the executor. -/
def getVersions (w : World) (c : Cls) (name : Name) (cache : Cache) : M (Versions × Cache) :=
  match c.fixed with
  | some v => .ok (v, cache)
  | none =>
    match cache.lookup name with
    | some v => .ok (v, cache)
    | none =>
      match probe w c c.versionable with
      | .error e => .error e
      | .ok v => .ok (v, (name, v) :: cache)

/-! ### Self-test -/

/-- `bytes.strip` (base_executor.py:133-187) -/
def space (c : Char) : Bool := c = ' ' || ('\t' ≤ c && c ≤ '\r')

/-- base_executor.py:133-187. -/
def strip (s : List Char) : List Char := ((s.dropWhile space).reverse.dropWhile space).reverse

/-- base_executor.py:133-187. -/
def message : List Char := "echo: Hello, World!".toList

/-- `run_self_test(output=True)`, base_executor.py:133-187: whether it passes, and the cache of versions afterwards. Every
exception makes it fail. -/
def selfTest (w : World) (c : Cls) (name : Name) (cache : Cache) : Bool × Cache :=
  if !c.hasTest then (true, cache)
  else
    match w.test name with
    | .raised => (false, cache)
    | .ran tle mle _ _ _ stdout stderr faultRaises =>
      if tle then (false, cache)
      else if mle then (false, cache)
      else
        let res := strip stdout == message && stderr.isEmpty
        match getVersions w c name cache with
        | .error _ => (false, cache)
        | .ok (_, cache) => (if faultRaises then false else res, cache)

/-! ### Loading -/

/-- What `import_module` does: `ImportError`, another exception, a module without `Executor`, or a class.
(utils/load.py:15-42) -/
inductive Imported
  | importError
  | raised
  | nothing
  | cls (c : Cls)

/-- The checks before the self-test: mono_executor.py:85-89, TUR.py:30-34, OBJC.py:39-42, RKT.py:34-38, COFFEE.py:31-35,
java_executor.py:152-157 and the base class, base_executor.py:126-130. A key without a value makes `os.path.isfile` raise
`TypeError`. Left out: the assemblers (asm_executor.py:94-108) and the flags that `OBJC` asks `gnustep-config` for. -/
def checks (w : World) (c : Cls) : List (Name × Need) → M Bool
  | [] =>
    match command w c with
    | none => .ok false
    | some p => .ok (w.isFile p)
  | (k, need) :: ks =>
    match w.runtime k, need with
    | none, _ => .ok false
    | some _, .key => checks w c ks
    | some none, .file => .error ()
    | some none, .soft => .ok false
    | some (some p), _ => if w.isFile p then checks w c ks else .ok false

/-- Tuples of numbers in Python: `a > b`. (gcc_executor.py:133) -/
def greater : List Nat → List Nat → Bool
  | [], _ => false
  | _ :: _, [] => true
  | a :: as, b :: bs => if a = b then greater as bs else decide (a > b)

/-- executors/__init__.py:28-38. -/
structure State where
  cache : Cache := []
  /-- `executors`, with the classes, in the order in which they were added. -/
  loaded : List (Name × Cls) := []
  /-- `has_color`, where it was set. -/
  color : List (Name × Bool) := []

/-- `initialize`, with gcc_executor.py:129-134: the versions are asked for outside of any `try`. -/
def initCls (skip : Bool) (w : World) (c : Cls) (name : Name) (s : State) : M (Bool × State) :=
  match checks w c c.needs with
  | .error e => .error e
  | .ok false => .ok (false, s)
  | .ok true =>
    let (res, cache) := if skip then (true, s.cache) else selfTest w c name s.cache
    let s := { s with cache }
    if c.gcc && res then
      match getVersions w c name s.cache with
      | .ok ((_, v) :: _, cache) => .ok (res, { s with cache, color := (name, greater v [4, 9]) :: s.color })
      | _ => .error ()
    else .ok (res, s)

/-- One turn of `load_modules`, load.py:27-42. `load_module` turns only `ImportError` into nothing. -/
def loadOne (skip : Bool) (w : World) (imp : Name → Imported) (name : Name) (s : State) : M State :=
  match imp name with
  | .importError => .ok s
  | .raised => .error ()
  | .nothing => .ok s
  | .cls c =>
    match initCls skip w c name s with
    | .error e => .error e
    | .ok (res, s) => .ok (if res then { s with loaded := s.loaded ++ [(name, c)] } else s)

/-- The loop; an exception keeps the judge from starting (dmoj/judge.py:578). -/
def loadAll (skip : Bool) (w : World) (imp : Name → Imported) : List Name → State → M State
  | [], s => .ok s
  | n :: ns, s =>
    match loadOne skip w imp n s with
    | .error e => .error e
    | .ok s => loadAll skip w imp ns s

/-- The options given: `-e`, `-x`, `--skip-self-test`. (judgeenv.py:105-114, 139-141) -/
structure Args where
  only : Option (List Char) := none
  exclude : Option (List Char) := none
  skip : Bool := false

/-- `load_executors`, executors/__init__.py:28-38. -/
def loadExecutors (a : Args) (w : World) (imp : Name → Imported) (listing : List Name) : M State :=
  loadAll a.skip w imp (available listing (names a.only) (names a.exclude)) {}

/-- `get_runtime_versions` of judgeenv.py:310-313. -/
def handshake (w : World) : List (Name × Cls) → Cache → M (List (Name × Versions) × Cache)
  | [], cache => .ok ([], cache)
  | (n, c) :: rest, cache =>
    match getVersions w c n cache with
    | .error e => .error e
    | .ok (v, cache) =>
      match handshake w rest cache with
      | .error e => .error e
      | .ok (l, cache) => .ok ((n, v) :: l, cache)

end Verif.Loader
