import Verif.Model.Problem

/-!
# Problem roots and the list of problems: dmoj/judgeenv.py:173-180, 210-309, dmoj/judge.py:85-104

Paths are absolute and already joined to `_root` and normalised (`get_path`, judgeenv.py:235-236). Symbolic links and search
permission on the directories along a path are left out.
-/

namespace Verif.Roots

open Verif.Problem

/-- judgeenv.py:235-283. -/
abbrev Path := List String

/-- A file (`readable`: `os.access(.., R_OK)`), or a directory with its modification time, whether it can be listed, and its
entries in the order of `os.listdir`. (judgeenv.py:235-283) -/
inductive Node where
  | file (readable : Bool)
  | dir (listable : Bool) (mtime : Nat) (entries : List (String × Node))

/-- What a path names, if anything. (judgeenv.py:235-283) -/
def find : Node → Path → Option Node
  | n, [] => some n
  | .file _, _ :: _ => none
  | .dir _ _ es, c :: p =>
    match es.lookup c with
    | some n => find n p
    | none => none

/-- `os.path.isdir` (judgeenv.py:235-283) -/
def isDir (fs : Node) (p : Path) : Bool :=
  match find fs p with
  | some (.dir _ _ _) => true
  | _ => false

/-- `os.path.isfile` (judgeenv.py:235-283) -/
def isFile (fs : Node) (p : Path) : Bool :=
  match find fs p with
  | some (.file _) => true
  | _ => false

/-- `os.access(p, os.R_OK)`: for a directory, whether it can be listed. (judgeenv.py:295-307) -/
def canRead (fs : Node) (p : Path) : Bool :=
  match find fs p with
  | some (.file r) => r
  | some (.dir l _ _) => l
  | none => false

/-- `os.path.getmtime` of a directory; not asked of a file. (judgeenv.py:295-307) -/
def mtime (fs : Node) (p : Path) : Nat :=
  match find fs p with
  | some (.dir _ m _) => m
  | _ => 0

/-- `OSError`, `ValueError` and `NameError`, the exceptions told apart here. (judgeenv.py:235-283) -/
inductive Err where
  | os | name
  | value
deriving DecidableEq, Repr

/-- `os.listdir` (judgeenv.py:235-283) -/
def listdir (fs : Node) (p : Path) : Except Err (List String) :=
  match find fs p with
  | some (.dir true _ es) => .ok (es.map (·.1))
  | _ => .error .os

/-- `ret += f(x)` over a list; the first exception ends it (judgeenv.py:251-256, 258-265, 302-306). -/
def gather {α β : Type} (f : α → Except Err (List β)) : List α → Except Err (List β)
  | [] => .ok []
  | x :: xs =>
    match f x with
    | .error e => .error e
    | .ok a =>
      match gather f xs with
      | .error e => .error e
      | .ok b => .ok (a ++ b)

/-- `find_directories_by_depth` for a depth that is not negative, judgeenv.py:243-256. -/
def findDirs (fs : Node) : Nat → Path → Except Err (List Path)
  | 0, p => .ok (if isDir fs p then [p] else [])
  | d + 1, p =>
    match listdir fs p with
    | .error e => .error e
    | .ok names => gather (fun c => if isDir fs (p ++ [c]) then findDirs fs d (p ++ [c]) else .ok []) names

/-- `find_directories_by_depth(.., int(depth))`; `none`: the key is not a number, `int` raises `ValueError`.
(judgeenv.py:243-256, 263) -/
def byDepth (fs : Node) (depth : Option Int) (p : Path) : Except Err (List Path) :=
  match depth with
  | none => .error .value
  | some (.negSucc _) => .error .value
  | some (.ofNat d) => findDirs fs d p

/-- An element of `problem_storage_root`: a path, or a mapping of depths to paths. (judgeenv.py:235-283) -/
inductive Entry where
  | plain (p : Path)
  | deep (l : List (Option Int × Path))

/-- `problem_dirs`: a python list (docker without a configuration, the test suite), a list in the configuration, a string.
(judgeenv.py:235-283) -/
inductive Dirs where
  | list (l : List Path)
  | node (l : List Entry)
  | str (p : Path)

/-- `startup_warnings`: an illegal depth; a problem directory that cannot be accessed. (judgeenv.py:235-283) -/
inductive Warn where
  | depth
  | noDir (p : Path)
deriving DecidableEq, Repr

/-- One `depth: root` pair, judgeenv.py:261-265: a `ValueError` becomes a warning. -/
def deepDirs (fs : Node) (x : Option Int × Path) : Except Err (List (Path ⊕ Warn)) :=
  match byDepth fs x.1 x.2 with
  | .ok l => .ok (l.map .inl)
  | .error .value => .ok [.inr .depth]
  | .error e => .error e

/-- One element of the list, judgeenv.py:258-267. -/
def entryDirs (fs : Node) : Entry → Except Err (List (Path ⊕ Warn))
  | .plain p => .ok [.inl p]
  | .deep l => gather (deepDirs fs) l

/-- The paths collected, with the warnings given meanwhile, judgeenv.py:238-271. -/
def collect (fs : Node) : Dirs → Except Err (List (Path ⊕ Warn))
  | .list l => .ok (l.map .inl)
  | .node l => gather (entryDirs fs) l
  | .str p =>
    match listdir fs p with
    | .error e => .error e
    | .ok names => .ok (((names.map fun c => p ++ [c]).filter (isDir fs)).map .inl)

/-- The paths among them. (judgeenv.py:235-283) -/
def pathsOf (l : List (Path ⊕ Warn)) : List Path := l.filterMap fun | .inl p => some p | .inr _ => none

/-- The warnings among them. (judgeenv.py:235-283) -/
def warnsOf (l : List (Path ⊕ Warn)) : List Warn := l.filterMap fun | .inl _ => none | .inr w => some w

/-- `_problem_dirs_cache`, `_problem_root_cache` and `startup_warnings`; `gone`: the last has been deleted (judge.py:585, cli.py:99). -/
structure State where
  dirs : Option (List Path) := none
  cache : RootCache Path := []
  warns : List Warn := []
  gone : Bool := false

/-- `get_problem_roots`, judgeenv.py:229-283: only `warnings=True` leaves out what is not a directory, and never for a python
list. A warning after `startup_warnings` was deleted is a `NameError` (if a later directory cannot be listed the code raises it before the
`OSError`; which of them it is makes no difference to the callers). -/
def getRoots (cfg : Dirs) (fs : Node) (warnings : Bool) (s : State) : State × Except Err (List Path) :=
  match s.dirs with
  | some l => (s, .ok l)
  | none =>
    match cfg with
    | .list l => ({ s with dirs := some l }, .ok l)
    | cfg =>
      match collect fs cfg with
      | .error e => (s, .error e)
      | .ok l =>
        let ws := warnsOf l ++ (if warnings then ((pathsOf l).filter fun p => !isDir fs p).map .noDir else [])
        if s.gone && !ws.isEmpty then (s, .error .name)
        else
          let l := if warnings then (pathsOf l).filter (isDir fs) else pathsOf l
          ({ s with warns := s.warns ++ ws, dirs := some l }, .ok l)

/-- `problem_dirs` after `load_env`, judgeenv.py:179-180: a string has been replaced by a python list of it. -/
def settled : Dirs → Dirs
  | .str p => .list [p]
  | cfg => cfg

/-- The problems in one root with the times of their directories, judgeenv.py:302-306. -/
def problemsIn (fs : Node) (r : Path) : Except Err (List (String × Nat)) :=
  match listdir fs r with
  | .error e => .error e
  | .ok names => .ok ((names.filter fun c => canRead fs (r ++ [c, "init.yml"])).map fun c => (c, mtime fs (r ++ [c])))

/-- `get_supported_problems`, judgeenv.py:295-307. -/
def supported (cfg : Dirs) (fs : Node) (s : State) : State × Except Err (List (String × Nat)) :=
  match getRoots (settled cfg) fs false s with
  | (s, .error e) => (s, .error e)
  | (s, .ok roots) => (s, gather (problemsIn fs) roots)

/-- `get_problem_root`, judgeenv.py:213-223: the roots are asked for only without a usable cached directory. -/
def problemRoot (cfg : Dirs) (fs : Node) (id : String) (s : State) : State × Except Err (Option Path) :=
  let has := fun r id => isFile fs (r ++ [id, "init.yml"])
  let ask :=
    match s.cache.lookup id with
    | none => true
    | some r => !has r id
  if ask then
    match getRoots (settled cfg) fs false s with
    | (s, .error e) => (s, .error e)
    | (s, .ok roots) =>
      let (c, r) := getProblemRoot has roots s.cache id
      ({ s with cache := c }, .ok r)
  else
    let (c, r) := getProblemRoot has [] s.cache id
    ({ s with cache := c }, .ok r)

/-- The end of `load_env`, judgeenv.py:173-174. -/
def start (cfg : Dirs) (fs : Node) : State × Except Err (List Path) := getRoots cfg fs true {}

/-- `del judgeenv.startup_warnings`, judge.py:585, before the judge connects. -/
def running (s : State) : State := { s with gone := true }

/-- One turn of `_updater_thread`, judge.py:100-104: the packet sent, or the exception that was logged instead. -/
def update (cfg : Dirs) (fs : Node) (s : State) : State × Except Err (List (String × Nat)) :=
  supported cfg fs { s with dirs := none }

/-- What happens to the module's state: a turn of the updater; a connection (`_connect`, packet.py:89-90) or another request for
the list; a request for a problem's directory. -/
inductive Op where
  | update
  | list
  | root (id : String)

/-- One of them, with the file system of that moment. (judgeenv.py:210-307) -/
def op (cfg : Dirs) (s : State) : Node × Op → State
  | (fs, .update) => (update cfg fs s).1
  | (fs, .list) => (supported cfg fs s).1
  | (fs, .root id) => (problemRoot cfg fs id s).1

/-- A history after the start. (judgeenv.py:210-307) -/
def after (cfg : Dirs) (fs : Node) (l : List (Node × Op)) : State := l.foldl (op cfg) (running (start cfg fs).1)

end Verif.Roots
