import Verif.Model.Roots

/-!
# What the judge starts with: `load_env` of dmoj/judgeenv.py:55-208

The command line has been taken apart by argparse; `-e` and `-x` are in Loader.lean, the regular expressions of the test suite in
TestSuite.lean. Paths are absolute, as in Roots.lean.
-/

namespace Verif.Startup

open Verif.Roots

/-- Values in the configuration: `None`, a string, a list (as `problem_storage_root`), anything else but a
mapping. (judgeenv.py:55-208) -/
inductive V where
  | null
  | text (s : String)
  | roots (l : List Entry)
  | other (n : Nat)

/-- What `yaml.safe_load` returns: `None` for an empty file, a mapping (or what `dict.update` takes for one, such as an empty list), something
else. (judgeenv.py:55-208) -/
inductive Doc where
  | empty
  | map (f : String → Option V)
  | other

/-- The file does not open, or has that contents. (judgeenv.py:55-208) -/
abbrev File := Option Doc

/-- `load_env()` of judge.py, `load_env(cli=True)` of cli.py, `load_env(cli=True, testsuite=True)` of testsuite.py.
(judge.py:576, cli.py:78, testsuite.py:278) -/
inductive Mode where
  | judge | cli | testsuite
deriving DecidableEq, Repr

/-- The arguments used here, judgeenv.py:63-118. -/
structure Args where
  name : Option String := none
  key : Option String := none
  apiPort : Option Int := none
  apiHost : String := "127.0.0.1"
  secure : Bool := false
  noCert : Bool := false
  certs : Option String := none
  noWatchdog : Bool := false
  testsDir : Path := []

/-- The machine: whether `DMOJ_IN_DOCKER` is set to something, /judge-runtime-paths.yml, the configuration file, the file system, and
`get_path(_root, ..)`, the path a string stands for. (judgeenv.py:55-208) -/
structure Machine where
  docker : Bool
  runtimes : File
  config : File
  fs : Node
  dirOf : String → Path

/-- How `load_env` ends otherwise: `IOError`, an exception of `dict.update`, `SystemExit`, a `TypeError` of `os.path.join`, an
exception of `get_problem_roots`. (judgeenv.py:55-208) -/
inductive Fail where
  | io | update | exit | type | roots (e : Err)
deriving DecidableEq, Repr

/-- The globals of judgeenv.py. (judgeenv.py:43-53) -/
structure Conf where
  env : String → Option V
  dirs : Dirs
  watches : List Path
  state : State
  api : Option (String × Int)
  secure : Bool
  noCert : Bool
  certs : Option String
  noWatchdog : Bool

/-- `env`, judgeenv.py:16-41, as far as used here: none of its defaults is. -/
def env0 : String → Option V := fun _ => none

/-- `env.update(yaml.safe_load(..))`, config.py:59-63. -/
def update (env : String → Option V) : Doc → Except Fail (String → Option V)
  | .map f => .ok fun k => (f k).or (env k)
  | .empty => .error .update
  | .other => .error .update

/-- `env[k] = v` (judgeenv.py:55-208) -/
def setKey (env : String → Option V) (k : String) (v : V) : String → Option V := fun k' => if k' = k then some v else env k'

/-- `env[k]`, config.py:86-120: `None` for what is not there. -/
def get (env : String → Option V) (k : String) : V := (env k).getD .null

/-- An argument that is given and not empty. (judgeenv.py:55-208) -/
def given : Option String → Option String
  | some "" => none
  | x => x

/-- `env.problem_storage_root`, config.py:83-84. -/
def storage (env : String → Option V) : V :=
  match get env "problem_storage_root" with
  | .null => get env "problem-storage-root"
  | v => v

/-- judgeenv.py:130-131, 144-145: only the judge has an API. -/
def apiOf (mode : Mode) (docker : Bool) (a : Args) : Option (String × Int) :=
  match mode with
  | .judge =>
    let api := match a.apiPort with
      | some p => if p = 0 then none else some (a.apiHost, p)
      | none => none
    if docker then api.or (some ("0.0.0.0", 9998)) else api
  | _ => none

/-- judgeenv.py:142-150: `env` and `problem_dirs` in a docker container. `problem_dirs` starts as an empty tuple, which every path
through the rest replaces or fails on. -/
def inDocker (m : Machine) : Except Fail ((String → Option V) × Option Dirs) :=
  if m.docker then
    match m.runtimes with
    | none => .error .io
    | some d => match update env0 d with
      | .error e => .error e
      | .ok env => .ok (env, some (.list [["problems"]]))
  else .ok (env0, none)

/-- judgeenv.py:152-171. A `problem_dirs` of `none` stands for what `get_problem_roots` fails on with a `TypeError`. -/
def configured (mode : Mode) (a : Args) (m : Machine) (env : String → Option V) (dirs : Option Dirs) :
    Except Fail ((String → Option V) × Option Dirs) :=
  match m.config with
  | none => if m.docker then .ok (env, dirs) else .error .io
  | some d => match update env d with
    | .error e => .error e
    | .ok env =>
      -- only the judge has these two arguments
      let env := match mode, given a.name with
        | .judge, some n => setKey env "id" (.text n)
        | _, _ => env
      let env := match mode, given a.key with
        | .judge, some n => setKey env "key" (.text n)
        | _, _ => env
      match storage env with
      | .null => if mode = .testsuite then .ok (env, none) else .error .exit
      | .roots l => .ok (env, some (.node l))
      | .text s => .ok (env, some (.str (m.dirOf s)))
      | .other _ => .ok (env, none)

/-- judgeenv.py:182-188, after a string has become a list of it. -/
def watchesOf : Dirs → List Path
  | .list l => l
  | .str p => [p]
  | .node l => l.flatMap fun
    | .plain p => [p]
    | .deep m => m.map (·.2)

/-- `load_env` (judgeenv.py:55-208) -/
def loadEnv (mode : Mode) (a : Args) (m : Machine) : Except Fail Conf :=
  match inDocker m with
  | .error e => .error e
  | .ok (env, dirs) => match configured mode a m env dirs with
    | .error e => .error e
    | .ok (_, none) => .error .type
    | .ok (env, some dirs) =>
      -- judgeenv.py:174
      match getRoots dirs m.fs true {} with
      | (_, .error e) => .error (.roots e)
      | (s, .ok _) =>
        let conf : Conf :=
          { env := env, dirs := dirs, watches := watchesOf dirs, state := s, api := apiOf mode m.docker a
            secure := mode = .judge && a.secure, noCert := mode = .judge && a.noCert
            certs := if mode = .judge then a.certs else none
            noWatchdog := if mode = .judge then a.noWatchdog else true }
        -- judgeenv.py:190-194
        if mode = .testsuite then
          if isDir m.fs a.testsDir then .ok { conf with dirs := .list [a.testsDir], state := { s with dirs := none } }
          else .error .exit
        else .ok conf

end Verif.Startup
