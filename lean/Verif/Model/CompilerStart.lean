/-!
# What a compiler is started with: dmoj/executors/compiled_executor.py:142-218

`create_compile_process` with the overrides of gcc_executor.py:11-13,76-77, GO.py:38-45, mixins.py:141-159 (HASK, PAS, SBCL), CBL.py:23-24,
MONOVB.py:25-26 and java_executor.py:74-75: environment, streams, process group and the limit on the size of files. How the time limit is
enforced and how the output is read is in Compile.lean; what is made of it in Message.lean.

The kernel is taken to do this: a new terminal puts a carriage return before each line feed written to it (the settings `openpty` begins
with); a new process has the limits and the group of its parent; limits can be lowered by anyone and raised by the privileged only; a write
beyond the limit does not take place. Left out: `oom_score_adj` (errors are only printed), the terminal as input (nobody writes to it).
-/

namespace Verif.CompilerStart

/-- Variables of an environment. (compiled_executor.py:179-180) -/
abbrev Env := List (String × String)

/-- `env.update(more)`, `env[k] = v` (compiled_executor.py:180, gcc_executor.py:13) -/
def update (env more : Env) : Env :=
  more ++ env.filter fun e => e.1 ∉ more.map (·.1)

/-- Where the environment comes from. (compiled_executor.py:142-143, gcc_executor.py:76-77, GO.py:38-45) -/
inductive EnvKind
  | judge
  | gcc
  | go
  deriving DecidableEq, Repr

/-- What is done to the streams. (compiled_executor.py:145-146, java_executor.py:74-75, mixins.py:156-159, CBL.py:23-24,
MONOVB.py:25-26) -/
inductive OutKind
  | terminal
  | quiet
  | piped
  deriving DecidableEq, Repr

/-- The executors derived from `GCCExecutor`. (ADA.py:4, BF.py:46, C.py:4, C11.py:4, CLANG.py:5, CLANGX.py:5, CPP03.py:6, CPP11.py:4,
CPP14.py:4, CPP17.py:4, CPP20.py:4, F95.py:4, OBJC.py:9) -/
def gccFamily : List String :=
  ["ADA", "BF", "C", "C11", "CLANG", "CLANGX", "CPP03", "CPP11", "CPP14", "CPP17", "CPP20", "F95", "OBJC"]

/-- `get_compile_env` of an executor. (gcc_executor.py:76-77, GO.py:38-45, compiled_executor.py:142-143) -/
def envKind (name : String) : EnvKind :=
  if name ∈ gccFamily then .gcc else if name = "GO" then .go else .judge

/-- `get_compile_popen_kwargs` of an executor. (HASK.py:5, PAS.py:5, SBCL.py:12, CBL.py:23-24, MONOVB.py:25-26) -/
def outKind (name : String) : OutKind :=
  if name ∈ ["HASK", "PAS", "SBCL"] then .quiet else if name ∈ ["CBL", "MONOVB"] then .piped else .terminal

/-- `compile_output_index` (compiled_executor.py:118, CBL.py:11, MONOVB.py:10) -/
def outputIndex (name : String) : Nat :=
  if name ∈ ["CBL", "MONOVB"] then 0 else 1

/-- `get_compile_env()`, given the environment when gcc_executor.py was imported, the configured `gcc_compile`, and the directory of the
submission. (compiled_executor.py:142-143, gcc_executor.py:11-13, GO.py:38-45) -/
def ownEnv (name : String) (environ0 gccCompile : Env) (dir : String) : Option Env :=
  match envKind name with
  | .judge => none
  | .gcc => some (update environ0 gccCompile)
  | .go => some [("CGO_ENABLED", "0"), ("GOCACHE", dir ++ "/.cache")]

/-- `self.get_compile_env() or os.environ.copy()`, and the terminal. (compiled_executor.py:179-180) -/
def compileEnv (name : String) (environ0 gccCompile environ : Env) (dir : String) : Env :=
  let base := match ownEnv name environ0 gccCompile dir with
    | some [] => environ
    | some e => e
    | none => environ
  update base [("TERM", "xterm")]

/-! ## Streams -/

/-- What a descriptor of the compiler is connected to. (compiled_executor.py:177, 184-194) -/
inductive Target
  | terminal
  | pipe
  | null
  deriving DecidableEq, Repr

/-- Standard output and standard error of the compiler. (compiled_executor.py:184-194, mixins.py:156-159, CBL.py:23-24) -/
def streams : OutKind → Target × Target
  | .terminal => (.terminal, .terminal)
  | .quiet => (.null, .terminal)
  | .piped => (.pipe, .pipe)

/-- A line feed written to a terminal (the kernel). -/
def onlcr : List UInt8 → List UInt8
  | [] => []
  | b :: r => if b = 10 then 13 :: 10 :: onlcr r else b :: onlcr r

/-- What can be read at the other end when these were written, each to descriptor 1 or 2. (compiled_executor.py:213-217) -/
def arrived (k : OutKind) (t : Target) (ws : List (Nat × List UInt8)) : List UInt8 :=
  (ws.filter fun w => (w.1 = 1 ∧ (streams k).1 = t) ∨ (w.1 = 2 ∧ (streams k).2 = t)).flatMap
    fun w => if t = .terminal then onlcr w.2 else w.2

/-- `safe_communicate(..)[compile_output_index]`: `process.stdout` is the pipe if there is one, `process.stderr` the terminal. `none`: one of
them is longer than allowed. (compiled_executor.py:213-228) -/
def output (name : String) (limit : Nat) (ws : List (Nat × List UInt8)) : Option (List UInt8) :=
  let out := arrived (outKind name) .pipe ws
  let err := arrived (outKind name) .terminal ws
  if out.length > limit ∨ err.length > limit then none
  else if outputIndex name = 0 then some out else some err

/-! ## The processes -/

/-- A process: its group, soft and hard limit on the size of files. (compiled_executor.py:153-165) -/
structure Proc where
  group : Nat
  soft : Nat
  hard : Nat
  deriving DecidableEq, Repr

/-- Processes by number, all begun by the judge but the judge itself; files with their greatest extent. (compiled_executor.py:153-165) -/
structure St where
  procs : Nat → Option Proc
  /-- extents of files written: by whom, how far -/
  files : List (Nat × Nat)
  /-- processes that have left for another group -/
  left : List Nat

/-- `limit_executable` in the new process `pid` of a judge with this hard limit: `none` is an exception (`SubprocessError`, no compile
error). (compiled_executor.py:153-165) -/
def start (privileged : Bool) (judge : Proc) (pid size : Nat) : Option St :=
  if size ≤ judge.hard ∨ privileged then
    some ⟨fun q => if q = pid then some ⟨pid, size, size⟩ else none, [], []⟩
  else none

/-- What the compiler and its children can do. (the kernel) -/
inductive Act
  | fork (p q : Nat)
  | setrlimit (p soft hard : Nat)
  | setpgid (p g : Nat)
  | write (p n : Nat)
  | exit (p : Nat)

/-- The kernel, see above. -/
def step (privileged : Bool) (s : St) : Act → St
  | .fork p q =>
    match s.procs p, s.procs q with
    | some a, none => { s with procs := fun x => if x = q then some a else s.procs x,
                               left := if p ∈ s.left then q :: s.left else s.left.filter (· ≠ q) }
    | _, _ => s
  | .setrlimit p soft hard =>
    match s.procs p with
    | some a => if soft ≤ hard ∧ (hard ≤ a.hard ∨ privileged) then
        { s with procs := fun x => if x = p then some { a with soft, hard } else s.procs x }
      else s
    | none => s
  | .setpgid p g =>
    match s.procs p with
    | some a => { s with procs := fun x => if x = p then some { a with group := g } else s.procs x, left := p :: s.left }
    | none => s
  | .write p n =>
    match s.procs p with
    | some a => if n ≤ a.soft then { s with files := (p, n) :: s.files } else s
    | none => s
  | .exit p => { s with procs := fun x => if x = p then none else s.procs x }

/-- A history. -/
def run (privileged : Bool) (s : St) (as : List Act) : St :=
  as.foldl (step privileged) s

/-- `os.killpg(self.pid, SIGKILL)` (compiled_executor.py:106) -/
def killpg (s : St) (g : Nat) : St :=
  { s with procs := fun x => (s.procs x).filter fun a => a.group ≠ g }

end Verif.CompilerStart
