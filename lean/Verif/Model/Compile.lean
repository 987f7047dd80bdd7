import Verif.Basic

/-!
# Running a compiler: dmoj/executors/compiled_executor.py:72-112, 171-252

Two threads of the judge, the compiler's process group, and what else holds the compiler's terminal. The reading of the
terminal by `safe_communicate` (communicate.py:56-97) is cut down to the one stream `compile_output_index` picks; the other
one of the two executors that use a pipe (CBL.py:23, MONOVB.py:25) is a terminal nobody writes to. Times are whole units.
-/

namespace Verif.Compile

/-- `compiler_time_limit` (0: none) and `compiler_output_character_limit`. (compiled_executor.py:73-82, 171-235) -/
structure Cfg where
  limit : Nat
  outLimit : Nat
deriving DecidableEq, Repr

/-- `get_compile_output`, compiled_executor.py:220-228: reading; in `proc.wait()`; back with the output, or after
`OutputLimitExceeded`. -/
inductive Main where
  | reading
  | waiting
  | finished
  | tooLong
deriving DecidableEq, Repr

/-- `_shocker_thread`, compiled_executor.py:91-112: not started; at the test of `returncode`; at the comparison of the times;
at `timed_out = True`; at `killpg`; ended. -/
inductive SPc where
  | off
  | loop
  | check
  | mark
  | kill
  | done
deriving DecidableEq, Repr

/-- compiled_executor.py:73-82, 171-235. -/
structure St where
  main : Main := .reading
  shock : SPc
  /-- `time.time() - start_time` -/
  clock : Nat := 0
  /-- `timed_out`, `returncode` -/
  timedOut : Bool := false
  ret : Option Int := none
  /-- the compiler: running or ended with this code -/
  comp : Option Int := none
  /-- processes that can write to the terminal: in the compiler's group; outside of it -/
  helpers : Bool := false
  strangers : Bool := false
  /-- output read; written and not read -/
  got : List UInt8 := []
  pending : List UInt8 := []
  /-- history: the watchdog ended the compiler; it signalled a process id that was no longer the compiler's -/
  killed : Bool := false
  stray : Bool := false
deriving DecidableEq, Repr

/-- The constructor, compiled_executor.py:73-82. -/
def init (c : Cfg) : St := { shock := if c.limit ≠ 0 then .loop else .off }

/-- What can happen. (compiled_executor.py:73-82, 171-235) -/
inductive Act where
  | tick (d : Nat)
  /-- someone writes to the terminal -/
  | write (d : List UInt8)
  /-- the compiler ends by itself -/
  | exit (code : Int)
  /-- the group gains a process, loses all but the compiler, one leaves the group, those outside are gone -/
  | fork
  | join
  | escape
  | vanish
  /-- a step of the main thread; should it read, how many of the bytes that are there (at most 4096) -/
  | main (n : Nat)
  /-- a step of the shocker thread; should it call `killpg`, whether that finds the group -/
  | shocker (found : Bool)
deriving DecidableEq, Repr

/-- Someone has the terminal open. (compiled_executor.py:73-82, 171-235) -/
def St.held (s : St) : Bool := s.comp.isNone || s.helpers || s.strangers

/-- One step of `safe_communicate`: read and compare (communicate.py:77-90), see the end of the stream, or `proc.wait()`
(communicate.py:96). -/
def mainStep (c : Cfg) (s : St) (n : Nat) : St :=
  match s.main with
  | .reading =>
    if s.pending ≠ [] then
      let got := s.got ++ s.pending.take (min (n + 1) 4096)
      { s with got, pending := s.pending.drop (min (n + 1) 4096), main := if got.length > c.outLimit then .tooLong else .reading }
    else if s.held then s else { s with main := .waiting }
  | .waiting =>
    match s.comp with
    | none => s
    | some code => { s with ret := some code, main := .finished }
  | .finished => s
  | .tooLong => s

/-- `os.killpg(self.pid, SIGKILL)`, errors dropped, compiled_executor.py:106-110. -/
def kill (s : St) (found : Bool) : St :=
  match s.ret with
  | some _ => { s with stray := true }
  | none => if found then { s with comp := some (s.comp.getD (-9)), helpers := false, killed := s.killed || s.comp.isNone } else s

/-- compiled_executor.py:91-112 -/
def shockerStep (c : Cfg) (s : St) (found : Bool) : St :=
  match s.shock with
  | .off => s
  | .loop => if s.ret.isNone then { s with shock := .check } else { s with shock := .done }
  | .check => if s.clock > c.limit then { s with shock := .mark } else { s with shock := .loop }
  | .mark => { s with timedOut := true, shock := .kill }
  | .kill => { kill s found with shock := .done }
  | .done => s

/-- compiled_executor.py:73-82, 171-235. -/
def step (c : Cfg) (s : St) : Act → St
  | .tick d => { s with clock := s.clock + d }
  | .write d => if s.held then { s with pending := s.pending ++ d } else s
  | .exit code => if s.comp = none then { s with comp := some code } else s
  | .fork => if s.comp = none ∨ s.helpers = true then { s with helpers := true } else s
  | .join => { s with helpers := false }
  | .escape => if s.helpers = true then { s with strangers := true } else s
  | .vanish => { s with strangers := false }
  | .main n => mainStep c s n
  | .shocker found => shockerStep c s found

/-- The state after a history. (compiled_executor.py:73-82, 171-235) -/
def run (c : Cfg) (as : List Act) : St := as.foldl (step c) (init c)

/-- A message: the two fixed texts, or output. (compiled_executor.py:73-82, 171-235) -/
inductive Msg where
  | timedOut (limit : Nat)
  | tooLong
  | output (d : List UInt8)
deriving DecidableEq, Repr

/-- What `get_compile_output` does in the end, compiled_executor.py:225-235: `none` while it is not done; an error is a
`CompileError` (with `is_failed_compile` and `handle_compile_error` as they are in `CompiledExecutor`). -/
def report (c : Cfg) (s : St) : Option (Except Msg Msg) :=
  let out : Option Msg :=
    match s.main with
    | .reading => none
    | .waiting => none
    | .finished => some (.output s.got)
    | .tooLong => some .tooLong
  out.map fun o => if s.ret ≠ some 0 then .error (if s.timedOut then .timedOut c.limit else o) else .ok o

end Verif.Compile
