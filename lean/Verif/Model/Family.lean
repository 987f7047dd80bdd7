import Verif.Model.Monitor
import Verif.Model.Policy

/-!
# The processes of a submission and what ends them

The program and the processes it makes, the process group the judge puts them in (dmoj/cptbox/ptproc.cpp:68-79), the two ways of
ending them (the group at once: ptproc.cpp:81-96, dmoj/cptbox/tracer.py:230-243 and 331-352; one by one when the program itself is
gone: ptproc.cpp:352-357) and the end of the thread that traces (tracer.py:298-330), which with `PTRACE_O_EXITKILL` (ptproc.cpp:174-180)
ends what is still traced. The tracer is the loop of `Model/Monitor.lean`.

Of the kernel is assumed: a new process is in the group of its maker; it is traced if its maker is, unless it was made with
`CLONE_UNTRACED` (without `CLONE_PTRACE`); the event reported for it is `VFORK` with `CLONE_VFORK`, else `CLONE` unless the signal of
its end is `SIGCHLD`, else `FORK`; a process number is not given away before its last holder was waited for; a call the filter
hands to a tracer fails if there is none (`ENOSYS`); `RLIMIT_NPROC` stops new processes of users without privileges. Threads share
group and end of their process and are not kept apart. What is reported may be seen in any order.
-/

namespace Verif.Family
open Verif.Monitor Verif.Policy

/-- A live process: its number, its group, whether it is traced, whether it comes from the submission. (ptproc.cpp:68-79) -/
structure Proc where
  pid : Nat
  group : Nat
  traced : Bool
  mine : Bool
deriving DecidableEq, Repr

/-- How a process is made: `fork` and `vfork` are the calls without choice. (the flags of clone(2)) -/
structure Flags where
  vfork : Bool := false
  sigchld : Bool := true
  untraced : Bool := false
deriving DecidableEq, Repr

/-- Configuration: the policy (isolate.py:40-148 and the executor's), the filter, the number of the program (`pid` of
ptproc.cpp:68-79), the judge's group, the limit on processes (helper.cpp:124-125) and whether the user is exempt from it. -/
structure Cfg where
  policy : List (String × Handler)
  seccomp : Bool
  main : Nat
  judge : Nat
  nproc : Int
  privileged : Bool := false

/-- How far the child has come before it is the program: in the judge's group, in its own, traced and stopped.
(ptproc.cpp:72-75, helper.cpp:66-71) -/
inductive Stage where
  | forked
  | grouped
  | traced
deriving DecidableEq, Repr

/-- All live processes, the tracer, what it has not seen yet, whether its thread has ended, and the calls executed.
(ptproc.cpp:107-120, tracer.py:298-330) -/
structure State where
  stage : Stage := .forked
  procs : List Proc
  mon : Monitor.State := {}
  pending : List (Monitor.Stop Unit) := []
  ended : Bool := false
  log : List (Nat × String) := []

/-- What can happen. (see the head of this file) -/
inductive Event where
  /-- `setpgid(0, 0)`, ptproc.cpp:73 -/
  | enter
  /-- `ptrace_traceme`, `kill(getpid(), SIGSTOP)`, helper.cpp:66-71 -/
  | traceme
  /-- `p` makes `c` by the call `name`; `s` is what the tracer sees at the call, `count` how many processes the user has -/
  | birth (p c : Nat) (name : String) (f : Flags) (s : Isolate.Stop) (count : Nat)
  /-- `p` moves to the group `g` -/
  | leave (p g : Nat) (name : String) (s : Isolate.Stop)
  /-- any other call of `p` -/
  | call (p : Nat) (name : String) (s : Isolate.Stop)
  /-- `p` ends by itself -/
  | exit (p : Nat)
  /-- a process that is not the submission's is started -/
  | foreign (p g : Nat)
  /-- `TracedPopen.kill`, tracer.py:230-243; also the watchdog, 331-352 -/
  | killpg
  /-- the tracer looks at the `i`th thing reported, ptproc.cpp:121-147 -/
  | see (i : Nat)
  /-- the tracing thread ends, tracer.py:330 -/
  | finish

/-- What the policy holds for a call. (tracer.py:134-152) -/
def handler (p : List (String × Handler)) (name : String) : Option Handler := (idOf name).bind (dict p)

/-- Is the call executed? Traced: as the policy says (C37). Not traced: under the filter if the policy lets the call through without
being asked (tracer.py:169-183), else always. -/
def executes (cfg : Cfg) (traced : Bool) (name : String) (s : Isolate.Stop) : Bool :=
  if traced then (handler cfg.policy name).any fun h => decide (h.run s = .exec)
  else if cfg.seccomp then decide (handler cfg.policy name = some (.std .allow))
  else true

/-- `RLIMIT_NPROC`, helper.cpp:124-125. -/
def room (cfg : Cfg) (count : Nat) : Bool := cfg.privileged || decide (cfg.nproc < 0) || decide ((count : Int) < cfg.nproc)

/-- The calls that make processes. (clone(2), fork(2), vfork(2)) -/
def makers : List String := ["clone", "fork", "vfork", "clone3"]

/-- The calls that change a group. (setpgid(2), setsid(2)) -/
def movers : List String := ["setpgid", "setsid"]

/-- The event reported for a new process. (kernel, see above; ptproc.cpp:309-325) -/
def event (f : Flags) (c : Nat) : Trap := if f.vfork then .vfork c else if f.sigchld then .fork c else .clone

/-- Is the number taken, by a live process or one not yet waited for? (kernel) -/
def State.taken (s : State) (p : Nat) : Bool :=
  s.procs.any (·.pid == p) || s.pending.any fun e => match e with | .gone q => q == p | _ => false

/-- The processes chosen end; the tracer is told of its own. (kernel) -/
def State.die (cfg : Cfg) (s : State) (k : Proc → Bool) : State :=
  { s with procs := s.procs.filter fun p => !k p,
           pending := s.pending ++ ((s.procs.filter k).filter fun p => p.traced || p.pid == cfg.main).map fun p => .gone p.pid }

/-- The judge kills the group of the program. (tracer.py:230-243, ptproc.cpp:81-96) -/
def State.killpg (cfg : Cfg) (s : State) : State := s.die cfg fun p => p.group == cfg.main

/-- What an action of the tracer does to the processes. (ptproc.cpp:81-96, 352-357) -/
def State.act (cfg : Cfg) (s : State) : Act → State
  | .killGroup => s.killpg cfg
  | .killChild c => s.die cfg fun p => p.pid == c
  | _ => s

/-- The tracer, for the loop of `Model/Monitor.lean`; calls are judged by `executes`. (ptproc.cpp:107-120) -/
def Cfg.loop (cfg : Cfg) : Monitor.Cfg Unit :=
  { seccomp := cfg.seccomp, tables := fun _ => ⟨fun _ => 0, fun _ => none⟩, noop := fun _ => 0, main := cfg.main }

/-- One thing happens; what cannot happen changes nothing. (see above) -/
def step (cfg : Cfg) (s : State) : Event → State
  | .enter =>
    if s.stage = .forked then
      { s with stage := .grouped, procs := s.procs.map fun p => if p.pid = cfg.main ∧ p.mine then { p with group := cfg.main } else p }
    else s
  | .traceme =>
    if s.stage = .grouped then
      { s with stage := .traced, procs := s.procs.map fun p => if p.pid = cfg.main ∧ p.mine then { p with traced := true } else p,
               pending := s.pending ++ [.signal cfg.main 19] }
    else s
  | .birth p c name f st count =>
    match s.procs.find? fun q => q.pid == p with
    | none => s
    | some q =>
      if q.mine ∧ s.mon.first = false ∧ s.taken c = false ∧ name ∈ makers ∧ executes cfg q.traced name st ∧ 0 < count ∧ room cfg count then
        { s with procs := ⟨c, q.group, q.traced && !f.untraced, true⟩ :: s.procs,
                 pending := if q.traced && !f.untraced then s.pending ++ [.trap p (event f c)] else s.pending,
                 log := (p, name) :: s.log }
      else s
  | .leave p g name st =>
    match s.procs.find? fun q => q.pid == p with
    | none => s
    | some q =>
      if q.mine ∧ s.mon.first = false ∧ name ∈ movers ∧ executes cfg q.traced name st then
        { s with procs := s.procs.map fun r => if r.pid = p then { r with group := g } else r, log := (p, name) :: s.log }
      else s
  | .call p name st =>
    match s.procs.find? fun q => q.pid == p with
    | none => s
    | some q =>
      if q.mine ∧ s.mon.first = false ∧ name ∉ makers ∧ name ∉ movers ∧ executes cfg q.traced name st then
        { s with log := (p, name) :: s.log }
      else s
  | .exit p => s.die cfg fun q => q.pid == p
  | .foreign p g => if s.taken p = false ∧ g ≠ cfg.main then { s with procs := ⟨p, g, false, false⟩ :: s.procs } else s
  | .killpg => s.killpg cfg
  | .see i =>
    match s.pending[i]? with
    | none => s
    | some e =>
      let r := Monitor.step cfg.loop s.mon e
      r.2.foldl (State.act cfg) { s with mon := r.1, pending := s.pending.eraseIdx i }
  | .finish => if s.mon.finished then { s.die cfg (·.traced) with ended := true } else s

/-- A history. (see above) -/
def run (cfg : Cfg) (s : State) (es : List Event) : State := es.foldl (step cfg) s

/-- The state after `fork`: the child, and the processes there were. (ptproc.cpp:68-79) -/
def start (cfg : Cfg) (others : List (Nat × Nat)) : State :=
  { procs := ⟨cfg.main, cfg.judge, false, true⟩ :: others.map fun o => ⟨o.1, o.2, false, false⟩ }

/-- `nproc` of the executors: dmoj/executors/base_executor.py:24 but for mono_executor.py:21, shell_executor.py:9, DART.py:9, TCL.py:9,
RUBY2.py:12, java_executor.py:54, GO.py:19, V8JS.py:10, COFFEE.py:9. -/
def nprocOf (name : String) : Int :=
  if name ∈ ["MONOCS", "MONOFS", "MONOVB", "BASH", "DART", "TCL", "RUBY2", "GROOVY", "JAVA10", "JAVA11", "JAVA15", "JAVA8", "JAVA9",
      "KOTLIN", "SCALA", "GO", "V8JS", "COFFEE"] then -1 else 0

end Verif.Family
