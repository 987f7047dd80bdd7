import Verif.Model.Family

/-!
# Waiting for the output of a submission that has several processes

`safe_communicate` (dmoj/utils/communicate.py) reads the outputs until nobody can write to them any more; the processes that can are those of
`Model/Family.lean` that have not closed them. What may end the waiting is the kill of the group (dmoj/cptbox/tracer.py:230-243: by the watchdog, the
output limit or an abort), which is asked for, but not done once the program has been waited for.

Assumed of the kernel: a new process has the descriptors of its maker; they are closed at its end; the end of a pipe is reported when no descriptor for its
other end is open. Not modelled: what is read and written (C111), descriptors shared between processes or sent from one to another, input that is empty
(like `filled` at once).
-/

namespace Verif.Vigil
open Verif.Family (Cfg)

/-- The pipes: the judge writes the first and reads the others. (communicate.py:42-53) -/
inductive End where
  | in_
  | out
  | err
deriving DecidableEq, Repr

/-- The thread of the judge that talks to the program: the pipes it has not closed yet (the keys of `fd2file`, communicate.py:24-56; none: in
`proc.wait()`, communicate.py:99, graders/standard.py:94-99); or it has returned. -/
inductive Talk where
  | reading (rest : List End)
  | returned
deriving DecidableEq, Repr

/-- The processes, whether the judge has the child's ends of the pipes itself (tracer.py:298-313), which processes have which of them, whether `_died` is
set (tracer.py:328), and the talking thread. -/
structure State where
  fam : Family.State
  copies : Bool := true
  holds : List (Nat × End)
  died : Bool := false
  talk : Talk := .reading [.in_, .out, .err]

/-- What can happen. -/
inductive Event where
  /-- something in the family; the kill of the group is `kill` here -/
  | fam (e : Family.Event)
  /-- `TracedPopen.kill`, by whomever, tracer.py:230-243 -/
  | kill
  /-- the tracing thread closes the child's ends, tracer.py:304-310 -/
  | shut
  /-- a process closes its end of a pipe -/
  | close (p : Nat) (e : End)
  /-- all input has been written, communicate.py:76-77 -/
  | filled
  /-- the talking thread meets the end of a pipe, communicate.py:72-73, 80-81, 88-90 -/
  | eof (e : End)
  /-- there is too much output, communicate.py:84-87, graders/standard.py:94-97 -/
  | limit (e : End)
  /-- `_died.set()`, tracer.py:328 -/
  | died
  /-- `wait` returns, tracer.py:185-186 -/
  | wake

/-- Is it a live process of the submission? (kernel) -/
def live (s : Family.State) (p : Nat) : Bool := s.procs.any fun q => q.pid == p && q.mine

/-- What a new process has. (kernel, see above) -/
def inherited (holds : List (Nat × End)) : Family.Event → List (Nat × End)
  | .birth p c _ _ _ _ => (holds.filter fun h => h.1 == p).map fun h => (c, h.2)
  | _ => []

/-- Something happens in the family; the dead have nothing any more. (kernel, see above) -/
def State.lift (cfg : Cfg) (s : State) (e : Family.Event) : State :=
  let fam := Family.step cfg s.fam e
  let born := if s.fam.procs.length < fam.procs.length then inherited s.holds e else []
  { s with fam := fam, holds := (s.holds ++ born).filter fun h => live fam h.1 }

/-- `kill`: nothing is done once there is a return code, tracer.py:230-243. -/
def State.kill (cfg : Cfg) (s : State) : State := if s.fam.mon.finished then s else s.lift cfg .killpg

/-- Nobody has the other end of the pipe. (kernel) -/
def State.silent (s : State) (e : End) : Bool := !s.copies && s.holds.all fun h => decide (h.2 ≠ e)

/-- The talking thread closes a pipe. (communicate.py:37-40) -/
def Talk.without (t : Talk) (e : End) : Talk :=
  match t with
  | .reading o => .reading (o.erase e)
  | .returned => .returned

/-- One thing happens; what cannot happen changes nothing. The tracing thread first closes its ends and then looks at what is reported (tracer.py:304-324); it
ends after `_died.set()` (tracer.py:328-330). -/
def step (cfg : Cfg) (s : State) : Event → State
  | .fam .killpg => s
  | .fam (.see i) => if s.copies then s else s.lift cfg (.see i)
  | .fam .finish => if s.died then s.lift cfg .finish else s
  | .fam e => s.lift cfg e
  | .kill => s.kill cfg
  | .shut => { s with copies := false }
  | .close p e => { s with holds := s.holds.filter fun h => decide (h ≠ (p, e)) }
  | .filled => { s with talk := s.talk.without .in_ }
  | .eof e => if s.silent e then { s with talk := s.talk.without e } else s
  | .limit e =>
    match s.talk with
    | .reading o => if e ∈ o ∧ e ≠ .in_ then { s.kill cfg with talk := .reading [] } else s
    | .returned => s
  | .died => if s.fam.mon.finished then { s with died := true } else s
  | .wake => if s.died ∧ s.talk = .reading [] then { s with talk := .returned } else s

/-- A history. -/
def run (cfg : Cfg) (s : State) (es : List Event) : State := es.foldl (step cfg) s

/-- After `fork`: the child has its ends of the pipes, the judge copies of them. (tracer.py:353-392, helper.cpp:73-90) -/
def start (cfg : Cfg) (others : List (Nat × Nat)) : State :=
  { fam := Family.start cfg others, holds := [(cfg.main, .in_), (cfg.main, .out), (cfg.main, .err)] }

end Verif.Vigil
