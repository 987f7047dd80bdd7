import Verif.Model.Communicate

/-!
# A program, its three pipes and the judge: dmoj/graders/standard.py:78-100

An ordinary run: the judge makes three pipes (tracer.py:353-387), forks the program (tracer.py:295-309), closes what is the
program's, talks to it (`safe_communicate`, the model of which is used: Communicate.lean) and waits for it. A program is whatever
runs with its descriptors, its children included; what it does is arbitrary. Pipes hold `cap` bytes. Assumed of the kernel
(pipe(7), poll(2)): a pipe is reported as writable if and only if `PIPE_BUF` (4096) bytes fit; a write to a pipe without readers
gives `EPIPE`; a write of more than fits waits; the end that is read is reported as readable if there is something in it, and
otherwise as hung up if nobody can write to it. Interrupted calls and errors other than these are those of C43.
-/

namespace Verif.Exchange
open Verif.Communicate (Chan Fd Args Ready)

/-- The three pipes. (tracer.py:357-387) -/
inductive P where
  | in_
  | out (c : Chan)
deriving DecidableEq

/-- Who may hold an end. (standard.py:78-100) -/
inductive Who where
  | judge
  | prog
deriving DecidableEq

/-- `born`: forked, with all descriptors of the judge; `running`: with its own only. (helper.cpp:62-65) -/
inductive Status where
  | unborn
  | born
  | running
  | gone
deriving DecidableEq

/-- What `poll` says of a descriptor. (communicate.py:64-90) -/
inductive Event where
  /-- `POLLOUT` for the input -/
  | canWrite
  /-- `POLLERR` for the input -/
  | broken
  /-- `POLLIN` -/
  | canRead (c : Chan)
  /-- `POLLHUP` only -/
  | hungUp (c : Chan)
deriving DecidableEq

/-- The descriptor it is about. (communicate.py:64-90) -/
def Event.fd : Event → Fd
  | .canWrite | .broken => .stdin
  | .canRead c | .hungUp c => .chan c

/-- What comes of it. (standard.py:88-100) -/
inductive Outcome where
  | ok (out err : List UInt8)
  /-- `OutputLimitExceeded` -/
  | ole
  /-- another exception -/
  | error
deriving DecidableEq

/-- How far the judge is: its next action; talking, with the entries of the last `poll` that it has still to see to; about to kill;
waiting for the end; finished; without a program. (standard.py:78-100) -/
inductive Phase where
  | setup (n : Nat)
  | talk (c : Communicate.State) (pending : List Event)
  | kill (c : Communicate.State)
  | wait (c : Communicate.State) (o : Outcome)
  | done (c : Communicate.State) (o : Outcome)
  | failing (n : Nat)
  | failed

/-- Everything there is: who holds which end, what is in the pipes and has been put in and taken out. (standard.py:78-100) -/
structure State where
  phase : Phase
  rd : P → Who → Bool
  wr : P → Who → Bool
  buf : P → List UInt8
  put : P → List UInt8
  got : P → List UInt8
  status : Status

/-- Nothing yet. (standard.py:78) -/
def start : State := ⟨.setup 0, fun _ _ => false, fun _ _ => false, fun _ => [], fun _ => [], fun _ => [], .unborn⟩

/-- What the judge does before it talks. (tracer.py:295-309, 353-387) -/
inductive Act where
  | pipe (p : P)
  | fork
  | closeRd (p : P)
  | closeWr (p : P)
deriving DecidableEq

/-- In this order: tracer.py:358, 369, 380; 297; 304, 306, 308. -/
def script : List Act :=
  [.pipe .in_, .pipe (.out .out), .pipe (.out .err), .fork, .closeRd .in_, .closeWr (.out .out), .closeWr (.out .err)]

/-- A function with one value changed. (standard.py:78-100) -/
def upd {β : Type} (f : P → β) (a : P) (b : β) : P → β := fun x => if x = a then b else f x

/-- Someone gets or loses an end. (standard.py:78-100) -/
def hold (f : P → Who → Bool) (p : P) (w : Who) (b : Bool) : P → Who → Bool := fun q v => if q = p ∧ v = w then b else f q v

/-- All ends of someone. (standard.py:78-100) -/
def holdAll (f : P → Who → Bool) (w : Who) (h : P → Bool) : P → Who → Bool := fun q v => if v = w then h q else f q v

/-- One of these actions. (tracer.py:295-309, 353-387) -/
def act (s : State) : Act → State
  | .pipe p => { s with rd := hold s.rd p .judge true, wr := hold s.wr p .judge true }
  | .fork => { s with
      rd := holdAll s.rd .prog fun p => s.rd p .judge
      wr := holdAll s.wr .prog fun p => s.wr p .judge
      status := .born }
  | .closeRd p => { s with rd := hold s.rd p .judge false }
  | .closeWr p => { s with wr := hold s.wr p .judge false }

/-- Nobody can write to it. (pipe(7); standard.py:78-100) -/
def noWriter (s : State) (p : P) : Bool := !s.wr p .judge && !s.wr p .prog

/-- Nobody can read from it. (pipe(7); standard.py:78-100) -/
def noReader (s : State) (p : P) : Bool := !s.rd p .judge && !s.rd p .prog

/-- `PIPE_BUF` of the kernel. (pipe(7); communicate.py:7) -/
def atomic : Nat := 4096

/-- What `poll` says of the input, if anything. (poll(2); communicate.py:58) -/
def pollIn (cap : Nat) (s : State) : List Event :=
  if (s.buf .in_).length + atomic ≤ cap then [.canWrite] else if noReader s .in_ then [.broken] else []

/-- What `poll` says of an output, if anything. (poll(2); communicate.py:58) -/
def pollOut (s : State) (c : Chan) : List Event :=
  if s.buf (.out c) ≠ [] then [.canRead c] else if noWriter s (.out c) then [.hungUp c] else []

/-- The answer of `poll`: in the order of registration. (poll(2); communicate.py:40-58) -/
def poll (cap : Nat) (s : State) (c : Communicate.State) : List Event :=
  (if c.isOpen .stdin then pollIn cap s else []) ++ (if c.isOpen (.chan .out) then pollOut s .out else []) ++
    (if c.isOpen (.chan .err) then pollOut s .err else [])

/-- The answer to the call made for an entry; `none`: the call waits. (pipe(7); communicate.py:64-90) -/
def answer (cap : Nat) (a : Args) (s : State) (c : Communicate.State) : Event → Option Ready
  | .canWrite =>
    if noReader s .in_ then some .epipe
    else if (s.buf .in_).length + ((a.input.drop c.offset).take Communicate.pipeBuf).length ≤ cap then
      some (.room (cap - (s.buf .in_).length))
    else none
  | .broken => some (.hang .stdin)
  | .canRead x =>
    if s.buf (.out x) = [] ∧ noWriter s (.out x) = false then none else some (.avail x (s.buf (.out x)))
  | .hungUp x => some (.hang (.chan x))

/-- Which pipes the judge reads from. (communicate.py:35-38) -/
def readsFrom (c : Communicate.State) : P → Bool
  | .in_ => false
  | .out x => c.isOpen (.chan x)

/-- Which pipes the judge writes to. (communicate.py:35-38) -/
def writesTo (c : Communicate.State) : P → Bool
  | .in_ => c.isOpen .stdin
  | .out _ => false

/-- The judge keeps only these of the ends it holds. (communicate.py:35-38) -/
def closing (f : P → Who → Bool) (keep : P → Bool) : P → Who → Bool := fun p w => f p w && (decide (w = .prog) || keep p)

/-- The pipes after the call: what was sent is in the one, what was read no longer in the other, and what was closed is closed.
(communicate.py:35-38, 66-90) -/
def settle (s : State) (c c' : Communicate.State) (r : Ready) : State :=
  let new := c'.sent.drop c.sent.length
  let s := { s with buf := upd s.buf .in_ (s.buf .in_ ++ new), put := upd s.put .in_ (s.put .in_ ++ new) }
  let s := match r with
    | .avail x d => { s with buf := upd s.buf (.out x) (d.drop 4096), got := upd s.got (.out x) (s.got (.out x) ++ d.take 4096) }
    | _ => s
  { s with rd := closing s.rd (readsFrom c'), wr := closing s.wr (writesTo c') }

/-- What the judge does after a call. (communicate.py:83-90; standard.py:90-99) -/
def after (ps : List Event) : Communicate.Res → Phase
  | .more c => .talk c ps
  | .ole _ _ c => .kill c
  | .ret o e c => .wait c (.ok o e)
  | .valueError c | .osError c | .keyError c => .wait c .error

/-- The arguments: all three streams, and the limits. (standard.py:84-93) -/
def args (input : List UInt8) (limit : Nat) : Args := { input := input, outlimit := some limit, errlimit := some 1048576 }

/-- The next action of the judge; `none`: it waits. The end of the program in `kill` is that of C58.
(standard.py:78-100; communicate.py:56-97; tracer.py:295-309) -/
def judge (cap : Nat) (a : Args) (s : State) : Option State :=
  match s.phase with
  | .setup n =>
    match script[n]? with
    | some x => some { act s x with phase := .setup (n + 1) }
    | none =>
      let c := Communicate.init a
      some { s with phase := .talk c [], wr := hold s.wr .in_ .judge (s.wr .in_ .judge && c.isOpen .stdin) }
  | .talk c [] =>
    if c.isOpen .stdin || c.isOpen (.chan .out) || c.isOpen (.chan .err) then
      match poll cap s c with
      | [] => none
      | ps => some { s with phase := .talk c ps }
    else some { s with phase := .wait c (.ok (c.got .out).flatten (c.got .err).flatten) }
  | .talk c (e :: ps) =>
    match answer cap a s c e with
    | none => none
    | some r =>
      let res := Communicate.step a c r
      some { settle s c res.state r with phase := after ps res }
  | .kill c => some { s with
      phase := .wait c .ole
      rd := holdAll s.rd .prog fun _ => false
      wr := holdAll s.wr .prog fun _ => false
      status := .gone }
  | .wait c o => if s.status = .gone then some { s with phase := .done c o } else none
  | .done _ _ => none
  | .failing n =>
    match script[n]? with
    | some x => some { act s x with phase := .failing (n + 1) }
    | none => some { s with phase := .failed }
  | .failed => none

/-- What a program does: its three descriptors are 0, 1 and 2. (helper.cpp:62-65) -/
inductive Deed where
  /-- `dup2` and closing all others, helper.cpp:62-65 -/
  | settle
  /-- reads at most so many bytes -/
  | read (n : Nat)
  /-- one byte to output or errors -/
  | write (c : Chan) (b : UInt8)
  | closeIn
  | closeOut (c : Chan)
  /-- exits or is killed -/
  | die
deriving DecidableEq

/-- One deed of the program; `none`: it has to wait, or has no such descriptor. A write without readers is lost (the program gets
SIGPIPE or an error). (pipe(7); helper.cpp:62-65) -/
def deed (cap : Nat) (s : State) : Deed → Option State
  | .settle =>
    if s.status = .born then some { s with
      rd := holdAll s.rd .prog fun p => decide (p = .in_) && s.rd p .prog
      wr := holdAll s.wr .prog fun p => decide (p ≠ .in_) && s.wr p .prog
      status := .running }
    else none
  | .read n =>
    if s.status = .running ∧ s.rd .in_ .prog = true ∧ (s.buf .in_ ≠ [] ∨ noWriter s .in_ = true) then
      some { s with buf := upd s.buf .in_ ((s.buf .in_).drop n), got := upd s.got .in_ (s.got .in_ ++ (s.buf .in_).take n) }
    else none
  | .write c b =>
    if s.status = .running ∧ s.wr (.out c) .prog = true then
      if noReader s (.out c) = true then some s
      else if (s.buf (.out c)).length < cap then
        some { s with buf := upd s.buf (.out c) (s.buf (.out c) ++ [b]), put := upd s.put (.out c) (s.put (.out c) ++ [b]) }
      else none
    else none
  | .closeIn => if s.status = .running then some { s with rd := hold s.rd .in_ .prog false } else none
  | .closeOut c => if s.status = .running then some { s with wr := hold s.wr (.out c) .prog false } else none
  | .die =>
    if s.status = .born ∨ s.status = .running then some { s with
      rd := holdAll s.rd .prog fun _ => false
      wr := holdAll s.wr .prog fun _ => false
      status := .gone }
    else none

/-- What happens next: the judge's next action, the failure of `fork` (tracer.py:298-301; the ends are closed all the same), or a
deed of the program. (standard.py:78-100) -/
inductive Label where
  | judge
  | noFork
  | prog (d : Deed)
deriving DecidableEq

/-- standard.py:78-100; tracer.py:295-309: one of these. -/
def step (cap : Nat) (a : Args) (s : State) : Label → Option State
  | .judge => judge cap a s
  | .noFork =>
    match s.phase with
    | .setup 3 => some { s with phase := .failing 4 }
    | _ => none
  | .prog d => deed cap s d

/-- The states after the events. (standard.py:78-100) -/
def run (cap : Nat) (a : Args) (s : State) : List Label → Option State
  | [] => some s
  | l :: ls => (step cap a s l).bind fun t => run cap a t ls

end Verif.Exchange
