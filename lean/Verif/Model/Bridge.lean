import Verif.Basic

/-!
# Two programs and their pipes: dmoj/graders/bridged.py:40-94

The judge connects a submission and an interactor by two pipes, gives each a third one for its errors, starts them, closes what
is theirs, waits for one and then the other and reads the errors. Besides graders/bridged.py this is `__init_streams` and
`_run_process` of cptbox/tracer.py and the closing of descriptors by the child (C50, C59). A program is whatever runs with its
descriptors, its children included; what it does is arbitrary. Pipes hold `cap` bytes.
-/

namespace Verif.Bridge

/-- The four pipes. (graders/bridged.py:41-42; tracer.py:379-382 for each of the programs) -/
inductive P where
  | toInter
  | toSub
  | subErr
  | interErr
deriving DecidableEq, Repr

/-- The two programs. (graders/bridged.py:43, 79) -/
inductive Prog where
  | sub
  | inter
deriving DecidableEq, Repr

/-- Who may hold an end. (graders/bridged.py:40-94) -/
inductive Who where
  | judge
  | prog (p : Prog)
deriving DecidableEq, Repr

/-- `born`: forked, with all descriptors of the judge; `running`: with its own only. (helper.cpp:62-105) -/
inductive Status where
  | unborn
  | born
  | running
  | gone
deriving DecidableEq, Repr

/-- What a program reads, writes, and its errors go to. (graders/bridged.py:47-49, 83-85) -/
def input : Prog → P
  | .sub => .toSub
  | .inter => .toInter

/-- graders/bridged.py:48, 84. -/
@[inherit_doc input]
def output : Prog → P
  | .sub => .toInter
  | .inter => .toSub

/-- graders/bridged.py:49, 85. -/
@[inherit_doc input]
def errors : Prog → P
  | .sub => .subErr
  | .inter => .interErr

/-- Everything there is: who holds which end, what is in the pipes and has been put in and taken out, how far the judge is; `at`
counts its actions. (graders/bridged.py:40-94) -/
structure State where
  at_ : Nat
  raised : Bool
  rd : P → Who → Bool
  wr : P → Who → Bool
  buf : P → List UInt8
  put : P → List UInt8
  got : P → List UInt8
  status : Prog → Status

/-- Nothing yet. (graders/bridged.py:40) -/
def start : State := ⟨0, false, fun _ _ => false, fun _ _ => false, fun _ => [], fun _ => [], fun _ => [], fun _ => .unborn⟩

/-- What the judge does. (graders/bridged.py:40-94) -/
inductive Act where
  /-- `os.pipe()` -/
  | pipe (p : P)
  /-- the `fork` in `launch` -/
  | fork (g : Prog)
  /-- `os.close` of the end to read from -/
  | closeRd (p : P)
  | closeWr (p : P)
  /-- `wait()` -/
  | wait (g : Prog)
  /-- `stderr.read()`: to the end of file -/
  | readAll (p : P)
deriving DecidableEq, Repr

/-- Its actions in order: bridged.py:41-42; the launch of the submission (43-51: tracer.py:380 and 284-306); 52-53; the launch of
the interactor (79-86); 88-89; 91-92; 94; 28. -/
def script : List Act :=
  [.pipe .toInter, .pipe .toSub,
    .pipe .subErr, .fork .sub, .closeWr .subErr,
    .closeRd .toSub, .closeWr .toInter,
    .pipe .interErr, .fork .inter, .closeWr .interErr,
    .closeRd .toInter, .closeWr .toSub,
    .wait .sub, .wait .inter, .readAll .subErr, .readAll .interErr]

/-- A function with one value changed. (graders/bridged.py:40-94) -/
def upd {α β : Type} [DecidableEq α] (f : α → β) (a : α) (b : β) : α → β := fun x => if x = a then b else f x

/-- Someone gets or loses an end. (graders/bridged.py:40-94) -/
def hold (f : P → Who → Bool) (p : P) (w : Who) (b : Bool) : P → Who → Bool := fun q v => if q = p ∧ v = w then b else f q v

/-- All ends of someone. (graders/bridged.py:40-94) -/
def holdAll (f : P → Who → Bool) (w : Who) (h : P → Bool) : P → Who → Bool := fun q v => if v = w then h q else f q v

/-- One action; `none`: it cannot be done now. (graders/bridged.py:40-94) -/
def act (s : State) : Act → Option State
  | .pipe p => some { s with rd := hold s.rd p .judge true, wr := hold s.wr p .judge true }
  | .fork g => some { s with
      rd := holdAll s.rd (.prog g) fun p => s.rd p .judge
      wr := holdAll s.wr (.prog g) fun p => s.wr p .judge
      status := upd s.status g .born }
  | .closeRd p => some { s with rd := hold s.rd p .judge false }
  | .closeWr p => some { s with wr := hold s.wr p .judge false }
  | .wait g => if s.status g = .gone then some s else none
  | .readAll p =>
    if s.wr p .judge = false ∧ s.wr p (.prog .sub) = false ∧ s.wr p (.prog .inter) = false then
      some { s with buf := upd s.buf p [], got := upd s.got p (s.got p ++ s.buf p) }
    else none

/-- What a program does: its three descriptors are 0, 1 and 2. (graders/bridged.py:43-51, 79-86) -/
inductive Deed where
  /-- `dup2` and closing all others, helper.cpp:62-105 -/
  | settle
  /-- reads at most so many bytes -/
  | read (n : Nat)
  /-- one byte to output or errors -/
  | write (err : Bool) (b : UInt8)
  | closeIn
  | closeOut
  | closeErr
  /-- exits or is killed -/
  | die
deriving DecidableEq, Repr

/-- The pipe written to. (graders/bridged.py:48-49, 84-85) -/
def target (g : Prog) (err : Bool) : P := if err then errors g else output g

/-- Nobody can write to it. (pipe(7); graders/bridged.py:40-94) -/
def noWriter (s : State) (p : P) : Bool := !s.wr p .judge && !s.wr p (.prog .sub) && !s.wr p (.prog .inter)

/-- Nobody can read from it. (pipe(7); graders/bridged.py:40-94) -/
def noReader (s : State) (p : P) : Bool := !s.rd p .judge && !s.rd p (.prog .sub) && !s.rd p (.prog .inter)

/-- One deed of a running program; `none`: it is blocked, or has no such descriptor. A write without readers is lost (the program
gets SIGPIPE or an error). (pipe(7); graders/bridged.py:40-94) -/
def deed (cap : Nat) (s : State) (g : Prog) : Deed → Option State
  | .settle =>
    if s.status g = .born then some { s with
      rd := holdAll s.rd (.prog g) fun p => decide (p = input g) && s.rd p (.prog g)
      wr := holdAll s.wr (.prog g) fun p => decide (p = output g ∨ p = errors g) && s.wr p (.prog g)
      status := upd s.status g .running }
    else none
  | .read n =>
    if s.status g = .running ∧ s.rd (input g) (.prog g) = true ∧ (s.buf (input g) ≠ [] ∨ noWriter s (input g) = true) then
      some { s with buf := upd s.buf (input g) ((s.buf (input g)).drop n)
                    got := upd s.got (input g) (s.got (input g) ++ (s.buf (input g)).take n) }
    else none
  | .write err b =>
    if s.status g = .running ∧ s.wr (target g err) (.prog g) = true then
      if noReader s (target g err) = true then some s
      else if (s.buf (target g err)).length < cap then
        some { s with buf := upd s.buf (target g err) (s.buf (target g err) ++ [b])
                      put := upd s.put (target g err) (s.put (target g err) ++ [b]) }
      else none
    else none
  | .closeIn =>
    if s.status g = .running then some { s with rd := hold s.rd (input g) (.prog g) false } else none
  | .closeOut =>
    if s.status g = .running then some { s with wr := hold s.wr (output g) (.prog g) false } else none
  | .closeErr =>
    if s.status g = .running then some { s with wr := hold s.wr (errors g) (.prog g) false } else none
  | .die =>
    if s.status g = .born ∨ s.status g = .running then some { s with
      rd := holdAll s.rd (.prog g) fun _ => false
      wr := holdAll s.wr (.prog g) fun _ => false
      status := upd s.status g .gone }
    else none

/-- What happens next: the judge's next action, an exception in `_interact_with_process` before the interactor is started
(bridged.py:56-79), or a deed of one of the programs. (graders/bridged.py:40-94) -/
inductive Label where
  | judge
  | raise
  | prog (g : Prog) (d : Deed)
deriving DecidableEq, Repr

/-- graders/bridged.py:40-94. -/
@[inherit_doc Label]
def step (cap : Nat) (s : State) : Label → Option State
  | .judge =>
    if s.raised then none else
      match script[s.at_]? with
      | none => none
      | some a => (act s a).map fun t => { t with at_ := s.at_ + 1 }
  | .raise => if s.raised = false ∧ s.at_ = 7 then some { s with raised := true } else none
  | .prog g d => deed cap s g d

/-- The states after the events. (graders/bridged.py:40-94) -/
def run (cap : Nat) (s : State) : List Label → Option State
  | [] => some s
  | l :: ls => (step cap s l).bind fun t => run cap t ls

end Verif.Bridge
