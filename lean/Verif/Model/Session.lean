import Verif.Basic

/-!
# Interactive sessions: dmoj/graders/interactive.py:93-117, dmoj/graders/bridged.py:38-99

Pipes hold up to `cap` bytes; data is reduced to numbers of bytes and moves one byte at a time. A program is anything that
computes, reads its standard input, writes to its standard output or error, and ends. The time limit may end it at any moment
(C65 says when it does).
-/

namespace Verif.Session

/-- What a program is about to do. (interactive.py:82-117) -/
inductive Want where
  | compute
  | read
  | write
  | err
deriving DecidableEq, Repr

/-- A program: not started, running, or gone (`tle`: killed by the time limit). (interactive.py:82-117) -/
inductive Prog where
  | no
  | run (w : Want)
  | gone (tle : Bool)
deriving DecidableEq, Repr

/-- interactive.py:82-117. -/
def Prog.running : Prog → Bool
  | .run _ => true
  | _ => false

/-! ## An interactor written in python, interactive.py:93-117 -/

/-- How `interact` ended: it returned; `WrongAnswer`; `IOError`. (interactive.py:82-117) -/
inductive Out where
  | returned (check : Bool)
  | wrong
  | ioerror
deriving DecidableEq, Repr

/-- The judge: in `interact`; in `interactor.close()`; in `wait()`; reading the standard error; back.
(interactive.py:82-117) -/
inductive Pc where
  | interacting
  | closing
  | waiting
  | reading
  | done
deriving DecidableEq, Repr

/-- interactive.py:82-117. -/
structure St where
  pc : Pc := .interacting
  out : Option Out := none
  /-- the judge's end of the standard input is open -/
  stdin : Bool := true
  sub : Prog := .run .compute
  inBuf : Nat := 0
  outBuf : Nat := 0
  errBuf : Nat := 0
deriving DecidableEq, Repr

/-- interactive.py:82-117. -/
inductive Act where
  /-- `interact` writes or reads a byte, or ends -/
  | jwrite
  | jread
  | jend (o : Out)
  /-- the judge goes on after `interact` -/
  | judge
  /-- the program decides what to do next, does it, or ends -/
  | choose (w : Want)
  | sub
  | exit
  /-- the time limit -/
  | kill
deriving DecidableEq, Repr

/-- One step; a step that is not possible is `none`. (interactive.py:82-117) -/
def step (cap : Nat) (s : St) : Act → Option St
  | .jwrite =>
    if s.pc = .interacting ∧ s.sub.running = true ∧ s.inBuf < cap then some { s with inBuf := s.inBuf + 1 } else none
  | .jread => if s.pc = .interacting ∧ 0 < s.outBuf then some { s with outBuf := s.outBuf - 1 } else none
  | .jend o =>
    if s.pc = .interacting then
      -- interactive.py:98-104: only after a return is the standard input closed
      some { s with out := some o, pc := match o with | .returned _ => .closing | _ => .waiting }
    else none
  | .judge =>
    match s.pc with
    | .closing => some { s with stdin := false, pc := .waiting }
    | .waiting => match s.sub with
      | .gone _ => some { s with pc := .reading }
      | _ => none
    | .reading => if 0 < s.errBuf then some { s with errBuf := s.errBuf - 1 } else some { s with pc := .done }
    | _ => none
  | .choose w => if s.sub = .run .compute then some { s with sub := .run w } else none
  | .sub =>
    match s.sub with
    | .run .read =>
      if 0 < s.inBuf then some { s with sub := .run .compute, inBuf := s.inBuf - 1 }
      else if s.stdin = false then some { s with sub := .run .compute }  -- end of file
      else none
    | .run .write => if s.outBuf < cap then some { s with sub := .run .compute, outBuf := s.outBuf + 1 } else none
    | .run .err => if s.errBuf < cap then some { s with sub := .run .compute, errBuf := s.errBuf + 1 } else none
    | _ => none
  | .exit => if s.sub = .run .compute then some { s with sub := .gone false } else none
  | .kill => if s.sub.running = true then some { s with sub := .gone true } else none

/-- A sequence of steps. (interactive.py:82-117) -/
def run (cap : Nat) (s : St) : List Act → Option St
  | [] => some s
  | a :: l => (step cap s a).bind (run cap · l)

/-- The case's verdict as seen by the user. (interactive.py:82-117) -/
inductive Verdict where
  | ac
  | wa
  | tle
deriving DecidableEq, Repr

/-- `check_result`, interactive.py:109-117, for a program that otherwise triggered nothing: a time limit exceeded hides what the
interactor said. -/
def verdict (s : St) : Verdict :=
  match s.sub with
  | .gone true => .tle
  | _ => match s.out with
    | some (.returned true) => .ac
    | _ => .wa

/-! ## An interactor in a process of its own, bridged.py:38-99 -/

/-- The judge, bridged.py:38-99, named after what it does next. -/
inductive BPc where
  | launchSub
  | closeSubIn
  | closeSubOut
  | launchInter
  | closeInterIn
  | closeInterOut
  | waitSub
  | waitInter
  /-- `_current_proc.stderr.read()` -/
  | readSub
  /-- `self._interactor.stderr.read()` in `check_result` -/
  | readInter
  | done
deriving DecidableEq, Repr

/-- bridged.py:40-92. -/
structure Br where
  pc : BPc := .launchSub
  sub : Prog := .no
  inter : Prog := .no
  /-- the ends the judge holds: of the pipe from the submission to the interactor, and of the one back -/
  subOut : Bool := true
  interIn : Bool := true
  subIn : Bool := true
  interOut : Bool := true
  toInter : Nat := 0
  toSub : Nat := 0
  subErr : Nat := 0
  interErr : Nat := 0
deriving DecidableEq, Repr

/-- bridged.py:40-92. -/
inductive BAct where
  | judge
  | choose (sub : Bool) (w : Want)
  | prog (sub : Bool)
  | exit (sub : Bool)
  | kill (sub : Bool)
deriving DecidableEq, Repr

/-- The judge goes on. (bridged.py:40-92) -/
def jstep (s : Br) : Option Br :=
  match s.pc with
  | .launchSub => some { s with sub := .run .compute, pc := .closeSubIn }
  | .closeSubIn => some { s with subIn := false, pc := .closeSubOut }
  | .closeSubOut => some { s with subOut := false, pc := .launchInter }
  | .launchInter => some { s with inter := .run .compute, pc := .closeInterIn }
  | .closeInterIn => some { s with interIn := false, pc := .closeInterOut }
  | .closeInterOut => some { s with interOut := false, pc := .waitSub }
  | .waitSub => match s.sub with
    | .gone _ => some { s with pc := .waitInter }
    | _ => none
  | .waitInter => match s.inter with
    | .gone _ => some { s with pc := .readSub }
    | _ => none
  | .readSub => if 0 < s.subErr then some { s with subErr := s.subErr - 1 } else some { s with pc := .readInter }
  | .readInter => if 0 < s.interErr then some { s with interErr := s.interErr - 1 } else some { s with pc := .done }
  | .done => none

/-- The submission does what it is about to do. A write nobody can read raises an error (`SIGPIPE` does not stop it here: it may
be ignored). (bridged.py:40-92) -/
def subStep (cap : Nat) (s : Br) : Option Br :=
  match s.sub with
  | .run .read =>
    if 0 < s.toSub then some { s with sub := .run .compute, toSub := s.toSub - 1 }
    else if s.interOut = false ∧ s.inter.running = false then some { s with sub := .run .compute }
    else none
  | .run .write =>
    if s.interIn = false ∧ s.inter.running = false then some { s with sub := .run .compute }
    else if s.toInter < cap then some { s with sub := .run .compute, toInter := s.toInter + 1 }
    else none
  | .run .err => if s.subErr < cap then some { s with sub := .run .compute, subErr := s.subErr + 1 } else none
  | _ => none

/-- The interactor does. (bridged.py:40-92) -/
def interStep (cap : Nat) (s : Br) : Option Br :=
  match s.inter with
  | .run .read =>
    if 0 < s.toInter then some { s with inter := .run .compute, toInter := s.toInter - 1 }
    else if s.subOut = false ∧ s.sub.running = false then some { s with inter := .run .compute }
    else none
  | .run .write =>
    if s.subIn = false ∧ s.sub.running = false then some { s with inter := .run .compute }
    else if s.toSub < cap then some { s with inter := .run .compute, toSub := s.toSub + 1 }
    else none
  | .run .err => if s.interErr < cap then some { s with inter := .run .compute, interErr := s.interErr + 1 } else none
  | _ => none

/-- One step. (bridged.py:40-92) -/
def bstep (cap : Nat) (s : Br) : BAct → Option Br
  | .judge => jstep s
  | .choose true w => if s.sub = .run .compute then some { s with sub := .run w } else none
  | .choose false w => if s.inter = .run .compute then some { s with inter := .run w } else none
  | .prog true => subStep cap s
  | .prog false => interStep cap s
  | .exit true => if s.sub = .run .compute then some { s with sub := .gone false } else none
  | .exit false => if s.inter = .run .compute then some { s with inter := .gone false } else none
  | .kill true => if s.sub.running = true then some { s with sub := .gone true } else none
  | .kill false => if s.inter.running = true then some { s with inter := .gone true } else none

/-- A sequence of steps. (bridged.py:40-92) -/
def brun (cap : Nat) (s : Br) : List BAct → Option Br
  | [] => some s
  | a :: l => (bstep cap s a).bind (brun cap · l)

end Verif.Session
