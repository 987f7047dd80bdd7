import Verif.Model.Ending
import Verif.Spec.Monitor
import Verif.Spec.Syscalls

/-!
# Specification: what ends a program, and the signals it is sent (ptrace(2))

A signal other than `SIGKILL` stops the thread it is for before it acts; the tracer passes it on. A thread in which a signal acts by killing makes no
stops other than that of its exit afterwards, and then all threads end.
-/

namespace Verif.Ending.Spec
open Verif.Monitor Verif.Ending

/-- The stops of a run up to the end of the program: the stop the child asks for before it becomes the program (number 19, `SIGSTOP`), and those that
follow, among which is no end of the main thread. -/
def Run {C : Type} (main : Nat) (stops rest : List (Stop C)) : Prop := stops = .signal main 19 :: rest ∧ Stop.gone main ∉ rest

/-- `n` is the signal the main thread was sent last, apart from `SIGTRAP` (5). -/
def Latest {C : Type} (main n : Nat) (rest : List (Stop C)) : Prop :=
  n ≠ 5 ∧ ∃ pre post, rest = pre ++ .signal main n :: post ∧ ∀ m, Stop.signal main m ∈ post → m = 5

/-- The main thread was sent no signal other than `SIGTRAP`. -/
def Unsignalled {C : Type} (main : Nat) (rest : List (Stop C)) : Prop := ∀ m, Stop.signal main m ∈ rest → m = 5

/-- The main thread was killed by signal `n`: the last it was sent, with nothing of the main thread afterwards but its exit. -/
def KilledBy {C : Type} (main n : Nat) (rest : List (Stop C)) (e : Ended) : Prop :=
  e = .killed n ∧ ∃ pre post, rest = pre ++ .signal main n :: post ∧ ∀ x ∈ post, x.pid = main → x = .trap main .exit

/-- The executor has nothing to say about the program's standard error, and no shared library was missing. -/
def Mute (parse : Str → Feedback.Proc → Option Str) (err : Str) : Prop :=
  (∀ p, parse err p = some []) ∧ ¬ "error while loading shared libraries".toList <:+: err

/-- No limit was exceeded: not according to clocks, memory and pipes, and no `SIGXCPU` (24) was sent. -/
def Within {C : Type} (main : Nat) (l : Limits) (rest : List (Stop C)) : Prop :=
  l.tle = false ∧ l.mle = false ∧ l.ole = false ∧ Stop.signal main 24 ∉ rest

/-- The system calls of an ABI, in the order of `ptbox.h`: i386, x86-64, x32, 32-bit ARM, 64-bit ARM, FreeBSD. -/
def tableOf : Nat → Option (List (Nat × String))
  | 0 => some Syscalls.x86Table
  | 1 => some Syscalls.x64Table
  | 2 => some Syscalls.x32Table
  | 3 => some Syscalls.armTable
  | 4 => some Syscalls.genericTable
  | 5 => some Syscalls.freebsdTable
  | _ => none

/-- Nothing more is seen of system calls: what threads still stop for is not a call, or they are gone before it could be looked at. -/
def NoCalls {C : Type} (stops : List (Stop C)) : Prop := ∀ pid v, Stop.sys pid v ∈ stops → v.pre = .esrch

end Verif.Ending.Spec
