import Verif.Model.Exchange

/-!
# What is said of a program and the three pipes it talks to the judge through
-/

namespace Verif.Exchange.Spec

open Verif.Exchange
open Verif.Communicate (Args Chan)

/-- A state that can occur, for an input and a limit on the output. -/
def Reach (cap : Nat) (input : List UInt8) (limit : Nat) (s : State) : Prop := ∃ ls, run cap (args input limit) start ls = some s

/-- How much may be kept of a stream: the limit, and for errors a mebibyte. -/
def allowed (limit : Nat) : Chan → Nat
  | .out => limit
  | .err => 1048576

/-- The program has been started and has not ended. -/
def Alive (s : State) : Prop := s.status = .born ∨ s.status = .running

/-- The judge is exchanging input and output with it. -/
def Talking (s : State) : Prop := ∃ c ps, s.phase = .talk c ps

/-- The grading of the case goes on with this. -/
def Finished (s : State) (o : Outcome) : Prop := ∃ c, s.phase = .done c o

/-- The program has the descriptor it needs for this. -/
def Has (s : State) : Deed → Prop
  | .read _ => s.rd .in_ .prog = true
  | .write c _ => s.wr (.out c) .prog = true
  | .settle => s.status = .born
  | _ => True

/-- It can do now whatever it may want to. -/
def Free (cap : Nat) (s : State) : Prop :=
  (s.status = .born ∧ (deed cap s .settle).isSome) ∨ (s.status = .running ∧ ∀ d, d ≠ .settle → Has s d → (deed cap s d).isSome)

/-- Only the judge acts, so often. -/
def alone (cap : Nat) (input : List UInt8) (limit : Nat) (s : State) (k : Nat) : Option State :=
  run cap (args input limit) s (List.replicate k .judge)

end Verif.Exchange.Spec
