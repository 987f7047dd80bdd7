import Verif.Model.Family

/-! # Specification: what may be left of a submission -/

namespace Verif.Family.Spec
open Verif.Family

/-- The live processes of the submission. -/
def alive (s : State) : List Proc := s.procs.filter (·.mine)

/-- Nothing of the submission is left. -/
def Over (s : State) : Prop := ∀ p ∈ s.procs, p.mine = false

/-- The event makes a process that nobody traces. -/
def Hides (e : Event) : Prop := ∃ p c name f s n, e = .birth p c name f s n ∧ f.untraced = true

/-- The machine before the run: numbers are unique, and no process is in the group the program will have. -/
def Sane (cfg : Cfg) (others : List (Nat × Nat)) : Prop :=
  (cfg.main :: others.map (·.1)).Nodup ∧ cfg.judge ≠ cfg.main ∧ ∀ o ∈ others, o.2 ≠ cfg.main

end Verif.Family.Spec
