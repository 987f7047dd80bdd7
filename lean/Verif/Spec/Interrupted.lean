import Verif.Model.Interrupted

/-!
# What an interrupted wait may do
-/

namespace Verif.Interrupted
open Verif.Monitor

/-- The stops that were reported; one that does not say what it is counts as a trap without meaning. -/
def stops {C : Type} : List (Wait C) → List (Stop C)
  | [] => []
  | .stop e :: ws => e :: stops ws
  | .failed _ :: ws => stops ws
  | .unsaid p _ _ :: ws => .trap p .plain :: stops ws

/-- The first wait succeeds. -/
def Begun {C : Type} (ws : List (Wait C)) : Prop := ∃ e rest, ws = .stop e :: rest

/-- The child a stop announces. -/
def born {C : Type} : Stop C → Option Nat
  | .trap _ (.fork c) | .trap _ (.vfork c) => some c
  | _ => none

/-- `npid` still has the value of the last time, whenever it is used without having been set, and every stop says what it is. -/
def Kept {C : Type} : Option (Stop C) → List (Wait C) → Prop
  | _, [] => True
  | _, .stop e :: ws => Kept (some e) ws
  | last, .failed j :: ws => (∀ e c, last = some e → born e = some c → j.npid = (c : Int)) ∧ Kept last ws
  | _, .unsaid _ _ _ :: _ => False

/-- No wait fails directly after the stop of a `fork`, and every stop says what it is. -/
def Apart {C : Type} : Option (Stop C) → List (Wait C) → Prop
  | _, [] => True
  | _, .stop e :: ws => Apart (some e) ws
  | last, .failed _ :: ws => (∀ e, last = some e → born e = none) ∧ Apart last ws
  | _, .unsaid _ _ _ :: _ => False

/-- What concerns the program and the judge. -/
def acts (os : List Out) : List Act := os.filterMap fun
  | .act a => some a
  | .killStray _ => none

end Verif.Interrupted
