import Verif.Model.Control

/-!
# C122: the server for the API, specification
-/

namespace Verif.Control
open Verif.Main

/-- A connection the server need not wait for. -/
def Ready (s : St) (c : Nat) : Prop := s.conns c ≠ .silent

/-- The one request that means something. -/
def Update (c : Conn) : Prop := c = .asked .post "/update/problems".toList

/-- What is to be answered to a request. -/
def Right : Conn → Nat → Prop
  | .asked .post p, n => (p = "/update/problems".toList ∧ n = 200) ∨ (p ≠ "/update/problems".toList ∧ n = 404)
  | .asked .get _, n => n = 404
  | .asked .other _, n => n = 501
  | _, _ => False

/-- Client `c` neither asks nor leaves. -/
def Quiet (c : Nat) (as : List Act) : Prop := ∀ a ∈ as, a ≠ .leave c ∧ ∀ m p, a ≠ .ask c m p

/-- Steps of the judge itself. -/
def Own (a : Act) : Prop := a = .serve ∨ a = .main

end Verif.Control
