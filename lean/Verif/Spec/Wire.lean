import Verif.Model.Wire
import Verif.Spec.Packets
import Verif.Spec.Score

/-!
# Specification: a site reading the connection

The site's side of the protocol, independent of the judge's code: frames, JSON values, and what they tell about submissions.
-/

namespace Verif.Wire.Spec
open Verif Verif.Judge Verif.Packets Verif.Packets.Spec Verif.Request Verif.Request.Spec

/-- The complete frames at the beginning of a stream: four bytes with the length, the first the most significant, and as many bytes. -/
def bodies (b : Bytes) : List Bytes :=
  match b with
  | a :: b :: c :: d :: rest =>
    let n := a.toNat * 2 ^ 24 + b.toNat * 2 ^ 16 + c.toNat * 2 ^ 8 + d.toNat
    if n ≤ rest.length then rest.take n :: bodies (rest.drop n) else []
  | _ => []
termination_by b.length
decreasing_by simp only [List.length_cons, List.length_drop]; omega

/-- What the site is told: the points of a case, or something about a submission. -/
inductive Told where
  | result (sid pos : Nat) (points : Json)
  | packet (k : Kind) (sid : Nat)

/-- The names of the packets about submissions. -/
def kindName : Kind → String
  | .compileError => "compile-error"
  | .compileMessage => "compile-message"
  | .gradingBegin => "grading-begin"
  | .gradingEnd => "grading-end"
  | .gradingAborted => "submission-terminated"
  | .batchBegin => "batch-begin"
  | .batchEnd => "batch-end"
  | .internalError => "internal-error"

/-- One entry of a packet with results. -/
inductive CaseTells (sid : Nat) : Json → Told → Prop where
  | mk (v x : Json) (pos : Nat) : Has v "position" (.int pos) → Has v "points" x → CaseTells sid v (.result sid pos x)

/-- What a packet tells. -/
inductive Tells : Json → List Told → Prop where
  | status (v : Json) (sid : Nat) (js : List Json) (ts : List Told) : Named v "test-case-status" → Has v "submission-id" (.int sid) →
    Has v "cases" (.arr js) → List.Forall₂ (CaseTells sid) js ts → Tells v ts
  | packet (v : Json) (k : Kind) (sid : Nat) : Named v (kindName k) → Has v "submission-id" (.int sid) → Tells v [.packet k sid]
  | other (v : Json) (n : String) : Named v n → n ≠ "test-case-status" → (∀ k, n ≠ kindName k) → Tells v []

/-- What the site has been told when it has received these bytes. -/
def Hears (F : Floats) (decompress : Bytes → Option Bytes) (b : Bytes) (ts : List Told) : Prop :=
  ∃ ls : List (List Told), List.Forall₂ (fun body l => ∃ t v, decompress body = some t ∧ decodeJson F t = some v ∧ Tells v l) (bodies b) ls ∧
    ts = ls.flatten

/-- Without the points. -/
def Told.item : Told → Site.Item
  | .result sid pos _ => .result sid pos
  | .packet k sid => .packet k sid

/-- A JSON number. -/
inductive Amount : Json → Rat → Prop where
  | int (i : Int) : Amount (.int i) i
  | float (q : Rat) : Amount (.float (.fin q)) q

/-- The points add up to this. -/
inductive Adds : List Told → Rat → Prop where
  | nil : Adds [] 0
  | result (sid pos : Nat) (x : Json) (p q : Rat) (l : List Told) : Amount x p → Adds l q → Adds (.result sid pos x :: l) (p + q)
  | packet (k : Kind) (sid : Nat) (q : Rat) (l : List Told) : Adds l q → Adds (.packet k sid :: l) q

/-- The results in it carry the points of the results with these numbers that the worker produced. -/
def Honest (t : Score.Task) (z : List Told) : Prop :=
  ∀ sid n x, .result sid n x ∈ z → Amount x (Score.Spec.pointsIn (Verif.Spec.resultsOf t.acts) n)

end Verif.Wire.Spec
