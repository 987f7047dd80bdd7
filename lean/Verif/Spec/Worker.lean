import Verif.Model.Worker

/-! # Specification of the grading stream -/

namespace Verif.Spec
open Verif Verif.Worker

/-- What a reader of the stream sees, ignoring the results themselves. -/
inductive Mark where
  | begin
  | batchBegin (n : Nat)
  | case (batch : Option Nat) (n : Nat)
  | batchEnd (n : Nat)
  | finish
  | abort
  | compileError
deriving DecidableEq, Repr

/-- The mark of an action (executions and compiler messages leave none). -/
def mark : Act → Option Mark
  | .exec _ => none
  | .send .compileError => some .compileError
  | .send .compileMessage => none
  | .send (.gradingBegin _) => some .begin
  | .send (.batchBegin n) => some (.batchBegin n)
  | .send (.batchEnd n) => some (.batchEnd n)
  | .send (.result bn n _) => some (.case bn n)
  | .send .gradingEnd => some .finish
  | .send .gradingAborted => some .abort

/-- The stream of marks of a list of actions. -/
def marks (l : List Act) : List Mark := l.filterMap mark

/-- Cases `i+1 .. i+k` of a batch (or of none). -/
def caseMarks (bn : Option Nat) (i k : Nat) : List Mark :=
  (List.range k).map (fun d => .case bn (i + d + 1))

/-- The layout of a problem after `n` batches and `i` cases: cases in order, each non-empty batch
bracketed. -/
def layout : Nat → Nat → List Item → List Mark
  | _, _, [] => []
  | n, i, .one _ :: r => .case none (i + 1) :: layout n (i + 1) r
  | n, i, .batch _ cs :: r =>
    (if cs = [] then []
     else .batchBegin (n + 1) :: (caseMarks (some (n + 1)) i cs.length ++ [.batchEnd (n + 1)])) ++
    layout (n + 1) (i + cs.length) r

/-- The cases of a problem in order with their batch and points. -/
def caseList : Nat → List Item → List (Option Nat × Rat)
  | _, [] => []
  | n, .one c :: r => (none, c.points) :: caseList n r
  | n, .batch _ cs :: r => cs.map (fun c => (some (n + 1), c.points)) ++ caseList (n + 1) r

/-- Case number `i` (from 1) was executed and got a wrong answer. -/
def Failed (w : World) (acts : List Act) (i : Nat) : Prop :=
  .exec i ∈ acts ∧ ∃ r, w.grade i = some r ∧ r.flag.testBit 0 = true

/-- Case `j` failing lets case `i` be skipped: they are in one batch, or short-circuiting was
requested, or `j` was worth nothing. -/
def Cuts (shortCircuit : Bool) (l : List (Option Nat × Rat)) (j i : Nat) : Prop :=
  shortCircuit = true ∨ (∃ b, l[j - 1]? = some (b, 0)) ∨
  (∃ b p q, l[j - 1]? = some (some b, p) ∧ l[i - 1]? = some (some b, q))

/-- The `x.2`-th entry of batch `m` whose first case has position `i`. -/
def placed (i m : Nat) (x : Cfg × Nat) : Option TestCase :=
  match x.1 with
  | .case p => some ⟨i + x.2, m, p⟩
  | .batch _ => none

/-- Positions, batch numbers and points expected of the cases of a configuration without nested
batches: position counts cases, batch number counts batches (0 outside). -/
def expectItems : Nat → Nat → List Cfg → List Item
  | _, _, [] => []
  | n, i, .case p :: r => .one ⟨i, 0, p⟩ :: expectItems n (i + 1) r
  | n, i, .batch es :: r =>
    .batch (n + 1) (es.zipIdx.filterMap (placed i (n + 1))) :: expectItems (n + 1) (i + es.length) r

/-- No batch contains a batch. -/
def Flat (cfg : List Cfg) : Prop :=
  ∀ es, Cfg.batch es ∈ cfg → ∀ e ∈ es, ∃ p, e = Cfg.case p

end Verif.Spec
