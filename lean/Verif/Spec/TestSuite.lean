import Verif.Model.TestSuite

/-!
# When an expectation is met
-/

namespace Verif.TestSuite.Spec

/-- A key of a mapping is the number of a case. -/
def KeyIs (pos : Int) (k : Scalar) : Prop :=
  k = .int pos ∨ k = .float pos ∨ k = .bool true ∧ pos = 1 ∨ k = .bool false ∧ pos = 0

/-- The expectation that holds for a case: its own, or else the general one. -/
def Applies {α : Type} (all : α) (cases : List (Scalar × α)) (pos : Int) (x : α) : Prop :=
  (∃ pre k post, cases = pre ++ (k, x) :: post ∧ KeyIs pos k ∧ ∀ q ∈ pre, ¬ KeyIs pos q.1) ∨
  x = all ∧ ∀ q ∈ cases, ¬ KeyIs pos q.1

/-- An internal error is permitted. -/
def ErrorPermitted (contains : String → String → Bool) (e : Expected) (message : String) : Prop :=
  "IE" ∈ e.codesAll ∧ ∀ s, e.feedbackAll = some s → s ≠ [] → ∃ t, .str t ∈ s ∧ contains t message = true

/-- A message meets the expectations. -/
def Met (contains : String → String → Bool) (e : Expected) : Msg → Prop
  | .case pos code points feedback =>
    (∃ c, Applies e.codesAll e.codesCases pos c ∧ code ∈ c) ∧
    (∃ p, Applies e.pointsAll e.pointsCases pos p ∧ ∀ s, p = some s → ∃ n ∈ s, (n : Rat) = points) ∧
    ∃ f, Applies e.feedbackAll e.feedbackCases pos f ∧ ∀ s, f = some s → .str feedback ∈ s
  | .compileError => "CE" ∈ e.codesAll
  | .exception m => ErrorPermitted contains e m
  | .other => True

/-- All that was sent meets the expectations. -/
def AllMet (contains : String → String → Bool) (e : Expected) (r : List Msg × Option String) : Prop :=
  (∀ m ∈ r.1, Met contains e m) ∧ ∀ t, r.2 = some t → ErrorPermitted contains e t

/-- Only strings. -/
def Strings (s : PSet Scalar) : Prop := ∀ x ∈ s, ∃ t, x = .str t

/-- Expectations the manager can deal with: feedback is text, points by case are numbers, and there are none of these
where an internal error would be permitted. -/
structure Sane (e : Expected) : Prop where
  feedbackAll : ∀ s, e.feedbackAll = some s → Strings s
  feedbackCases : ∀ k s, (k, some s) ∈ e.feedbackCases → Strings s
  pointsCases : ∀ k, (k, none) ∉ e.pointsCases
  points : "IE" ∈ e.codesAll → e.pointsCases = []

/-- The code is permitted by the document. -/
def PermitsCode : Value → String → Prop
  | .scalar (.str s), c => s = "*" ∧ c ∈ ["AC", "IE", "TLE", "MLE", "OLE", "RTE", "IR", "WA", "CE", "SC"] ∨ s ≠ "*" ∧ c = s
  | .scalar _, _ => False
  | .list xs, c | .dict xs, c => .str c ∈ xs

end Verif.TestSuite.Spec
