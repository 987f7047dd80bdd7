import Verif.Model.Request
import Verif.Spec.Ansi

/-!
# Requests of the site

From the model only the shapes of JSON, submissions and reactions are taken, and what Python makes of texts (`Env`).
-/

namespace Verif.Request.Spec

/-- The packet is a dictionary in which the key stands for the value. -/
def Has (p : Json) (k : String) (v : Json) : Prop :=
  ∃ before after, p = .obj (before ++ (k.toList, v) :: after) ∧ ∀ w, (k.toList, w) ∉ after

/-- The packet is of the given kind. -/
def Named (p : Json) (k : String) : Prop := Has p "name" (.str k.toList)

/-- The kinds of packets the judge knows. -/
def kinds : List String := ["ping", "get-current-submission", "submission-request", "terminate-submission", "disconnect"]

/-- A value that can be read as a number with a fraction. -/
inductive ReadsFloat (e : Env) : Json → Num → Prop where
  | yes : ReadsFloat e (.bool true) (.fin 1)
  | no : ReadsFloat e (.bool false) (.fin 0)
  | int (i : Int) (x : Num) (h : e.ofInt i = some x) : ReadsFloat e (.int i) x
  | float (x : Num) : ReadsFloat e (.float x) x
  | text (s : Str) (x : Num) (h : e.floatText s = some x) : ReadsFloat e (.str s) x

/-- A value that can be read as an integer: fractions are dropped. -/
inductive ReadsInt (e : Env) : Json → Int → Prop where
  | yes : ReadsInt e (.bool true) 1
  | no : ReadsInt e (.bool false) 0
  | int (i : Int) : ReadsInt e (.int i) i
  | down (q : Rat) (i : Int) (h0 : 0 ≤ q) (h : i ≤ q ∧ q < i + 1) : ReadsInt e (.float (.fin q)) i
  | up (q : Rat) (i : Int) (h0 : q < 0) (h : i - 1 < q ∧ q ≤ i) : ReadsInt e (.float (.fin q)) i
  | text (s : Str) (i : Int) (h : e.intText s = some i) : ReadsInt e (.str s) i

/-- The packet describes the submission. -/
structure Describes (e : Env) (p : Json) (s : Submission) : Prop where
  id : Has p "submission-id" s.id
  problem : Has p "problem-id" s.problem
  language : Has p "language" s.language
  source : Has p "source" s.source
  time : ∃ v, Has p "time-limit" v ∧ ReadsFloat e v s.time
  memory : ∃ v, Has p "memory-limit" v ∧ ReadsInt e v s.memory
  shortCircuit : Has p "short-circuit" s.shortCircuit
  info : Has p "meta" s.info

/-- How a value is written in the log. -/
inductive Written (e : Env) : Json → Str → Prop where
  | text (s : Str) : Written e (.str s) s
  | other (v : Json) (h : ∀ s, v ≠ .str s) : Written e v (e.shown v)

/-- The names in the log cannot be taken for colours. -/
def Plain (e : Env) (s : Submission) : Prop :=
  ∀ v ∈ [s.problem, s.id, s.language], ∀ t, Written e v t → Ansi.Harmless t

/-- A number of some kind, which can be written without a fraction. -/
inductive Numeric : Json → Prop where
  | bool (b : Bool) : Numeric (.bool b)
  | int (i : Int) : Numeric (.int i)
  | float (q : Rat) : Numeric (.float (.fin q))

end Verif.Request.Spec
