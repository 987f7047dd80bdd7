import Verif.Model.Ipc

/-! # What it means that a result arrives -/

namespace Verif.Ipc

/-- The object has the attribute with the value. -/
def Has (a : Attrs) (k : String) (v : V) : Prop := ∃ pre post, a = pre ++ (k, v) :: post ∧ ∀ e ∈ pre, e.1 ≠ k

/-- As in every dictionary, no key occurs twice. -/
def Dict (a : Attrs) : Prop := (a.map (·.1)).Nodup

/-- The length of the shown output that a value stands for: none is all of it. -/
inductive Stands : V → Option Int → Prop
  | none : Stands .null none
  | int (n : Int) : Stands (.int n) (some n)
  | no : Stands (.bool false) (some 0)
  | yes : Stands (.bool true) (some 1)

/-- The value is an output. -/
inductive IsOutput : V → Shown.Value → Prop
  | bytes (b : Bytes) : IsOutput (.bytes b) (.bytes b)
  | text (t : Shown.Text) : IsOutput (.text t) (.text t)

/-- The entry of the packet says what the result and its case say in the worker; the output is cut as C78 describes. -/
structure Faithful (r : Res) (v : View) : Prop where
  status : Has r.attrs "result_flag" v.status
  time : Has r.attrs "execution_time" v.time
  points : Has r.attrs "points" v.points
  total : Has r.case "points" v.total
  memory : Has r.attrs "max_memory" v.memory
  output : ∃ p n o x, Has r.case "output_prefix_length" p ∧ Stands p n ∧ Has r.attrs "proc_output" o ∧ IsOutput o x ∧ v.output = Shown.status n x
  extended : Has r.attrs "extended_feedback" v.extended
  feedback : Has r.attrs "feedback" v.feedback

/-- The value can be sent: it is not part of a configuration, and if it is an object of another class, that can be. -/
def Arrives (v : V) : Prop := v ≠ .node ∧ ∀ i f, v = .object i f → f = .arrives

/-- Nothing is wrong with the result: there is an entry for it, and all that is sent of it arrives. -/
structure Sendable (r : Res) : Prop where
  whole : ∃ v, Faithful r v
  attrs : ∀ k v, (k, v) ∈ r.attrs → k ≠ "proc_output" → Arrives v
  case : ∀ k v, (k, v) ∈ r.case → k ≠ "config" → k ≠ "problem" → k ≠ "_generated" → Arrives v

/-- What was handed over is what is told. -/
inductive Says : Yield → Told → Prop
  | msg (m : Judge.Msg) : Says (.msg m) (.msg m)
  | result (n : Nat) (r : Res) (v : View) : Faithful r v → Says (.result n r) (.status n v)

/-- What is read of something sent: itself, or something that cannot be read. -/
inductive Reads : Wire → Judge.Msg → Prop
  | msg (m : Judge.Msg) : Reads (.msg m) m
  | result (n : Nat) (r : Res) : Reads (.result n (some r)) (.result n)
  | broken (n : Nat) : Reads (.result n none) .garbage

/-- A value that is no object of another class. -/
def Plain (v : V) : Prop := v ≠ .node ∧ ∀ i f, v ≠ .object i f

end Verif.Ipc
