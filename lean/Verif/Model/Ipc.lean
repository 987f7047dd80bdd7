import Verif.Model.Shown
import Verif.Model.Judge

/-!
# What crosses the pipe between the worker and the judge: dmoj/judge.py:315-335, 357-435, 495-501, dmoj/problem.py:225-234, 377-386, dmoj/result.py:31-51, 65-71,
dmoj/packet.py:195-216

The two processes exchange pickled objects: `Connection.send` pickles the whole message before it writes anything, `Connection.recv` reads a whole message and
unpickles it. An object is represented by the dictionary of its attributes, its values by what pickling does to them. Simplified: the values of a test case and
of a result are not followed into lists and dictionaries (such an attribute is an `object`, with whatever happens to it); the case of a result is a `TestCase`;
the pipe itself does not break (C99, C100). Exceptions are `none`.
-/

namespace Verif.Ipc

/-- What happens to a value that is pickled, sent and unpickled: it arrives as it is, `send` raises in the worker, `recv` raises in the judge. (judge.py:315-335, 410) -/
inductive Fate where
  | arrives | refused | broken
deriving DecidableEq, Repr

/-- Values of attributes. A `ConfigNode` (config.py:80-81) answers `None` when it is asked for `__getstate__`, and calling that raises `TypeError`; objects of other
classes, which graders of problems may put anywhere, do what they do. Floats are named by their bits. (result.py:31-51) -/
inductive V where
  | null
  | bool (b : Bool)
  | int (n : Int)
  | float (bits : Nat)
  | text (t : Shown.Text)
  | bytes (b : Bytes)
  | node
  | object (id : Nat) (fate : Fate)
deriving DecidableEq, Repr

/-- result.py:31-51, config.py:80-81. -/
def V.fate : V → Fate
  | .node => .refused
  | .object _ f => f
  | _ => .arrives

/-- The `__dict__` of an object. (problem.py:382-386) -/
abbrev Attrs := List (String × V)

/-- `self.k`; `none` is an `AttributeError`. (result.py:65-71) -/
def get (a : Attrs) (k : String) : Option V := a.lookup k

/-- `self.k = v`. (judge.py:500) -/
def set (a : Attrs) (k : String) (v : V) : Attrs := (k, v) :: a.filter fun e => e.1 ≠ k

/-- A `Result`: the attributes of its case, and its other attributes. (result.py:31-51) -/
structure Res where
  case : Attrs
  attrs : Attrs
deriving DecidableEq, Repr

/-- `TestCase.__init__`, problem.py:225-234; `points`, `prefix` and `binary` are what the configuration of the case says. `generated` is what has become of
`_generated` since. -/
def makeCase (position : Nat) (batch config problem points pre binary generated : V) : Attrs :=
  [("position", .int position), ("batch", batch), ("config", config), ("problem", problem), ("points", points), ("output_prefix_length", pre),
   ("has_binary_data", binary), ("_generated", generated)]

/-- `Result.__init__`, result.py:31-51. -/
def makeResult (case : Attrs) (flag time wall memory output feedback extended points : V) : Res :=
  ⟨case, [("result_flag", flag), ("execution_time", time), ("wall_clock_time", wall), ("max_memory", memory), ("proc_output", output),
    ("feedback", feedback), ("extended_feedback", extended), ("points", points)]⟩

/-- `_pickle_blacklist`, problem.py:379. -/
def blacklist : List String := ["_generated", "config", "problem"]

/-- `TestCase.__getstate__`, problem.py:381-383. -/
def getstate (c : Attrs) : Attrs := c.filter fun e => !blacklist.contains e.1

/-- `dict.update`. (problem.py:385-386) -/
def update (d : Attrs) : Attrs → Attrs
  | [] => d
  | (k, v) :: s => update (set d k v) s

/-- Pickling comes first, so one value that is refused is enough; then all are loaded. (judge.py:315-335, 410) -/
def fateOf (a : Attrs) : Fate :=
  if a.any (fun e => e.2.fate = .refused) then .refused
  else if a.any (fun e => e.2.fate = .broken) then .broken
  else .arrives

/-- A result sent and received: a new object with the attributes of the old one, whose case is a new object updated by the state of the old one
(problem.py:381-386). -/
def cross (r : Res) : Except Fate Res :=
  match fateOf (r.attrs ++ getstate r.case) with
  | .arrives => .ok ⟨update [] (getstate r.case), r.attrs⟩
  | f => .error f

/-- What a slice may end at. (result.py:69-71) -/
def V.bound : V → Option (Option Int)
  | .null => some none
  | .int n => some (some n)
  | .bool b => some (some (if b then 1 else 0))
  | _ => none

/-- `Result.output`, result.py:69-71. -/
def output (r : Res) : Option Shown.Text :=
  match get r.case "output_prefix_length", get r.attrs "proc_output" with
  | some p, some o =>
    match p.bound, o with
    | some n, .bytes b => some (Shown.output n (.bytes b))
    | some n, .text t => some (Shown.output n (.text t))
    | _, _ => none
  | _, _ => none

/-- `result.proc_output = result.output`, judge.py:500. -/
def trim (r : Res) : Option Res :=
  match output r with
  | some t => some { r with attrs := set r.attrs "proc_output" (.text t) }
  | none => none

/-- An entry of the packet, packet.py:203-214. -/
structure View where
  status : V
  time : V
  points : V
  total : V
  memory : V
  output : Shown.Text
  extended : V
  feedback : V
deriving DecidableEq, Repr

/-- What the judge makes of a result it received. (packet.py:203-214, result.py:65-71) -/
def view (r : Res) : Option View := do
  let status ← get r.attrs "result_flag"
  let time ← get r.attrs "execution_time"
  let points ← get r.attrs "points"
  let total ← get r.case "points"
  let memory ← get r.attrs "max_memory"
  let output ← output r
  let extended ← get r.attrs "extended_feedback"
  let feedback ← get r.attrs "feedback"
  pure { status, time, points, total, memory, output, extended, feedback }

/-- What the generator of the worker hands over: a result as it is before it is trimmed, or another message, which consists of numbers and texts and always
arrives. (judge.py:437-507) -/
inductive Yield where
  | msg (m : Judge.Msg)
  | result (n : Nat) (r : Res)
deriving DecidableEq, Repr

/-- What is in the pipe, as the judge will read it: `none` is a message that cannot be unpickled. (judge.py:315-335) -/
inductive Wire where
  | msg (m : Judge.Msg)
  | result (n : Nat) (r : Option Res)
  | bye
deriving DecidableEq, Repr

/-- The loop of the worker, judge.py:357-435: an exception, of the generator (which trims the result, 500) or of `send`, is reported and ends it. `raises`: the
generator raises after what it handed over. -/
def send (raises : Bool) : List Yield → List Wire
  | [] => (if raises then [.msg .unhandled] else []) ++ [.bye]
  | .msg m :: ys => .msg m :: send raises ys
  | .result n r :: ys =>
    match trim r with
    | none => [.msg .unhandled, .bye]
    | some r' =>
      match cross r' with
      | .ok s => .result n (some s) :: send raises ys
      | .error .broken => .result n none :: send raises ys
      | .error _ => [.msg .unhandled, .bye]

/-- What the judge acts on. (judge.py:143-186, 315-335) -/
inductive Told where
  | msg (m : Judge.Msg)
  | status (n : Nat) (v : View)
  /-- An exception in the judge, which it reports. -/
  | internalError
deriving DecidableEq, Repr

/-- `communicate` and the handlers, judge.py:143-186, 315-335: it reads until BYE, or until something cannot be read. Simplified: that the packet of a result cannot be
made is noticed with the result, not when its queue is sent. -/
def receive : List Wire → List Told
  | [] => []
  | .bye :: _ => []
  | .msg m :: ws => .msg m :: receive ws
  | .result _ none :: _ => [.internalError]
  | .result n (some r) :: ws =>
    match view r with
    | some v => .status n v :: receive ws
    | none => [.internalError]

/-- judge.py:143-186, 357-435. -/
def told (raises : Bool) (ys : List Yield) : List Told := receive (send raises ys)

/-- What the generator hands over, as C20 sees it. (judge.py:437-507) -/
def Yield.kind : Yield → Judge.Msg
  | .msg m => m
  | .result n _ => .result n

/-- What the judge reads before BYE, as C20 sees it. (judge.py:315-335) -/
def got : List Wire → List Judge.Msg
  | [] => []
  | .bye :: _ => []
  | .msg m :: ws => m :: got ws
  | .result n (some _) :: ws => .result n :: got ws
  | .result _ none :: ws => .garbage :: got ws

end Verif.Ipc
