import Verif.Model.Ansi

/-!
# What the judge makes of the packets of the site

`_receive_packet` on arbitrary JSON, dmoj/packet.py:250-285, with the exceptions it may raise: `_read_forever` (packet.py:154-165) ends the process with status 1
for every one of them. Simplified: starting the worker process is assumed to succeed; logging never raises (`logging` prints what goes wrong with a format).
-/

namespace Verif.Request

/-- Text. -/
abbrev Str := List Char

/-- A Python `float`. (packet.py:267) -/
inductive Num where
  | fin (q : Rat)
  | inf (neg : Bool)
  | nan
deriving DecidableEq, Repr

/-- What `json.loads` gives, packet.py:183. -/
inductive Json where
  | null
  | bool (b : Bool)
  | int (i : Int)
  | float (x : Num)
  | str (s : Str)
  | arr (l : List Json)
  | obj (l : List (Str × Json))

/-- `packet[k]`: `none` where there is no such key or the packet is no dict (`KeyError`, `TypeError`). Of equal keys the last counts. (packet.py:251-273) -/
def Json.get : Json → Str → Option Json
  | .obj l, k => (l.reverse.find? fun x => x.1 = k).map (·.2)
  | _, _ => none

/-- `name == '...'`, packet.py:252-283. -/
def Json.isText : Json → Str → Bool
  | .str s, t => s = t
  | _, _ => false

/-- What Python makes of texts and large numbers. (packet.py:267-268, judge.py:121-124) -/
structure Env where
  /-- `float` of an integer; `none` is an `OverflowError` -/
  ofInt : Int → Option Num
  /-- `float` of a text; `none` is a `ValueError` -/
  floatText : Str → Option Num
  /-- `int` of a text; `none` is a `ValueError` -/
  intText : Str → Option Int
  /-- `str` of anything but a text -/
  shown : Json → Str
  noAnsi : Bool

/-- `float(x)`, packet.py:267. -/
def toFloat (e : Env) : Json → Option Num
  | .bool b => some (.fin (if b then 1 else 0))
  | .int i => e.ofInt i
  | .float x => some x
  | .str s => e.floatText s
  | _ => none

/-- `int(x)`, packet.py:268: a `float` is cut off towards zero; infinities and NaN raise. -/
def toInt (e : Env) : Json → Option Int
  | .bool b => some (if b then 1 else 0)
  | .int i => some i
  | .float (.fin q) => some (q.num.tdiv q.den)
  | .float _ => none
  | .str s => e.intText s
  | _ => none

/-- `'%s' % x`, judge.py:122-123. -/
def text (e : Env) : Json → Str
  | .str s => s
  | x => e.shown x

/-- judge.py:56-67. -/
structure Submission where
  id : Json
  problem : Json
  language : Json
  source : Json
  time : Num
  memory : Int
  shortCircuit : Json
  info : Json

/-- The submission of a request, packet.py:261-270. -/
def submission (e : Env) (p : Json) (id : Json) : Option Submission := do
  let problem ← p.get "problem-id".toList
  let language ← p.get "language".toList
  let source ← p.get "source".toList
  let t ← p.get "time-limit".toList
  let time ← toFloat e t
  let m ← p.get "memory-limit".toList
  let memory ← toInt e m
  let shortCircuit ← p.get "short-circuit".toList
  let info ← p.get "meta".toList
  return { id, problem, language, source, time, memory, shortCircuit, info }

/-- The text of the line `begin_grading` logs first, judge.py:121-124. -/
def startLine (e : Env) (s : Submission) : Str :=
  "Start grading #ansi[".toList ++ text e s.problem ++ "](yellow)/#ansi[".toList ++ text e s.id ++ "](green|bold) in ".toList ++ text e s.language ++ "...".toList

/-- `'%d' % x` does not raise, judge.py:308: booleans are integers, floats are cut off, infinities and NaN raise as anything else does. -/
def Json.decimal : Json → Bool
  | .bool _ => true
  | .int _ => true
  | .float (.fin _) => true
  | _ => false

/-- `begin_grading` up to the start of the worker process: the line for the log, and the name of the process. (judge.py:121-130, 300-312) -/
def starts (e : Env) (s : Submission) : Bool := (Ansi.style e.noAnsi (startLine e s)).isSome && s.id.decimal

/-- What the judge does. (packet.py:250-285) -/
inductive Out where
  | pingResponse (when_ : Json)
  | currentId (id : Json)
  | ack (id : Json)
  | begin (s : Submission)
  | abort (id : Json)
  | close
  | exit (code : Nat)

/-- `abort_grading()`, judge.py:238-255. -/
def abortGrading (running : Option Json) : List Out :=
  match running with
  | none => []
  | some id => [.abort id]

/-- `_receive_packet`, packet.py:250-285, with the id of the submission being graded. -/
def receive (e : Env) (running : Option Json) (p : Json) : List Out :=
  match p.get "name".toList with
  | none => [.exit 1]
  | some name =>
    if name.isText "ping".toList then
      match p.get "when".toList with
      | none => [.exit 1]
      | some w => [.pingResponse w]
    else if name.isText "get-current-submission".toList then
      match running with
      | none => [.exit 1]
      | some id => [.currentId id]
    else if name.isText "submission-request".toList then
      match p.get "submission-id".toList with
      | none => [.exit 1]
      | some id =>
        .ack id ::
          match submission e p id with
          | none => [.exit 1]
          | some s => if starts e s then [.begin s] else [.exit 1]
    else if name.isText "terminate-submission".toList then abortGrading running
    else if name.isText "disconnect".toList then .close :: (abortGrading running ++ [.exit 0])
    else []

/-- Does this end the process? (packet.py:158-165, 189-192) -/
def Out.ends : Out → Bool
  | .exit _ => true
  | _ => false

/-- `_read_forever`, packet.py:154-165: packets as they come, each with the submission being graded then. -/
def serve (e : Env) : List (Option Json × Json) → List Out
  | [] => []
  | (r, p) :: ps => receive e r p ++ if (receive e r p).any Out.ends then [] else serve e ps

end Verif.Request
