import Verif.Model.Request
import Verif.Model.Message
import Verif.Model.Net

/-!
# What the packets of the judge say, and how they are written

The packets built in dmoj/packet.py:191-216, 287-388 as Python values, `_send_packet` (packet.py:234-248) as far as the text: `json.dumps` with its defaults,
and `json.loads` (packet.py:183, 296), both as in CPython's `json` package (encoder.py, decoder.py, scanner.py, `ensure_ascii`, no `indent`).
Simplified: texts have no lone surrogates (a Lean `Char` is a Unicode scalar value); nesting is never too deep for the interpreter.
-/

namespace Verif.Packets
open Verif Verif.Request

/-! ## Texts -/

/-- A hexadecimal digit, as `'%x'` prints it. (json/encoder.py, for packet.py:242) -/
def hexDigit (n : Nat) : Char := Char.ofNat (if n < 10 then 48 + n else 87 + n)

/-- `'\\u{0:04x}'.format(n)`. (json/encoder.py, for packet.py:242) -/
def hex4 (n : Nat) : Str :=
  ['\\', 'u', hexDigit (n / 4096 % 16), hexDigit (n / 256 % 16), hexDigit (n / 16 % 16), hexDigit (n % 16)]

/-- One character inside a JSON string: `py_encode_basestring_ascii`. (json/encoder.py, for packet.py:242) -/
def escape (c : Char) : Str :=
  if c = '"' then ['\\', '"']
  else if c = '\\' then ['\\', '\\']
  else if c = '\n' then ['\\', 'n']
  else if c = '\r' then ['\\', 'r']
  else if c = '\t' then ['\\', 't']
  else if c = Char.ofNat 12 then ['\\', 'f']
  else if c = Char.ofNat 8 then ['\\', 'b']
  else if 32 ≤ c.toNat ∧ c.toNat ≤ 126 then [c]
  else if c.toNat < 0x10000 then hex4 c.toNat
  else hex4 (0xD800 + (c.toNat - 0x10000) / 1024) ++ hex4 (0xDC00 + (c.toNat - 0x10000) % 1024)

/-- A JSON string. (json/encoder.py, for packet.py:242) -/
def quoted (s : Str) : Str := '"' :: (s.flatMap escape ++ ['"'])

/-! ## Writing -/

/-- What Python does with finite floats: which numbers are floats, `float.__repr__`, and `float` of a text of the form of a JSON number.
(packet.py:183, 242) -/
structure Floats where
  double : Rat → Prop
  repr : Rat → Str
  read : Str → Num

/-- `int.__repr__`. (json/encoder.py, for packet.py:242) -/
def intText (i : Int) : Str :=
  match i with
  | .ofNat n => Nat.toDigits 10 n
  | .negSucc n => '-' :: Nat.toDigits 10 (n + 1)

/-- `floatstr` with `allow_nan`. (json/encoder.py, for packet.py:242) -/
def floatText (F : Floats) : Num → Str
  | .fin q => F.repr q
  | .inf false => "Infinity".toList
  | .inf true => "-Infinity".toList
  | .nan => "NaN".toList

mutual
/-- `json.dumps`. (packet.py:242) -/
def dumps (F : Floats) : Json → Str
  | .null => "null".toList
  | .bool true => "true".toList
  | .bool false => "false".toList
  | .int i => intText i
  | .float x => floatText F x
  | .str s => quoted s
  | .arr [] => ['[', ']']
  | .arr (v :: l) => '[' :: (dumps F v ++ dumpItems F l)
  | .obj [] => ['{', '}']
  | .obj ((k, v) :: l) => '{' :: (quoted k ++ (':' :: ' ' :: dumps F v) ++ dumpMembers F l)

/-- The rest of a list. (json/encoder.py, for packet.py:242) -/
def dumpItems (F : Floats) : List Json → Str
  | [] => [']']
  | v :: l => ',' :: ' ' :: (dumps F v ++ dumpItems F l)

/-- The rest of a dict. (json/encoder.py, for packet.py:242) -/
def dumpMembers (F : Floats) : List (Str × Json) → Str
  | [] => ['}']
  | (k, v) :: l => ',' :: ' ' :: (quoted k ++ (':' :: ' ' :: dumps F v) ++ dumpMembers F l)
end

/-! ## Reading -/

/-- White space between tokens, `[ \t\n\r]*`. (json/decoder.py, for packet.py:183) -/
def skip (s : Str) : Str := s.dropWhile fun c => c = ' ' || c = '\t' || c = '\n' || c = '\r'

/-- The value of a hexadecimal digit. (json/decoder.py, for packet.py:183) -/
def hexVal (c : Char) : Option Nat :=
  if '0' ≤ c ∧ c ≤ '9' then some (c.toNat - 48)
  else if 'a' ≤ c ∧ c ≤ 'f' then some (c.toNat - 87)
  else if 'A' ≤ c ∧ c ≤ 'F' then some (c.toNat - 55)
  else none

/-- `_decode_uXXXX`. (json/decoder.py, for packet.py:183) -/
def readHex (a b c d : Char) : Option Nat :=
  match hexVal a, hexVal b, hexVal c, hexVal d with
  | some a, some b, some c, some d => some (((a * 16 + b) * 16 + c) * 16 + d)
  | _, _, _, _ => none

/-- `BACKSLASH`. (json/decoder.py, for packet.py:183) -/
def backslash (c : Char) : Option Char :=
  if c = '"' then some '"'
  else if c = '\\' then some '\\'
  else if c = '/' then some '/'
  else if c = 'b' then some (Char.ofNat 8)
  else if c = 'f' then some (Char.ofNat 12)
  else if c = 'n' then some '\n'
  else if c = 'r' then some '\r'
  else if c = 't' then some '\t'
  else none

/-- The second half of a surrogate pair begun by `n`. (A lone surrogate, which Python would keep, is not a `Char`: given up.)
(json/decoder.py, for packet.py:183) -/
def lowHalf (n : Nat) : Str → Option (Char × Str)
  | '\\' :: 'u' :: a :: b :: c :: d :: r =>
    match readHex a b c d with
    | some m => if 0xDC00 ≤ m ∧ m < 0xE000 then some (Char.ofNat (0x10000 + (n - 0xD800) * 1024 + (m - 0xDC00)), r) else none
    | none => none
  | _ => none

/-- After a `\u`. (json/decoder.py, for packet.py:183) -/
def unicode : Str → Option (Char × Str)
  | a :: b :: c :: d :: r =>
    match readHex a b c d with
    | none => none
    | some n =>
      if 0xD800 ≤ n ∧ n < 0xDC00 then lowHalf n r
      else if 0xDC00 ≤ n ∧ n < 0xE000 then none
      else some (Char.ofNat n, r)
  | _ => none

/-- One character of a JSON string and the rest; the closing quote has been looked for. (json/decoder.py, for packet.py:183) -/
def readChar : Str → Option (Char × Str)
  | [] => none
  | c :: r =>
    if c = '\\' then
      match r with
      | [] => none
      | e :: r => if e = 'u' then unicode r else (backslash e).map (·, r)
    else if c.toNat < 32 then none
    else some (c, r)

/-- `scanstring`, after the opening quote; the number bounds the characters. (json/decoder.py, for packet.py:183) -/
def readChars : Nat → Str → Option (Str × Str)
  | 0, _ => none
  | _ + 1, [] => none
  | n + 1, c :: r =>
    if c = '"' then some ([], r)
    else
      match readChar (c :: r) with
      | none => none
      | some (x, r) => (readChars n r).map fun y => (x :: y.1, y.2)

/-- An ASCII digit. (json/scanner.py, for packet.py:183) -/
def isDig (c : Char) : Bool := '0' ≤ c && c ≤ '9'

/-- `(\.\d+)?`: what it takes, and the rest. (json/scanner.py, for packet.py:183) -/
def fracPart : Str → Str × Str
  | '.' :: r => if r.takeWhile isDig = [] then ([], '.' :: r) else ('.' :: r.takeWhile isDig, r.dropWhile isDig)
  | s => ([], s)

/-- `[-+]?`. (json/scanner.py, for packet.py:183) -/
def signPart : Str → Str × Str
  | '-' :: r => (['-'], r)
  | '+' :: r => (['+'], r)
  | s => ([], s)

/-- `([eE][-+]?\d+)?`. (json/scanner.py, for packet.py:183) -/
def expPart : Str → Str × Str
  | [] => ([], [])
  | e :: r =>
    if e = 'e' ∨ e = 'E' then
      if (signPart r).2.takeWhile isDig = [] then ([], e :: r)
      else (e :: ((signPart r).1 ++ (signPart r).2.takeWhile isDig), (signPart r).2.dropWhile isDig)
    else ([], e :: r)

/-- `(?:0|[1-9]\d*)`. (json/scanner.py, for packet.py:183) -/
def wholePart : Str → Option (Str × Str)
  | '0' :: r => some (['0'], r)
  | c :: r => if isDig c then some (c :: r.takeWhile isDig, r.dropWhile isDig) else none
  | [] => none

/-- `NUMBER_RE` without the sign, and what is made of its groups. (json/scanner.py, for packet.py:183) -/
def readNumber (F : Floats) (neg : Bool) (s : Str) : Option (Json × Str) :=
  match wholePart s with
  | none => none
  | some (w, r) =>
    let f := fracPart r
    let e := expPart f.2
    let sign := if neg then ['-'] else []
    if f.1 = [] ∧ e.1 = [] then
      some (.int (if neg then -(Nat.ofDigitChars 10 w 0 : Int) else Nat.ofDigitChars 10 w 0), r)
    else some (.float (F.read (sign ++ w ++ f.1 ++ e.1)), e.2)

/-- The constants. (json/scanner.py, for packet.py:183) -/
def readConst (s : Str) : Option (Json × Str) :=
  let try' (w : Str) (v : Json) (k : Option (Json × Str)) := if w.isPrefixOf s then some (v, s.drop w.length) else k
  try' "null".toList .null <| try' "true".toList (.bool true) <| try' "false".toList (.bool false) <|
    try' "NaN".toList (.float .nan) <| try' "Infinity".toList (.float (.inf false)) <|
    try' "-Infinity".toList (.float (.inf true)) none

mutual
/-- `scan_once`; the number bounds the values. (json/scanner.py, for packet.py:183) -/
def readValue (F : Floats) : Nat → Str → Option (Json × Str)
  | 0, _ => none
  | _ + 1, [] => none
  | n + 1, c :: r =>
    if c = '"' then (readChars (r.length + 1) r).map fun x => (.str x.1, x.2)
    else if c = '{' then
      match skip r with
      | [] => none
      | d :: s => if d = '}' then some (.obj [], s) else (readMembers F n (d :: s)).map fun x => (.obj x.1, x.2)
    else if c = '[' then
      match skip r with
      | [] => none
      | d :: s => if d = ']' then some (.arr [], s) else (readItems F n (d :: s)).map fun x => (.arr x.1, x.2)
    else
      match readConst (c :: r) with
      | some x => some x
      | none => if c = '-' then readNumber F true r else readNumber F false (c :: r)

/-- `JSONArray`, after the bracket and white space. (json/decoder.py, for packet.py:183) -/
def readItems (F : Floats) : Nat → Str → Option (List Json × Str)
  | 0, _ => none
  | n + 1, s =>
    match readValue F n s with
    | none => none
    | some (v, r) =>
      match skip r with
      | [] => none
      | d :: r =>
        if d = ']' then some ([v], r)
        else if d = ',' then (readItems F n (skip r)).map fun x => (v :: x.1, x.2)
        else none

/-- `JSONObject`, after the brace and white space. (json/decoder.py, for packet.py:183) -/
def readMembers (F : Floats) : Nat → Str → Option (List (Str × Json) × Str)
  | 0, _ => none
  | _ + 1, [] => none
  | n + 1, q :: s =>
    if q ≠ '"' then none
    else
      match readChars (s.length + 1) s with
      | none => none
      | some (k, r) =>
        match skip r with
        | [] => none
        | colon :: r =>
          if colon ≠ ':' then none
          else
            match readValue F n (skip r) with
            | none => none
            | some (v, r) =>
              match skip r with
              | [] => none
              | d :: r =>
                if d = '}' then some ([(k, v)], r)
                else if d = ',' then (readMembers F n (skip r)).map fun x => ((k, v) :: x.1, x.2)
                else none
end

/-- `json.loads`; `none` is a `JSONDecodeError`. (packet.py:183, 296) -/
def loads (F : Floats) (s : Str) : Option Json :=
  match readValue F (s.length + 1) (skip s) with
  | none => none
  | some (v, r) => if skip r = [] then some v else none

/-! ## The packets -/

/-- A value of the dict passed to `_send_packet`: JSON, or text and bytes (which of the two depends on the compiler and on what went wrong). Bytes deeper
inside would be a `TypeError` of `json.dumps`; the lists and dicts inside packets are built of texts and numbers (packet.py:199-212, result.py:69-71, 104-110). -/
inductive Val where
  | json (v : Json)
  | text (t : Shown.Value)

/-- The loop of `_send_packet`, packet.py:235-240. -/
def Val.text' : Val → Json
  | .json v => v
  | .text t => .str (Shown.sent t)

/-- What is known of a graded case, packet.py:201-211: `result.output` and the others as they are. -/
structure Case where
  position : Int
  flag : Nat
  /-- the `int` 0 where nothing ran (result.py:35) -/
  time : Int ⊕ Num
  /-- an `int` or a `float` (result.py:107) -/
  points : Int ⊕ Num
  /-- as configured -/
  total : Int ⊕ Num
  memory : Int
  output : Str
  extended : Str
  feedback : Str
deriving DecidableEq

/-- A Python number. (packet.py:204-205) -/
def number : Int ⊕ Num → Json
  | .inl i => .int i
  | .inr x => .float x

/-- The packets of the judge. Ids are what the site sent (packet.py:263), versions and problems what C74 and C67 say. -/
inductive Packet where
  | handshake (problems executors : Json) (id key : Str)
  | supported (problems : Json)
  | cases (id : Json) (l : List Case)
  | compileError (id : Json) (log : Shown.Value)
  | compileMessage (id : Json) (log : Shown.Value)
  | internalError (id : Json) (message : Shown.Value)
  | begin (id : Json) (pretested : Bool)
  | finish (id : Json)
  | batchBegin (id : Json)
  | batchEnd (id : Json)
  | current (id : Json)
  | aborted (id : Json)
  | pong (time : Json) (now : Num) (load : Option Num) (cpus : Int)
  | acknowledged (id : Json)

/-- One entry of `cases`. (packet.py:200-213) -/
def caseJson (c : Case) : Json := .obj
  [("position".toList, .int c.position), ("status".toList, .int c.flag), ("time".toList, number c.time), ("points".toList, number c.points),
   ("total-points".toList, number c.total), ("memory".toList, .int c.memory), ("output".toList, .str c.output),
   ("extended-feedback".toList, .str c.extended), ("feedback".toList, .str c.feedback)]

/-- `load_fair`, sysinfo.py:9-27: the load for each processor, or -1. -/
def loadJson : Option Num → Json
  | some x => .float x
  | none => .int (-1)

/-- A packet with an id and nothing else. (packet.py:345-388) -/
def plain (name : Str) (id : Json) : List (Str × Val) := [("name".toList, .json (.str name)), ("submission-id".toList, .json id)]

/-- The dicts. (packet.py:191-216, 287-305, 321-388) -/
def Packet.dict : Packet → List (Str × Val)
  | .handshake ps es id key =>
    [("name".toList, .json (.str "handshake".toList)), ("problems".toList, .json ps), ("executors".toList, .json es), ("id".toList, .json (.str id)),
     ("key".toList, .json (.str key))]
  | .supported ps => [("name".toList, .json (.str "supported-problems".toList)), ("problems".toList, .json ps)]
  | .cases id l => plain "test-case-status".toList id ++ [("cases".toList, .json (.arr (l.map caseJson)))]
  | .compileError id log => plain "compile-error".toList id ++ [("log".toList, .text log)]
  | .compileMessage id log => plain "compile-message".toList id ++ [("log".toList, .text log)]
  | .internalError id m => plain "internal-error".toList id ++ [("message".toList, .text m)]
  | .begin id p => plain "grading-begin".toList id ++ [("pretested".toList, .json (.bool p))]
  | .finish id => plain "grading-end".toList id
  | .batchBegin id => plain "batch-begin".toList id
  | .batchEnd id => plain "batch-end".toList id
  | .current id => plain "current-submission-id".toList id
  | .aborted id => plain "submission-terminated".toList id
  | .pong w now load n =>
    [("name".toList, .json (.str "ping-response".toList)), ("when".toList, .json w), ("time".toList, .json (.float now)),
     ("load".toList, .json (loadJson load)), ("cpu-count".toList, .json (.int n))]
  | .acknowledged id => plain "submission-acknowledged".toList id

/-- The text of a packet: `json.dumps(packet)` after the loop. (packet.py:234-242) -/
def Packet.json (p : Packet) : Json := .obj (p.dict.map fun x => (x.1, x.2.text'))

/-- `utf8bytes(json.dumps(packet))`, packet.py:242. -/
def encode (F : Floats) (v : Json) : Bytes := (dumps F v).flatMap String.utf8EncodeChar

/-- `json.loads(utf8text(...))`, packet.py:183, 296; `none` is an exception. -/
def decodeJson (F : Floats) (b : Bytes) : Option Json :=
  match Message.strict b with
  | some s => loads F s
  | none => none

/-- JSON as the judge writes and reads it, with any compression. (packet.py:182-183, 242) -/
def codec (F : Floats) (compress : Bytes → Bytes) (decompress : Bytes → Option Bytes) : Net.Codec Json :=
  ⟨encode F, decodeJson F, compress, decompress⟩

end Verif.Packets
