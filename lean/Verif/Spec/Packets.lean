import Verif.Model.Packets
import Verif.Spec.Request
import Verif.Spec.Shown

/-!
# JSON as RFC 8259 has it

From the model: the shapes of values and packets, and the three external functions on floats.
-/

namespace Verif.Packets.Spec
open Verif Verif.Request Verif.Request.Spec

/-- White space. -/
def Ws (s : Str) : Prop := ∀ c ∈ s, c = ' ' ∨ c = '\t' ∨ c = '\n' ∨ c = '\r'

/-- A hexadecimal digit and its value. -/
def Hex (c : Char) (n : Nat) : Prop := (n, c) ∈ [(0, '0'), (1, '1'), (2, '2'), (3, '3'), (4, '4'), (5, '5'), (6, '6'), (7, '7'), (8, '8'), (9, '9'),
  (10, 'a'), (11, 'b'), (12, 'c'), (13, 'd'), (14, 'e'), (15, 'f'), (10, 'A'), (11, 'B'), (12, 'C'), (13, 'D'), (14, 'E'), (15, 'F')]

/-- A code unit written with four digits. -/
inductive Unit16 : Str → Nat → Prop where
  | mk (a b c d : Char) (i j k l : Nat) (ha : Hex a i) (hb : Hex b j) (hc : Hex c k) (hd : Hex d l) :
    Unit16 ['\\', 'u', a, b, c, d] (4096 * i + 256 * j + 16 * k + l)

/-- The short escapes. -/
def short : List (Char × Nat) := [('"', 34), ('\\', 92), ('/', 47), ('b', 8), ('f', 12), ('n', 10), ('r', 13), ('t', 9)]

/-- How one character may be written in a string. -/
inductive CharText : Str → Char → Prop where
  | plain (c : Char) (h1 : c ≠ '"') (h2 : c ≠ '\\') (h3 : 32 ≤ c.toNat) : CharText [c] c
  | escaped (e c : Char) (h : (e, c.toNat) ∈ short) : CharText ['\\', e] c
  | unit (t : Str) (c : Char) (h : Unit16 t c.toNat) : CharText t c
  | pair (s t : Str) (c : Char) (m n : Nat) (hs : Unit16 s m) (ht : Unit16 t n) (h1 : 0xD800 ≤ m ∧ m ≤ 0xDBFF) (h2 : 0xDC00 ≤ n ∧ n ≤ 0xDFFF)
      (hc : c.toNat = 0x10000 + (m - 0xD800) * 1024 + (n - 0xDC00)) : CharText (s ++ t) c

/-- What stands between the quotes. -/
inductive Body : Str → Str → Prop where
  | nil : Body [] []
  | cons (t : Str) (c : Char) (s cs : Str) (h : CharText t c) (hs : Body s cs) : Body (t ++ s) (c :: cs)

/-- Decimal digits, at least one. -/
def Digits (s : Str) : Prop := s ≠ [] ∧ ∀ c ∈ s, c.isDigit = true

/-- The number written with these digits. -/
def value : Str → Nat
  | s => s.foldl (fun n c => 10 * n + (c.toNat - 48)) 0

/-- The whole part of a number: no leading zeros. -/
def Whole (s : Str) : Prop := s = ['0'] ∨ Digits s ∧ s.head? ≠ some '0'

/-- A fraction, or none. -/
def Frac (s : Str) : Prop := s = [] ∨ ∃ d, s = '.' :: d ∧ Digits d

/-- An exponent, or none. -/
def Expo (s : Str) : Prop := s = [] ∨ ∃ e sign d, s = e :: (sign ++ d) ∧ (e = 'e' ∨ e = 'E') ∧ (sign = [] ∨ sign = ['-'] ∨ sign = ['+']) ∧ Digits d

/-- A number with a fraction or an exponent. -/
def FloatText (s : Str) : Prop :=
  ∃ sign w f e, s = sign ++ w ++ f ++ e ∧ (sign = [] ∨ sign = ['-']) ∧ Whole w ∧ Frac f ∧ Expo e ∧ ¬ (f = [] ∧ e = [])

mutual
/-- The text stands for the value. With `ext`, `NaN` and the infinities are allowed besides what the RFC has. -/
inductive Value (F : Floats) (ext : Bool) : Str → Json → Prop where
  | null : Value F ext ['n', 'u', 'l', 'l'] .null
  | yes : Value F ext ['t', 'r', 'u', 'e'] (.bool true)
  | no : Value F ext ['f', 'a', 'l', 's', 'e'] (.bool false)
  | nan (h : ext = true) : Value F ext ['N', 'a', 'N'] (.float .nan)
  | inf (h : ext = true) : Value F ext ['I', 'n', 'f', 'i', 'n', 'i', 't', 'y'] (.float (.inf false))
  | ninf (h : ext = true) : Value F ext ['-', 'I', 'n', 'f', 'i', 'n', 'i', 't', 'y'] (.float (.inf true))
  | nat (w : Str) (h : Whole w) : Value F ext w (.int (value w))
  | neg (w : Str) (h : Whole w) : Value F ext ('-' :: w) (.int (-(value w)))
  | float (s : Str) (h : FloatText s) : Value F ext s (.float (F.read s))
  | str (s cs : Str) (h : Body s cs) : Value F ext ('"' :: (s ++ ['"'])) (.str cs)
  | arr0 (w : Str) (h : Ws w) : Value F ext ('[' :: (w ++ [']'])) (.arr [])
  | arr (s : Str) (l : List Json) (h : Items F ext s l) : Value F ext ('[' :: (s ++ [']'])) (.arr l)
  | obj0 (w : Str) (h : Ws w) : Value F ext ('{' :: (w ++ ['}'])) (.obj [])
  | obj (s : Str) (l : List (Str × Json)) (h : Members F ext s l) : Value F ext ('{' :: (s ++ ['}'])) (.obj l)

/-- Values with commas between. -/
inductive Items (F : Floats) (ext : Bool) : Str → List Json → Prop where
  | one (a s b : Str) (v : Json) (ha : Ws a) (hs : Value F ext s v) (hb : Ws b) : Items F ext (a ++ (s ++ b)) [v]
  | cons (a s b t : Str) (v : Json) (l : List Json) (ha : Ws a) (hs : Value F ext s v) (hb : Ws b) (ht : Items F ext t l) :
    Items F ext (a ++ (s ++ (b ++ ',' :: t))) (v :: l)

/-- Names and values, with commas between. -/
inductive Members (F : Floats) (ext : Bool) : Str → List (Str × Json) → Prop where
  | one (a k b c s d key : Str) (v : Json) (ha : Ws a) (hk : Body k key) (hb : Ws b) (hc : Ws c) (hs : Value F ext s v) (hd : Ws d) :
    Members F ext (a ++ '"' :: (k ++ '"' :: (b ++ ':' :: (c ++ (s ++ d))))) [(key, v)]
  | cons (a k b c s d t key : Str) (v : Json) (l : List (Str × Json)) (ha : Ws a) (hk : Body k key) (hb : Ws b) (hc : Ws c) (hs : Value F ext s v)
      (hd : Ws d) (ht : Members F ext t l) : Members F ext (a ++ '"' :: (k ++ '"' :: (b ++ ':' :: (c ++ (s ++ (d ++ ',' :: t)))))) ((key, v) :: l)
end

/-- A JSON text. -/
def Doc (F : Floats) (ext : Bool) (t : Str) (v : Json) : Prop := ∃ a s b, t = a ++ (s ++ b) ∧ Ws a ∧ Value F ext s v ∧ Ws b

/-- What is assumed of Python's floats: each has a text with a fraction or an exponent from which it is read again, and no such text is read as NaN. -/
structure Good (F : Floats) : Prop where
  form : ∀ q, F.double q → FloatText (F.repr q)
  read : ∀ q, F.double q → F.read (F.repr q) = .fin q
  number : ∀ s, FloatText s → F.read s ≠ .nan

/-- All finite floats in it are floats. -/
inductive Real (F : Floats) : Json → Prop where
  | null : Real F .null
  | bool (b : Bool) : Real F (.bool b)
  | int (i : Int) : Real F (.int i)
  | float (q : Rat) (h : F.double q) : Real F (.float (.fin q))
  | inf (b : Bool) : Real F (.float (.inf b))
  | nan : Real F (.float .nan)
  | str (s : Str) : Real F (.str s)
  | arr (l : List Json) (h : ∀ v ∈ l, Real F v) : Real F (.arr l)
  | obj (l : List (Str × Json)) (h : ∀ x ∈ l, Real F x.2) : Real F (.obj l)

/-- Every float in it is allowed. -/
inductive Only (ok : Num → Prop) : Json → Prop where
  | null : Only ok .null
  | bool (b : Bool) : Only ok (.bool b)
  | int (i : Int) : Only ok (.int i)
  | float (x : Num) (h : ok x) : Only ok (.float x)
  | str (s : Str) : Only ok (.str s)
  | arr (l : List Json) (h : ∀ v ∈ l, Only ok v) : Only ok (.arr l)
  | obj (l : List (Str × Json)) (h : ∀ x ∈ l, Only ok x.2) : Only ok (.obj l)

/-- Printable ASCII. -/
def Printable (c : Char) : Prop := ' ' ≤ c ∧ c ≤ '~'

/-- The value is a number equal to this. -/
def IsNumber (v : Json) : Int ⊕ Num → Prop
  | .inl i => v = .int i
  | .inr x => v = .float x

/-- What the site finds under `cases` for one case. -/
structure CaseSays (c : Case) (v : Json) : Prop where
  position : Has v "position" (.int c.position)
  status : Has v "status" (.int c.flag)
  time : ∃ x, Has v "time" x ∧ IsNumber x c.time
  points : ∃ x, Has v "points" x ∧ IsNumber x c.points
  total : ∃ x, Has v "total-points" x ∧ IsNumber x c.total
  memory : Has v "memory" (.int c.memory)
  output : Has v "output" (.str c.output)
  extended : Has v "extended-feedback" (.str c.extended)
  feedback : Has v "feedback" (.str c.feedback)

/-- A text says what the bytes or the text were: text as it is, bytes that are UTF-8 as this text. -/
def Tells (v : Shown.Value) (t : Str) : Prop := v = .text t ∨ ∃ b, v = .bytes b ∧ ∀ u, b = Shown.encode u → t = u

/-- What the site finds in a packet. -/
def Says : Packet → Json → Prop
  | .handshake ps es id key, v =>
    Named v "handshake" ∧ Has v "problems" ps ∧ Has v "executors" es ∧ Has v "id" (.str id) ∧ Has v "key" (.str key)
  | .supported ps, v => Named v "supported-problems" ∧ Has v "problems" ps
  | .cases id l, v => Named v "test-case-status" ∧ Has v "submission-id" id ∧ ∃ js, Has v "cases" (.arr js) ∧ List.Forall₂ CaseSays l js
  | .compileError id log, v => Named v "compile-error" ∧ Has v "submission-id" id ∧ ∃ t, Has v "log" (.str t) ∧ Tells log t
  | .compileMessage id log, v => Named v "compile-message" ∧ Has v "submission-id" id ∧ ∃ t, Has v "log" (.str t) ∧ Tells log t
  | .internalError id m, v => Named v "internal-error" ∧ Has v "submission-id" id ∧ ∃ t, Has v "message" (.str t) ∧ Tells m t
  | .begin id p, v => Named v "grading-begin" ∧ Has v "submission-id" id ∧ Has v "pretested" (.bool p)
  | .finish id, v => Named v "grading-end" ∧ Has v "submission-id" id
  | .batchBegin id, v => Named v "batch-begin" ∧ Has v "submission-id" id
  | .batchEnd id, v => Named v "batch-end" ∧ Has v "submission-id" id
  | .current id, v => Named v "current-submission-id" ∧ Has v "submission-id" id
  | .aborted id, v => Named v "submission-terminated" ∧ Has v "submission-id" id
  | .pong w now load n, v => Named v "ping-response" ∧ Has v "when" w ∧ Has v "time" (.float now) ∧
    (∃ x, Has v "load" x ∧ match load with | some y => x = .float y | none => x = .int (-1)) ∧ Has v "cpu-count" (.int n)
  | .acknowledged id, v => Named v "submission-acknowledged" ∧ Has v "submission-id" id

/-- The same packet but for how its message was kept. -/
def Same : Packet → Packet → Prop
  | .compileError i a, .compileError j b => i = j ∧ Shown.sent a = Shown.sent b
  | .compileMessage i a, .compileMessage j b => i = j ∧ Shown.sent a = Shown.sent b
  | .internalError i a, .internalError j b => i = j ∧ Shown.sent a = Shown.sent b
  | p, q => p = q

end Verif.Packets.Spec
