import Verif.Basic

/-!
# What the site is shown of outputs and compilers' messages: dmoj/result.py:69-71, dmoj/judge.py:188-194, 442-453, 497-500,
dmoj/packet.py:197-240, 321-330, dmoj/utils/unicode.py:34-39

`bytes.decode('utf-8', 'replace')` belongs to CPython and is modelled after its decoder (Objects/stringlib/codecs.h, `utf8_decode`; the error handler
puts U+FFFD in place of the bytes reported): every byte that cannot start a character, and every longest part of a character that is not continued, becomes
one U+FFFD. Texts are lists of Unicode scalar values: Python's lone surrogates do not occur, since UTF-8 decoding never produces them.
-/

namespace Verif.Shown

/-- unicode.py:34-39. -/
abbrev Text := List Char

/-- U+FFFD. (unicode.py:34-39) -/
def repl : Char := Char.ofNat 0xFFFD

/-- A continuation byte. (unicode.py:34-39) -/
def cont (b : Byte) : Bool := 0x80 ≤ b.toNat && b.toNat < 0xC0

/-- The second byte of a character of three bytes: not an overlong form, not a surrogate. (unicode.py:34-39) -/
def second3 (a b : Byte) : Bool := cont b && !(a.toNat = 0xE0 && b.toNat < 0xA0) && !(a.toNat = 0xED && 0xA0 ≤ b.toNat)

/-- The second byte of a character of four bytes: not an overlong form, not above U+10FFFF. (unicode.py:34-39) -/
def second4 (a b : Byte) : Bool := cont b && !(a.toNat = 0xF0 && b.toNat < 0x90) && !(a.toNat = 0xF4 && 0x90 ≤ b.toNat)

/-- The character of two, three, four bytes. (unicode.py:34-39) -/
def mk2 (a b : Byte) : Char := Char.ofNat ((a.toNat - 0xC0) * 64 + (b.toNat - 0x80))
/-- unicode.py:34-39. -/
def mk3 (a b c : Byte) : Char := Char.ofNat ((a.toNat - 0xE0) * 4096 + (b.toNat - 0x80) * 64 + (c.toNat - 0x80))
/-- unicode.py:34-39. -/
def mk4 (a b c d : Byte) : Char :=
  Char.ofNat ((a.toNat - 0xF0) * 262144 + (b.toNat - 0x80) * 4096 + (c.toNat - 0x80) * 64 + (d.toNat - 0x80))

/-- The next character of non-empty bytes, and what is left. (unicode.py:34-39) -/
def next (a : Byte) (r : Bytes) : Char × Bytes :=
  if a.toNat < 0x80 then (Char.ofNat a.toNat, r)
  else if a.toNat < 0xC2 then (repl, r)
  else if a.toNat < 0xE0 then
    match r with
    | [] => (repl, [])
    | b :: r1 => if cont b then (mk2 a b, r1) else (repl, r)
  else if a.toNat < 0xF0 then
    match r with
    | [] => (repl, [])
    | b :: r1 =>
      if second3 a b then
        match r1 with
        | [] => (repl, [])
        | c :: r2 => if cont c then (mk3 a b c, r2) else (repl, r1)
      else (repl, r)
  else if a.toNat < 0xF5 then
    match r with
    | [] => (repl, [])
    | b :: r1 =>
      if second4 a b then
        match r1 with
        | [] => (repl, [])
        | c :: r2 =>
          if cont c then
            match r2 with
            | [] => (repl, [])
            | d :: r3 => if cont d then (mk4 a b c d, r3) else (repl, r2)
          else (repl, r1)
      else (repl, r)
  else (repl, r)

theorem next_le (a : Byte) (r : Bytes) : (next a r).2.length ≤ r.length := by
  fun_cases next a r <;> simp_all <;> omega

/-- `bytes.decode('utf-8', 'replace')`. (unicode.py:34-39) -/
def decode : Bytes → Text
  | [] => []
  | a :: r => (next a r).1 :: decode (next a r).2
  termination_by s => s.length
  decreasing_by have := next_le a r; simp; omega

/-- Python's `s[:n]`: `None` is the whole, a negative number counts from the end. (result.py:69-71) -/
def cut {α : Type} (n : Option Int) (s : List α) : List α :=
  match n with
  | none => s
  | some (.ofNat k) => s.take k
  | some (.negSucc k) => s.take (s.length - (k + 1))

/-- What Python keeps as bytes or as text. (unicode.py:34-39) -/
inductive Value where
  | bytes (b : Bytes)
  | text (t : Text)
deriving DecidableEq, Repr

/-- `Result.output`, result.py:69-71, with `case.output_prefix_length`; `utf8text` leaves text as it is, unicode.py:34-39. -/
def output (n : Option Int) : Value → Text
  | .bytes b => decode (cut n b)
  | .text t => cut n t

/-- The worker puts the trimmed output in the result it sends (judge.py:497-500), the controller trims it again when it makes the packet
(packet.py:211). The field `output` of the status. -/
def status (n : Option Int) (proc : Value) : Text := output n (.text (output n proc))

/-- What is raised or what the executor has: `_grade_cases`, judge.py:442-453. -/
inductive Built where
  /-- a `CompileError` with the given first argument -/
  | error (message : Value)
  /-- the grader's binary with its `warning` -/
  | binary (warning : Option Value)
deriving DecidableEq, Repr

/-- Packets about compiling. (packet.py:321-330) -/
inductive Packet where
  | compileError (log : Text)
  | compileMessage (log : Text)
deriving DecidableEq, Repr

/-- unicode.py:34-39. -/
def Value.isEmpty : Value → Bool
  | .bytes b => b.isEmpty
  | .text t => t.isEmpty

/-- `_send_packet`, packet.py:234-240: bytes are decoded, text is sent as it is. -/
def sent : Value → Text
  | .bytes b => decode b
  | .text t => t

/-- `b'compiler exited abnormally'` (compiled_executor.py:220-235) -/
def abnormally : Bytes := "compiler exited abnormally".toUTF8.data.toList

/-- judge.py:442-453 with the handlers 188-194 and packet.py:321-330: what is sent before grading. An empty message is `or`ed away. -/
def compiling : Built → List Packet
  | .error m => [.compileError (sent (if m.isEmpty then .bytes abnormally else m))]
  | .binary none => []
  | .binary (some w) => [.compileMessage (sent w)]

end Verif.Shown
