import Verif.Model.Floats

/-!
# Reading from a submission in an interactive grader: dmoj/graders/interactive.py:14-79

`process.stdout` is the stream of bytes the submission writes until it closes its output. That a call waits for
bytes not yet written is not modelled: the stream is given as a whole.
-/

namespace Verif.Interactor

/-- The stream still to be read and `self._tokens`. (interactive.py:14-17) -/
structure St where
  rest : Bytes
  tokens : Option Bytes := none
deriving DecidableEq

/-- `process.stdout.readline()`: up to and including the next newline. (interactive.py:31-37) -/
def readline : Bytes → Bytes × Bytes
  | [] => ([], [])
  | c :: cs => if c = 10 then ([c], cs) else (c :: (readline cs).1, (readline cs).2)

/-- `readln`, interactive.py:31-37. `none` is `IOError`. -/
def readln (strip : Bool) (s : St) : Option Bytes × St :=
  match readline s.rest with
  | ([], _) => (none, s)
  | (l, r) => (some (if strip then rstrip l else l), { s with rest := r })

/-- `read`, interactive.py:25-29. -/
def readAll (s : St) : Option Bytes × St :=
  match s.rest with
  | [] => (none, s)
  | r => (some r, { s with rest := [] })

/-- `ret, self._tokens = s.split(None, 1)`: `none` if there are not two parts. (interactive.py:42-47) -/
def splitWhite (s : Bytes) : Option (Bytes × Bytes) :=
  let t := s.dropWhile isWhite
  let rest := (t.dropWhile fun c => !isWhite c).dropWhile isWhite
  if rest = [] then none else some (t.takeWhile fun c => !isWhite c, rest)

/-- The part of `s` before the first occurrence of `d` and the part after it. (interactive.py:42-47) -/
def findDelim (d : Bytes) : Bytes → Option (Bytes × Bytes)
  | [] => if d = [] then some ([], []) else none
  | c :: cs =>
    if d.isPrefixOf (c :: cs) then some ([], (c :: cs).drop d.length)
    else (findDelim d cs).map fun (x, y) => (c :: x, y)

/-- `ret, self._tokens = s.split(d, 1)`; an empty separator is a `ValueError` too. (interactive.py:42-47) -/
def splitDelim (d s : Bytes) : Option (Bytes × Bytes) := if d = [] then none else findDelim d s

/-- `split(delim, 1)` (interactive.py:42-47) -/
def split (delim : Option Bytes) (s : Bytes) : Option (Bytes × Bytes) :=
  match delim with
  | none => splitWhite s
  | some d => splitDelim d s

/-- interactive.py:42-47: what `readtoken` does with a line. -/
def takeToken (delim : Option Bytes) (line : Bytes) (s : St) : Option Bytes × St :=
  match split delim line with
  | some (r, t) => (some r, { s with tokens := some t })
  | none => (some line, { s with tokens := none })

/-- `readtoken`, interactive.py:39-47. -/
def readtoken (delim : Option Bytes) (s : St) : Option Bytes × St :=
  match s.tokens with
  | none | some [] =>
    match readln true s with
    | (none, s') => (none, s')
    | (some l, s') => takeToken delim l s'
  | some t => takeToken delim t s

/-- The digits of an integer, as `int()` reads them: `us` tells whether the last byte was an underscore.
(interactive.py:56) -/
def scanDigits (us : Bool) (acc : Nat) : Bytes → Option Nat
  | [] => if us then none else some acc
  | c :: cs =>
    if c = 95 then (if us then none else scanDigits true acc cs)
    else if 48 ≤ c ∧ c ≤ 57 then scanDigits false (acc * 10 + (c.toNat - 48)) cs
    else none

/-- The digits must not begin with an underscore, and there must be one. (interactive.py:56) -/
def parseNat (s : Bytes) : Option Nat :=
  match s with
  | [] => none
  | c :: cs => if 48 ≤ c ∧ c ≤ 57 then scanDigits false (c.toNat - 48) cs else none

/-- `int(token)` for a byte string; `none` is `ValueError`. The limit on the number of digits of newer Python
versions (4300) is not modelled. (interactive.py:56) -/
def parseInt (token : Bytes) : Option Int :=
  match strip token with
  | 45 :: s => (parseNat s).map fun n : Nat => -(n : Int)
  | 43 :: s => (parseNat s).map fun n : Nat => (n : Int)
  | s => (parseNat s).map fun n : Nat => (n : Int)

/-- What `readint` and `readfloat` do. (interactive.py:49-79) -/
inductive Num? (α : Type) where
  | ok (v : α)
  | wrongAnswer
  | ioError
  /-- another exception: the case ends in an internal error -/
  | internal
deriving DecidableEq

/-- `_abbreviate`, interactive.py:19-23: `utf8text` raises unless the bytes are the UTF-8 encoding of some
characters (the text of the message is not modelled). -/
def decodes (token : Bytes) : Bool := ByteArray.validateUTF8 ⟨token.toArray⟩

/-- `'%.0f' % bound` of interactive.py:61 raises `OverflowError` if the integer is too large for a double. -/
def formats : Option Int → Bool
  | none => true
  | some n => decide (n.natAbs < 2 ^ 1024 - 2 ^ 970)

/-- `lo <= v <= hi`; a bound is an integer, or `none` for the default (infinite). (interactive.py:49-79) -/
def inRange (lo hi : Option Int) (v : Int) : Bool :=
  (match lo with | none => true | some l => decide (l ≤ v)) && (match hi with | none => true | some h => decide (v ≤ h))

/-- `readint`, interactive.py:49-63. -/
def readint (lo hi : Option Int) (delim : Option Bytes) (s : St) : Num? Int × St :=
  match readtoken delim s with
  | (none, s') => (.ioError, s')
  | (some token, s') =>
    if token.length > 10000 then (.wrongAnswer, s')
    else
      match parseInt token with
      | none => (if decodes token then .wrongAnswer else .internal, s')
      | some v =>
        if !inRange lo hi v then (if formats lo && formats hi then .wrongAnswer else .internal, s')
        else (.ok v, s')

open Checkers in
/-- `readfloat`, interactive.py:65-79; `parse` is `float(token)` (`none`: `ValueError`). -/
def readfloat (parse : Bytes → Option XRat) (lo hi : XRat) (delim : Option Bytes) (s : St) : Num? XRat × St :=
  match readtoken delim s with
  | (none, s') => (.ioError, s')
  | (some token, s') =>
    if token.length > 10000 then (.wrongAnswer, s')
    else
      match parse token with
      | none => (if decodes token then .wrongAnswer else .internal, s')
      | some v => if !(XRat.le lo v && XRat.le v hi) then (.wrongAnswer, s') else (.ok v, s')

/-- What an interactor can ask for. (interactive.py:25-79) -/
inductive Call where
  | token
  | line (strip : Bool)
  | all
deriving DecidableEq

/-- One call. (interactive.py:25-79) -/
def call (s : St) : Call → Option Bytes × St
  | .token => readtoken none s
  | .line b => readln b s
  | .all => readAll s

/-- Several calls; an interactor may go on after an `IOError` it has caught. (interactive.py:25-79) -/
def calls : St → List Call → List (Option Bytes) × St
  | s, [] => ([], s)
  | s, c :: cs =>
    let r := call s c
    let r' := calls r.2 cs
    (r.1 :: r'.1, r'.2)

end Verif.Interactor
