/-!
# Bytes and the Python `bytes` primitives used all over the judge

Bytes are `UInt8`, byte strings are `List UInt8`.
-/

namespace Verif

/-- A byte. -/
abbrev Byte := UInt8

/-- Python `bytes`. -/
abbrev Bytes := List UInt8

/-- `\n` or `\r`: dmoj/checkers/_checker.c:13-20 (`isline`); also the class `[\r\n]` used with
`re.split` in dmoj/checkers/{sorted,rstripped,linecount,floats}.py. -/
def isLine (c : Byte) : Bool := c == 10 || c == 13

/-- ASCII whitespace: dmoj/checkers/_checker.c:22-33 (`iswhite`); it is also the set of bytes
matched by `\s` in a Python bytes regex and stripped/split on by `bytes.strip`/`bytes.split`. -/
def isWhite (c : Byte) : Bool :=
  c == 32 || c == 9 || c == 11 || c == 12 || c == 10 || c == 13

/-- `re.split(b'[...]', s)` for a single-character class given by `p`: always non-empty,
one piece more than there are separators. -/
def splitBy (p : Byte → Bool) : Bytes → List Bytes
  | [] => [[]]
  | c :: s =>
    if p c then [] :: splitBy p s
    else match splitBy p s with
      | [] => [[c]]
      | h :: t => (c :: h) :: t

/-- `list(filter(None, xs))` for a list of byte strings: drops the empty ones. -/
def dropEmpty {α : Type} (xs : List (List α)) : List (List α) := xs.filter (fun x => !x.isEmpty)

/-- `bytes.split()` without separator: maximal runs of non-whitespace. -/
def pySplit : Bytes → List Bytes
  | [] => []
  | c :: s =>
    if isWhite c then pySplit s
    else
      match s, pySplit s with
      | [], _ => [[c]]
      | d :: _, r =>
        if isWhite d then [c] :: r
        else match r with
          | [] => [[c]]
          | h :: t => (c :: h) :: t

/-- `bytes.rstrip()`. -/
def rstrip (s : Bytes) : Bytes := (s.reverse.dropWhile isWhite).reverse

/-- `bytes.lstrip()`. -/
def lstrip (s : Bytes) : Bytes := s.dropWhile isWhite

/-- `bytes.strip()`. -/
def strip (s : Bytes) : Bytes := rstrip (lstrip s)

/-- `bytes.lower()` on one byte: ASCII only. -/
def lowerByte (c : Byte) : Byte := if 65 ≤ c ∧ c ≤ 90 then c + 32 else c

/-- ASCII string literal as bytes (used only to write concrete examples). -/
def b (s : String) : Bytes := s.toList.map (fun c => UInt8.ofNat c.toNat)

end Verif
