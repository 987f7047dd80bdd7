import Verif.Model.Checkers

/-!
# The float checker (dmoj/checkers/floats.py)

Floating point arithmetic is a parameter (`FloatOps`), so that the line/token logic is proved for
any arithmetic.  `XRat` is the instance with exact rationals, signed infinities and NaN: it has the
special values of IEEE doubles but no rounding and no overflow (simplification).
-/

namespace Verif.Checkers
open Verif

/-- Exceptions of Python float arithmetic. (checkers/floats.py:7-29) -/
inductive ArithErr where
  | zeroDivision
deriving DecidableEq, Repr

/-- The float operations used by the checker. (checkers/floats.py:7-29) -/
structure FloatOps (F : Type) where
  /-- `float(token)`; `none` is `ValueError` -/
  parse : Bytes → Option F
  /-- `10 ** -int(precision)` -/
  eps : Int → F
  one : F
  sub : F → F → F
  add : F → F → F
  mul : F → F → F
  /-- `/`; division by zero raises `ZeroDivisionError` -/
  div : F → F → Except ArithErr F
  abs : F → F
  /-- `<=` (false when an operand is NaN) -/
  le : F → F → Bool
  /-- `<` (false when an operand is NaN) -/
  lt : F → F → Bool

namespace FloatOps
variable {F : Type} (o : FloatOps F)

/-- Python's `min(a, c)`: the first unless the second is smaller. (checkers/floats.py:7-29) -/
def pmin (a c : F) : F := if o.lt c a then c else a

/-- Python's `max(a, c)`: the first unless the second is larger. (checkers/floats.py:7-29) -/
def pmax (a c : F) : F := if o.lt a c then c else a

/-- dmoj/checkers/floats.py:7-11. -/
def verifyAbsolute (p j eps : F) : Except ArithErr Bool := .ok (o.le (o.abs (o.sub p j)) eps)

/-- dmoj/checkers/floats.py:14-19. -/
def verifyRelative (p j eps : F) : Except ArithErr Bool :=
  let p1 := o.pmin (o.mul j (o.sub o.one eps)) (o.mul j (o.add o.one eps))
  let p2 := o.pmax (o.mul j (o.sub o.one eps)) (o.mul j (o.add o.one eps))
  .ok (o.le p1 p && o.le p p2)

/-- dmoj/checkers/floats.py:22-29 (short-circuit `or`/`and`; `>=` is `<=` flipped). -/
def verifyDefault (p j eps : F) : Except ArithErr Bool :=
  if o.le (o.abs (o.sub p j)) eps then .ok true
  else if o.le eps (o.abs j) then
    match o.div p j with
    | .error e => .error e
    | .ok q => .ok (o.le (o.abs (o.sub o.one q)) eps)
  else .ok false

/-- The mode table of dmoj/checkers/floats.py:42. -/
def verifyFloat : String → Option (F → F → F → Except ArithErr Bool)
  | "absolute" => some o.verifyAbsolute
  | "relative" => some o.verifyRelative
  | "default" => some o.verifyDefault
  | _ => none

/-- The token loop, dmoj/checkers/floats.py:57-70: `.ok b` is a `return b` / end of loop,
`.error` any exception (including `ValueError` of `float(process_token)`). -/
def tokenLoop (verify : F → F → F → Except ArithErr Bool) (eps : F) :
    List Bytes → List Bytes → Except Unit Bool
  | pt :: pts, jt :: jts =>
    match o.parse jt with
    | none => if pt ≠ jt then .ok false else tokenLoop verify eps pts jts
    | some jf =>
      match o.parse pt with
      | none => .error ()
      | some pf =>
        match verify pf jf eps with
        | .error _ => .error ()
        | .ok r => if !r then .ok false else tokenLoop verify eps pts jts
  | _, _ => .ok true

/-- The line loop, dmoj/checkers/floats.py:50-70. -/
def lineLoop (verify : F → F → F → Except ArithErr Bool) (eps : F) :
    List Bytes → List Bytes → Except Unit Bool
  | pl :: pls, jl :: jls =>
    let pt := pySplit pl
    let jt := pySplit jl
    if pt.length ≠ jt.length then .ok false
    else match o.tokenLoop verify eps pt jt with
      | .error e => .error e
      | .ok false => .ok false
      | .ok true => lineLoop verify eps pls jls
  | _, _ => .ok true

/-- `check`, dmoj/checkers/floats.py:32-73; `precision` is already an integer. -/
def check (processOutput judgeOutput : Bytes) (precision : Int) (errorMode : String) :
    Except CheckErr Bool :=
  let pl := dropEmpty (splitBy isLine processOutput)
  let jl := dropEmpty (splitBy isLine judgeOutput)
  if pl.length ≠ jl.length then .ok false
  else match o.verifyFloat errorMode with
    | none => .error (.internalError "invalid `error_mode` value")
    | some verify =>
      match o.lineLoop verify (o.eps precision) pl jl with
      | .error _ => .ok false
      | .ok r => .ok r

end FloatOps

/-- Exact rationals with the special values of IEEE floats. (checkers/floats.py:7-29) -/
inductive XRat where
  | nan
  | inf (neg : Bool)
  | fin (q : Rat)
deriving DecidableEq, Repr

namespace XRat

/-- checkers/floats.py:7-29. -/
def neg : XRat → XRat
  | nan => nan
  | inf s => inf (!s)
  | fin q => fin (-q)

/-- checkers/floats.py:7-29. -/
def add : XRat → XRat → XRat
  | nan, _ => nan
  | _, nan => nan
  | inf s, inf t => if s = t then inf s else nan
  | inf s, fin _ => inf s
  | fin _, inf t => inf t
  | fin p, fin q => fin (p + q)

/-- checkers/floats.py:7-29. -/
def sub (x y : XRat) : XRat := add x (neg y)

/-- checkers/floats.py:7-29. -/
def mul : XRat → XRat → XRat
  | nan, _ => nan
  | _, nan => nan
  | inf s, inf t => inf (s != t)
  | inf s, fin q => if q = 0 then nan else inf (s != decide (q < 0))
  | fin q, inf s => if q = 0 then nan else inf (s != decide (q < 0))
  | fin p, fin q => fin (p * q)

/-- checkers/floats.py:7-29. -/
def div : XRat → XRat → Except ArithErr XRat
  | x, fin q => if q = 0 then .error .zeroDivision else .ok (mul x (fin (1 / q)))
  | nan, _ => .ok nan
  | _, nan => .ok nan
  | inf _, inf _ => .ok nan
  | fin _, inf _ => .ok (fin 0)

/-- checkers/floats.py:7-29. -/
def abs : XRat → XRat
  | nan => nan
  | inf _ => inf false
  | fin q => fin (if q < 0 then -q else q)

/-- checkers/floats.py:7-29. -/
def le : XRat → XRat → Bool
  | nan, _ => false
  | _, nan => false
  | inf s, inf t => s || !t
  | inf s, fin _ => s
  | fin _, inf t => !t
  | fin p, fin q => decide (p ≤ q)

/-- checkers/floats.py:7-29. -/
def lt (x y : XRat) : Bool := le x y && !le y x

/-- The float operations over `XRat` with a given parser and tolerance `10 ** -precision`. (checkers/floats.py:7-29) -/
def ops (parse : Bytes → Option XRat) : FloatOps XRat where
  parse := parse
  eps n := fin ((10 : Rat) ^ (-n))
  one := fin 1
  sub := sub
  add := add
  mul := mul
  div := div
  abs := abs
  le := le
  lt := lt

end XRat
end Verif.Checkers
