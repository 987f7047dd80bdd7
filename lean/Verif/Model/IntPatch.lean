import Verif.Basic

/-!
# The guard against long integers: dmoj/utils/builtin_int_patch.py

Characters of a text are `Char`s. The conversions of the real `int` are a parameter.
-/

namespace Verif.IntPatch

/-- A first argument of `int`: text, or anything else that is told apart only by the real `int`.
(builtin_int_patch.py:26-33) -/
inductive Val (α : Type) where
  | str (s : List Char)
  | other (a : α)
deriving DecidableEq

/-- builtin_int_patch.py:26-33. -/
inductive Exn where
  | valueError
  | typeError
deriving DecidableEq

/-- The classes: `int_`, `patched_int`, and classes derived from whichever `int` the name meant.
(builtin_int_patch.py:9-26) -/
inductive Cls where
  | int
  | patched
  /-- derived from `int_` -/
  | ofInt (name : Nat)
  /-- derived from `patched_int` -/
  | ofPatched (name : Nat)
deriving DecidableEq

/-- `int_.__new__(cls, *args)`: the class of the object made, its value. (builtin_int_patch.py:26-33) -/
abbrev New (α β : Type) := Cls → Option (Val α) → β → Except Exn (Cls × Int)

/-- `INT_MAX_NUMBER_DIGITS`, builtin_int_patch.py:3. -/
def maxDigits : Nat := 10000

/-- `patched_int.__new__`, builtin_int_patch.py:27-33: no first argument is a `TypeError` of the call. -/
def patchedNew {α β : Type} (new : New α β) (cls : Cls) (s : Option (Val α)) (rest : β) : Except Exn (Cls × Int) :=
  match s with
  | none => .error .typeError
  | some (.str t) => if t.length > maxDigits then .error .valueError else new (if cls = .patched then .int else cls) (some (.str t)) rest
  | some v => new (if cls = .patched then .int else cls) (some v) rest

/-- The name `int` in `builtins`. (builtin_int_patch.py:35-40) -/
inductive Builtin where
  | int
  | patched
deriving DecidableEq

/-- `apply` and `unapply`, builtin_int_patch.py:35-40. -/
def applyPatch (_ : Builtin) : Builtin := .patched
/-- builtin_int_patch.py:35-40. -/
def unapplyPatch (_ : Builtin) : Builtin := .int

/-- `int(...)` as programs write it. (builtin_int_patch.py:35-40) -/
def callInt {α β : Type} (new : New α β) (b : Builtin) (s : Option (Val α)) (rest : β) : Except Exn (Cls × Int) :=
  match b with
  | .int => new .int s rest
  | .patched => patchedNew new .patched s rest

/-- Strict inheritance: `isinstance` with the usual metaclass. (builtin_int_patch.py:9-26) -/
def derives : Cls → Cls → Bool
  | c, d => c = d || (match c, d with
    | .patched, .int => true
    | .ofInt _, .int => true
    | .ofPatched _, .patched => true
    | .ofPatched _, .int => true
    | _, _ => false)

/-- `isinstance(x, cls)` where `x` is of class `c`: `patched_int_meta`, builtin_int_patch.py:12-17, is the metaclass of
`patched_int` and of all that derive from it. An exact type match is decided before the metaclass is asked. -/
def isInstance (c cls : Cls) : Bool :=
  match cls with
  | .patched => c = cls || derives c .int
  | .ofPatched _ => c = cls || derives c .int
  | _ => derives c cls

/-- `a == b` for the two classes (builtin_int_patch.py:19-20; the reflected comparison when `int_` is on the left). -/
def eqCls (a b : Cls) : Bool :=
  match a, b with
  | .patched, .int | .int, .patched => true
  | .ofPatched _, .int | .int, .ofPatched _ => true
  | a, b => a = b

end Verif.IntPatch
