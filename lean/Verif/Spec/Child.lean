import Verif.Model.Child

/-!
# Listing `/proc/self/fd`

The kernel's directory position is a descriptor number: a read returns the open descriptors from the
position on, in ascending order, as many as it likes (at least one if there is any), as decimal names,
possibly with other entries (`.` and `..`) among them.
-/

namespace Verif.Child.Spec
open Verif.Child

/-- Decimal numeral of `n`. -/
def numeral (n : Nat) : List Char := Nat.toDigits 10 n

/-- A directory entry which is not a descriptor: not a decimal numeral. -/
def Other (name : List Char) : Prop := ∃ c ∈ name, ¬ ('0' ≤ c ∧ c ≤ '9')

/-- One read: `names` are exactly the descriptors open in `t` between positions `pos` and `pos'`, and
other entries. It makes progress, and the end is reported only when no descriptor is left. -/
structure Read (t : Fds) (pos pos' : Nat) (names : List (List Char)) : Prop where
  only : ∀ name ∈ names, Other name ∨ ∃ fd, name = numeral fd ∧ pos ≤ fd ∧ fd < pos' ∧ t fd ≠ none
  all : ∀ fd, pos ≤ fd → fd < pos' → t fd ≠ none → numeral fd ∈ names
  mono : pos ≤ pos'

/-- The loop of `cptbox_closefrom_getdents`, helper.cpp:208-222, against such a kernel: from table `t`
at position `pos` it ends with table `t'`. -/
inductive Loop (low dir : Nat) : Fds → Nat → Fds → Prop where
  | done (t pos) : (∀ fd, pos ≤ fd → t fd = none) → Loop low dir t pos t
  | more (t pos pos' names t') : Read t pos pos' names → Loop low dir (closeBatch low dir t names) pos' t' → Loop low dir t pos t'

/-- The whole of `cptbox_closefrom_getdents`: opening the directory takes descriptor `dir`, which is
closed at the end. -/
def CloseFrom (low : Nat) (t t' : Fds) : Prop :=
  ∃ dir f, t dir = none ∧ ∃ t1, Loop low dir (fun n => if n = dir then some f else t n) 0 t1 ∧ t' = close t1 dir

end Verif.Child.Spec
