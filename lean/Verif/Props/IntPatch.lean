import Verif.Model.IntPatch
import Mathlib.Tactic.SplitIfs

/-!
# C55 Long integer parsing guard
-/

namespace Verif.IntPatch

/-- With the guard installed, text of more than 10000 characters is refused with `ValueError`, before the conversion
(whatever that would do). -/
theorem C55_long {α β : Type} (new : New α β) (b : Builtin) (t : List Char) (rest : β) (h : 10000 < t.length) :
    callInt new (applyPatch b) (some (.str t)) rest = .error .valueError := by
  show patchedNew new .patched (some (.str t)) rest = _
  unfold patchedNew
  exact if_pos h

/-- Every other conversion of something gives what it gave before, an `int` proper. What is missing: `int()` with
nothing to convert (`C55_nothing_fails`). -/
theorem C55_same_partial {α β : Type} (new : New α β) (b : Builtin) (v : Val α) (rest : β) (h : ∀ t, v = .str t → t.length ≤ 10000) :
    callInt new (applyPatch b) (some v) rest = callInt new .int (some v) rest := by
  show patchedNew new .patched (some v) rest = new .int (some v) rest
  unfold patchedNew
  cases v with
  | str t =>
    have := h t rfl
    simp only
    rw [if_neg (by unfold maxDigits; omega), if_pos trivial]
  | other a => rfl

/-- `int()` is 0 without the guard and a `TypeError` with it, whatever the real `int` does. -/
theorem C55_nothing_fails {α β : Type} (new : New α β) (b : Builtin) (rest : β) (h0 : new .int none rest = .ok (.int, 0)) :
    callInt new .int none rest = .ok (.int, 0) ∧ callInt new (applyPatch b) none rest = .error .typeError :=
  ⟨h0, rfl⟩

/-- Removing the guard brings everything back. -/
theorem C55_unapply {α β : Type} (new : New α β) (b : Builtin) (v : Option (Val α)) (rest : β) :
    callInt new (unapplyPatch (applyPatch b)) v rest = callInt new .int v rest := rfl

/-- A class derived while the guard is installed refuses long text too, and makes its own objects otherwise. -/
theorem C55_derived {α β : Type} (new : New α β) (n : Nat) (v : Val α) (rest : β) :
    ((∃ t, v = .str t ∧ 10000 < t.length) → patchedNew new (.ofPatched n) (some v) rest = .error .valueError) ∧
    ((¬ ∃ t, v = .str t ∧ 10000 < t.length) → patchedNew new (.ofPatched n) (some v) rest = new (.ofPatched n) (some v) rest) := by
  unfold patchedNew
  cases v with
  | str t =>
    refine ⟨?_, fun h => ?_⟩
    · rintro ⟨_, ⟨⟩, h⟩
      exact if_pos h
    · simp only
      rw [if_neg (show ¬ t.length > maxDigits from fun h' => h ⟨t, rfl, h'⟩)]
      rfl
  | other a =>
    refine ⟨?_, fun _ => rfl⟩
    rintro ⟨_, h, _⟩
    exact nomatch h

/-- The tests programs make still hold: an integer is an instance of the guarded `int` exactly when it is one of the
real one, and the two compare equal. -/
theorem C55_instance (c : Cls) : isInstance c .patched = isInstance c .int ∧ eqCls .patched .int = true ∧ eqCls .int .patched = true := by
  refine ⟨?_, rfl, rfl⟩
  cases c <;> rfl

/-- A class derived from the guarded `int` gives objects that are integers, for the guarded name and for the real one. -/
theorem C55_derived_instance (n : Nat) : isInstance (.ofPatched n) .patched = true ∧ isInstance (.ofPatched n) .int = true ∧
    isInstance (.ofPatched n) (.ofPatched n) = true ∧ isInstance (.ofInt n) .patched = true := by
  simp [isInstance, derives]

/-- But a class derived from the guarded `int` takes every integer for its instance. -/
theorem C55_derived_instance_fails (n : Nat) : isInstance .int (.ofPatched n) = true ∧ isInstance .int (.ofInt n) = false := by
  refine ⟨?_, ?_⟩
  · simp [isInstance, derives]
  · simp [isInstance, derives]

/-- Two classes compare equal exactly if they are the same, or one is the real `int` and the other the guarded one or derived from
it. -/
theorem C55_equal (a b : Cls) : eqCls a b = true ↔ a = b ∨ (b = .int ∧ (a = .patched ∨ ∃ n, a = .ofPatched n)) ∨
    (a = .int ∧ (b = .patched ∨ ∃ n, b = .ofPatched n)) := by
  cases a <;> cases b <;> simp [eqCls]

/-- But a class derived from the guarded `int` compares equal to the real one, and one derived from the real one does not; equality
of classes is no longer transitive. -/
theorem C55_equal_fails (n : Nat) : eqCls (.ofPatched n) .int = true ∧ eqCls (.ofInt n) .int = false ∧
    eqCls .int .patched = true ∧ eqCls (.ofPatched n) .patched = false := by
  simp [eqCls]

example : (∀ t, (Val.str (α := Unit) "12".toList) = .str t → t.length ≤ 10000) ∧ 10000 < (List.replicate 10001 '9').length := by
  refine ⟨fun t h => ?_, by rw [List.length_replicate]; omega⟩
  cases h
  decide

end Verif.IntPatch
