import Verif.Spec.HelperFs

/-! # Specification: places, with dots that stand for any character -/

namespace Verif.ScriptFs.Spec
open Verif.HelperFs.Spec

abbrev Str := List Char

/-- The path begins like the text, a dot in the text standing for any character but a newline. -/
def Shape : Str → Str → Prop
  | [], _ => True
  | _ :: _, [] => False
  | c :: t, d :: p => (c = d ∨ (c = '.' ∧ d ≠ '\n')) ∧ Shape t p

/-- Names without characters that mean something in a pattern, dots apart. -/
def Dotted (text : Str) : Prop := ∀ c ∈ text, c = '.' ∨ c ∉ meaningful

instance (text : Str) : Decidable (Dotted text) := by unfold Dotted; infer_instance

/-- A directory above another, the root excepted. -/
def Above (a home : Str) : Prop := a ≠ [] ∧ ∃ rest, home = a ++ '/' :: rest

/-- Two slashes next to each other. -/
def Doubled (path : Str) : Prop := ∃ a b, path = a ++ '/' :: '/' :: b

/-- Just this place (or with a newline after it). -/
def Only (a path : Str) : Prop := path = a ∨ path = a ++ ['\n']

/-- Without braces. -/
def Braceless (text : Str) : Prop := ∀ c ∈ text, c ≠ '{' ∧ c ≠ '}'

instance (text : Str) : Decidable (Braceless text) := by unfold Braceless; infer_instance

end Verif.ScriptFs.Spec
