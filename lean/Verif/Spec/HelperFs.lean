import Verif.Spec.FsPatterns

/-! # Specification: names without a meaning in patterns -/

namespace Verif.HelperFs.Spec

/-- Characters that mean something in a regular expression or in a format string. -/
def meaningful : List Char := ['\\', '.', '^', '$', '*', '+', '?', '{', '}', '[', '(', ')', '|']

/-- A name without such characters. -/
def Ordinary (dir : List Char) : Prop := ∀ c ∈ dir, c ∉ meaningful

instance (dir : List Char) : Decidable (Ordinary dir) := by unfold Ordinary; infer_instance

/-- A place below a directory. -/
def Below (dir path : List Char) : Prop := ∃ name, path = dir ++ '/' :: name

/-- Random parts of `tempfile` have eight characters. -/
def Random (rand : List Char) : Prop := rand.length = 8 ∧ '/' ∉ rand

end Verif.HelperFs.Spec
