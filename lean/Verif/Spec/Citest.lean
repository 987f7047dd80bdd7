import Verif.Model.Citest

/-!
# What a green run should mean
-/

namespace Verif.Spec.Citest
open Verif.Autoconf Verif.Citest

/-- The executor was found, or was given, and passed its test with this configuration. -/
def Passed (w : World) (overrides : List (String × Config)) (e : Exec) (c : Config) : Prop :=
  (∃ o, overrides.lookup e.name = some o ∧ o ≠ [] ∧ manual w e o = .success c) ∨
    overrides.lookup e.name = none ∧ (autoconfig w true e).1 = .success c

/-- Nothing is said to be configured for it. -/
def Dropped (overrides : List (String × Config)) (e : Exec) : Prop :=
  overrides.lookup e.name = some []

/-- A Java executor that is to be found. -/
def Java (overrides : List (String × Config)) (e : Exec) : Prop :=
  overrides.lookup e.name = none ∧ ∃ b v c, e.how = .jvm b v c

/-- An executor counts against the run: it has no class, or it could not be found or did not pass, unless it may fail, was left out, or is a
Java executor that has to be found. -/
def Counts (w : World) (ov : List (String × Config)) (allow : List String) (x : Option Exec) : Prop :=
  ∀ e, x = some e → e.name ∉ allow ∧ ¬ Dropped ov e ∧ ¬ Java ov e ∧ ∀ c, ¬ Passed w ov e c

end Verif.Spec.Citest
