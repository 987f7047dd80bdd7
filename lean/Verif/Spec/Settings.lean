/-!
# What a setting is meant to be
-/

namespace Verif.Spec.Settings

/-- The value a key is meant to have: that of the last document with the key, or else the default. -/
def meant {V : Type} (defaults : List (String × V)) (docs : List (List (String × V))) (k : String) : Option V :=
  ((docs.reverse.filterMap (List.lookup k)).head?).or (defaults.lookup k)

/-- A limit: what the problem itself asks for if that is a number other than zero, else what is configured, if that is one. -/
def wanted (own configured : Option Int) : Option Int :=
  (own.filter (· ≠ 0)).or (configured.filter (· ≠ 0))

end Verif.Spec.Settings
