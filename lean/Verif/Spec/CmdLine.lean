import Verif.Basic

/-!
# Reading command lines

Stated without `Model/CmdLine.lean`.
-/

namespace Verif.Spec.CmdLine

abbrev Str := List Char

/-- The file an argument means to a process with this working directory. -/
def At (dir x : Str) : Str := if x.head? = some '/' then x else dir ++ '/' :: x

/-- Compilers take the name of their output after one of these options, or in one of these. -/
def Output (line : List Str) (p : Str) : Prop :=
  (∃ a b o, line = a ++ [o, p] ++ b ∧ o ∈ ["-o".toList, "-d".toList, "--name".toList]) ∨
  ∃ a b o, line = a ++ [o ++ p] ++ b ∧ o ∈ ["-of".toList, "--snapshot=".toList, "-out:".toList, "--out:".toList, "/out:".toList]

end Verif.Spec.CmdLine
