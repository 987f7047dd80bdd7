import Verif.Model.Helpers
/-!
Specification of C72 and C73: configured graders, checkers and generators, and helper programs made of several files.
-/

namespace Verif.Helpers

open Verif.Config

/-- A dictionary of the configuration has an entry. -/
def Entry (heap : Heap) (r : Nat) (s : Name) (v : V) : Prop :=
  ∃ l, heap[r]? = some (.dict l) ∧ ∃ pre post, l = pre ++ (.str s, v) :: post ∧ ∀ e ∈ pre, e.1 ≠ .str s

/-- What a node says about a name: its own entry or else that of the node around it, where an empty node around it
ends the search. -/
inductive Says (heap : Heap) : Chain → Name → Res → Prop
  | own {r rest s v} : Entry heap r s v → Says heap (r :: rest) s (wrap v (r :: rest))
  | around {r p rest s x} : (∀ v, ¬Entry heap r s v) → nonEmpty heap p = true → Says heap (p :: rest) s x →
      Says heap (r :: p :: rest) s x

/-- It says nothing. -/
def Silent (heap : Heap) (c : Chain) (s : Name) : Prop := ∀ x, ¬Says heap c s x

/-- The dictionary has the key. -/
def Defines (l : List (Key × V)) (s : String) : Prop := ∃ v, (Key.str s.toList, v) ∈ l

/-- The checker a name stands for. -/
inductive Named (w : CheckerWorld) (s : Name) (m : Module) : Prop
  | builtin : '.' ∉ s → w.builtin s = some m → m.check = true → Named w s m
  | file : '.' ∈ s → w.file s = .ok m → m.check = true → Named w s m

/-- A dictionary whose keys are strings. -/
def Keywords (heap : Heap) (x : Res) : Prop :=
  ∃ r c l, x = .node (r :: c) ∧ heap[r]? = some (.dict l) ∧ ∀ e ∈ l, ∃ s, e.1 = .str s

/-- The three limits of a generator: name, where it ends up, default. -/
def limits : List (Name × (Options → Res) × (GenEnv → Int)) :=
  [("time_limit".toList, Options.time, GenEnv.time), ("memory_limit".toList, Options.memory, GenEnv.memory),
   ("compiler_time_limit".toList, Options.compilerTime, GenEnv.compilerTime)]

/-- A language is the best installed one of a list. -/
def Best (installed : Name → Prop) (l : List Name) (x : Name) : Prop :=
  ∃ pre post, l = pre ++ x :: post ∧ installed x ∧ ∀ y ∈ pre, ¬installed y

/-- The name of a source file in the directory of a C or C++ program. -/
def disk (ext name : Name) : Name := if '.' ∈ name then name else name ++ ('.' :: ext)

/-- The last component of a path. -/
def LastPart (f b : Name) : Prop := '/' ∉ b ∧ (f = b ∨ ∃ d, f = d ++ '/' :: b)

/-- The file has that extension: its last component ends in a dot and it, after something that is not just dots. -/
def HasExt (f : Name) (e : String) : Prop := ∃ stem, LastPart f (stem ++ '.' :: e.toList) ∧ ∃ c ∈ stem, c ≠ '.'

/-- What is put before a submission: the include of the header, and unless `main` is allowed its renaming. -/
def Before (header uuid : Name) (allowMain : Bool) (text : Name) : Prop :=
  (allowMain = true → text = "#include \"".toList ++ header ++ "\"\n".toList) ∧
  (allowMain = false → text = "#include \"".toList ++ header ++ "\"\n#define main main_".toList ++ uuid ++ "\n".toList)

end Verif.Helpers
