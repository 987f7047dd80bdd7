import Verif.Spec.Confined

/-!
# What the kernel does with a path: links, and memory that changes

Nothing here is code of the judge. A tree says what is at a position (a list of names from the root). The kernel goes from directory to directory and follows
links where it meets them; `..` is the directory above the one it has arrived at, not above the name it came by. Permissions, the limit of forty links and the
links of `/proc` that are no texts are left out: they make fewer walks possible, or, for those of `/proc`, others that `hiddenStems` of Spec/FsPatterns.lean names.
-/

namespace Verif.Files

open Verif.Path

/-- What is at a position. -/
inductive Node where
  | dir
  | file
  | link (target : List Char)
deriving DecidableEq

abbrev Pos := List (List Char)

abbrev Tree := Pos → Option Node

/-- Where a link starts to lead from. -/
def linkStart (pos : Pos) (target : List Char) : Pos := if target.head? = some '/' then [] else pos

/-- From the directory `pos` the components `cs` may lead to `e`. The last one may be anything: a file to be made, or a link that is not followed. -/
inductive Resolves (t : Tree) : Pos → List (List Char) → Pos → Prop
  | done (pos : Pos) : Resolves t pos [] pos
  | stay (pos : Pos) (cs e) : t pos = some .dir → Resolves t pos cs e → Resolves t pos (['.'] :: cs) e
  | up (pos : Pos) (cs e) : t pos = some .dir → Resolves t pos.dropLast cs e → Resolves t pos (['.', '.'] :: cs) e
  | enter (pos : Pos) (c : List Char) (cs e) : t pos = some .dir → c ≠ ['.'] → c ≠ ['.', '.'] →
      (t (pos ++ [c]) = some .dir ∨ t (pos ++ [c]) = some .file) → Resolves t (pos ++ [c]) cs e → Resolves t pos (c :: cs) e
  | last (pos : Pos) (c : List Char) : t pos = some .dir → c ≠ ['.'] → c ≠ ['.', '.'] → Resolves t pos [c] (pos ++ [c])
  | follow (pos : Pos) (c : List Char) (cs e) (target : List Char) : t pos = some .dir → c ≠ ['.'] → c ≠ ['.', '.'] →
      t (pos ++ [c]) = some (.link target) → Resolves t (linkStart pos target) (components target ++ cs) e → Resolves t pos (c :: cs) e

/-- Memory after other threads have written to it. -/
def after (byte : Nat → UInt8) : List (Nat × UInt8) → Nat → UInt8
  | [] => byte
  | (a, x) :: ws => after (fun b => if b = a then x else byte b) ws

/-- The directory the kernel starts from. -/
def Starts (s : Isolate.Stop) (d : Option Nat) (file : List Char) (start : Pos) : Prop :=
  file.head? = some '/' ∧ start = [] ∨
    file.head? ≠ some '/' ∧ ∃ dir, Confined.startDir s d = .ok dir ∧ dir.head? = some '/' ∧ start = walk (components dir)

/-- The call reaches what is at `pos`: with memory as it is when the kernel reads the path, and following links. -/
def Reaches (t : Tree) (byte : Nat → UInt8) (a : Sandbox.Attempt) (c : Nat) (d : Option Nat) (q : Nat) (pos : Pos) : Prop :=
  ∃ bytes file start, ReadStr.StringAt byte (Sandbox.pointer c (a.stop.regs q)) bytes ∧ a.stop.decode bytes = some file ∧ Starts a.stop d file start ∧
    Resolves t start (components file) pos

/-- None of the writes is to the path the tracer has read, or the zero byte at its end. -/
def Elsewhere (a : Sandbox.Attempt) (c q : Nat) (ws : List (Nat × UInt8)) : Prop :=
  ∀ bytes, ReadStr.StringAt a.stop.mem.byte (Sandbox.pointer c (a.stop.regs q)) bytes →
    ∀ w ∈ ws, w.1 < Sandbox.pointer c (a.stop.regs q) ∨ Sandbox.pointer c (a.stop.regs q) + bytes.length < w.1

/-- Nothing the components pass by name is a link. -/
def Plain (t : Tree) (start : Pos) (cs : List (List Char)) : Prop :=
  ∀ k ≤ cs.length, ∀ target, t ((cs.take k).foldl stepDir start) ≠ some (.link target)

/-- Nothing the path passes by name is a link. -/
def NoLinks (t : Tree) (a : Sandbox.Attempt) (c : Nat) (d : Option Nat) (q : Nat) : Prop :=
  ∀ bytes file start, ReadStr.StringAt a.stop.mem.byte (Sandbox.pointer c (a.stop.regs q)) bytes → a.stop.decode bytes = some file → Starts a.stop d file start →
    Plain t start (components file)

end Verif.Files
