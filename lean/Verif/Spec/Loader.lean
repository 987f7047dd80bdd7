import Verif.Model.Loader
/-!
Specification of C74: the executors asked for, present and working.
-/

namespace Verif.Loader

/-- A name stands between commas (or an end) in the argument of an option. -/
def Listed (arg : Option (List Char)) (n : Name) : Prop :=
  ∃ s pre post, arg = some s ∧ s ≠ [] ∧ s = pre ++ n ++ post ∧ ',' ∉ n ∧
    (pre = [] ∨ ∃ p, pre = p ++ [',']) ∧ (post = [] ∨ ∃ p, post = ',' :: p)

/-- The option was given with an argument that is not empty. -/
def Given (arg : Option (List Char)) : Prop := ∃ s, arg = some s ∧ s ≠ []

/-- There is a module of that name among the files. (A line feed at the end of the file's name is overlooked.) -/
def HasFile (listing : List Name) (n : Name) : Prop :=
  n ≠ [] ∧ (∀ c ∈ n, ('A' ≤ c ∧ c ≤ 'Z') ∨ ('0' ≤ c ∧ c ≤ '9')) ∧
    (n ++ ".py".toList ∈ listing ∨ n ++ ".py\n".toList ∈ listing)

/-- The user wants it. -/
def Wanted (a : Args) (n : Name) : Prop :=
  (Given a.only → Listed a.only n) ∧ ¬Listed a.exclude n ∧ n ≠ "BASH".toList

/-- A path that is configured and a file. -/
def Works (w : World) (k : Name) : Prop := ∃ p, w.runtime k = some (some p) ∧ w.isFile p = true

/-- The path of a program in the `bin` of a directory. -/
inductive BinOf (h prog : Name) : Name → Prop
  | plain : h ≠ [] → (∀ d, h ≠ d ++ ['/']) → BinOf h prog (h ++ '/' :: 'b' :: 'i' :: 'n' :: '/' :: prog)
  | slash : (∃ d, h = d ++ ['/']) → BinOf h prog (h ++ 'b' :: 'i' :: 'n' :: '/' :: prog)
  | empty : h = [] → BinOf h prog ('b' :: 'i' :: 'n' :: '/' :: prog)

/-- The command of a class: configured itself, or in the `bin` of a configured home. -/
inductive CommandIs (w : World) (c : Cls) (p : Name) : Prop
  | direct : w.runtime c.command = some (some p) → CommandIs w c p
  | home (key prog h : Name) : c.home = some (key, prog) → w.runtime c.command = none → w.runtime key = some (some h) →
      BinOf h prog p → CommandIs w c p

/-- Everything the class needs is configured and there. -/
def Installed (w : World) (c : Cls) : Prop :=
  (∀ k, (k, Need.key) ∈ c.needs → w.runtime k ≠ none) ∧
  (∀ k, (k, Need.file) ∈ c.needs ∨ (k, Need.soft) ∈ c.needs → Works w k) ∧
  ∃ p, CommandIs w c p ∧ w.isFile p = true

/-- The output is the message, with white space around it. -/
def Echoes (out : List Char) : Prop :=
  ∃ a b, out = a ++ "echo: Hello, World!".toList ++ b ∧ ∀ c ∈ a ++ b, c ∈ [' ', '\t', '\n', '\r', Char.ofNat 11, Char.ofNat 12]

/-- Text of a version: numbers with dots between. -/
def dotted : List (List Char) → List Char
  | [] => []
  | [x] => x
  | x :: xs => x ++ '.' :: dotted xs

/-- A version of at least `least` numbers stands in the text after `pre`. -/
def VersionAt (least : Nat) (text pre : List Char) (parts : List (List Char)) (post : List Char) : Prop :=
  text = pre ++ dotted parts ++ post ∧ parts ≠ [] ∧ least ≤ parts.length ∧ ∀ p ∈ parts, p ≠ [] ∧ ∀ c ∈ p, '0' ≤ c ∧ c ≤ '9'

/-- It cannot be continued to the right. -/
def Ended (post : List Char) : Prop :=
  (∀ c t, post = c :: t → ¬('0' ≤ c ∧ c ≤ '9')) ∧ (∀ c t, post = '.' :: c :: t → ¬('0' ≤ c ∧ c ≤ '9'))

/-- The first flag whose output has a version decides; flags on which the program fails, or which print none, are skipped. -/
inductive Reports (least : Nat) (run : List Name → Out) : List (List Name) → Version → Prop
  | none : Reports least run [] []
  | skip {f fs v} : run f = .failed → Reports least run fs v → Reports least run (f :: fs) v
  | blank {f fs v s} : run f = .text s → parseVersion least s = .none → Reports least run fs v → Reports least run (f :: fs) v
  | here {f fs v s} : run f = .text s → parseVersion least s = some v → Reports least run (f :: fs) v

/-- Where a program is that has a version. -/
def PathOf (w : World) (c : Cls) (r p : Name) : Prop :=
  (r = c.command ∧ CommandIs w c p) ∨ (r ≠ c.command ∧ w.runtime r = some (some p))

/-- What the programs say, in order. -/
inductive Answers (w : World) (c : Cls) : List Name → Versions → Prop
  | nil : Answers w c [] []
  | cons {r p v rs vs} : PathOf w c r p → Reports c.least (w.run p) (c.flags r) v → Answers w c rs vs →
      Answers w c (r :: rs) ((r, v) :: vs)

/-- Asking the programs for their versions raises no exception. -/
def Asks (w : World) (c : Cls) : Prop := ∃ v, Answers w c c.versionable v

/-- The self-test counts as passed. -/
inductive Passes (w : World) (c : Cls) (n : Name) : Prop
  | without : c.hasTest = false → Passes w c n
  | ran (ir rte ole : Bool) (out : List Char) : c.hasTest = true → w.test n = .ran false false ir rte ole out [] false → Echoes out →
      (c.fixed = none → Asks w c) → Passes w c n

/-- A class as they are: there is a self-test, and the C and C++ ones have a version. -/
def Usual (c : Cls) : Prop := c.hasTest = true ∧ (c.gcc = true → c.versionable ≠ [] ∧ c.fixed ≠ some [])

/-- Later than 4.9, in the order of Python's tuples: 4.9.0 is later than 4.9. -/
def Later (v : Version) : Prop :=
  (∃ a t, v = a :: t ∧ 4 < a) ∨ (∃ b t, v = 4 :: b :: t ∧ 9 < b) ∨ ∃ t, t ≠ [] ∧ v = 4 :: 9 :: t

end Verif.Loader
