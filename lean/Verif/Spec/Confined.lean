import Verif.Spec.ReadStr
import Verif.Spec.Sandbox
import Verif.Spec.FsPatterns
import Verif.Model.FsPatterns
import Verif.Spec.Path

/-! # What it means that a program is confined to places -/

namespace Verif.Confined

open Verif.Regex Verif.FsPatterns

/-- The files a handler lets through are those of the patterns of the executor: the common ones, its own (`own`), those of the configuration (`extra`), the
directory of the submission, those its class appends (`more`); and for writing the common ones and its own (`ownWrite`). -/
structure Jailed (u : Chars) (s : Isolate.Stop) (dir : Regex.Str) (own extra : List Regex.Str) (more : List (Option Regex.Str)) (ownWrite : List Regex.Str) :
    Prop where
  read : ∃ k, jailRe s.pid (readParts own extra dir more) = some k ∧ ∀ path, (∃ f ∈ s.readFs, f path = true) ↔ Accepts u k path
  write : ∃ k, jailRe s.pid (writeParts ownWrite) = some k ∧ ∀ path, (∃ f ∈ s.writeFs, f path = true) ↔ Accepts u k path

/-- The directory the kernel starts from: that of the descriptor in register `d`, or the working directory. -/
def startDir (s : Isolate.Stop) : Option Nat → Except Isolate.LinkErr Regex.Str
  | none => s.cwd
  | some r => if ((s.regs r).truncate 32).toInt = -100 then s.cwd else s.fdLink ((s.regs r).truncate 32).toInt

/-- The call opens the file at `full`: the string at the address the kernel uses leads there, from the root or from the directory the kernel starts from, by
components. -/
def Opens (a : Sandbox.Attempt) (c : Nat) (d : Option Nat) (q : Nat) (full : Regex.Str) : Prop :=
  ∃ bytes file, ReadStr.StringAt a.stop.mem.byte (Sandbox.pointer c (a.stop.regs q)) bytes ∧ a.stop.decode bytes = some file ∧
    (file.head? = some '/' ∧ full = Path.render (Path.walk (Path.components file)) ∨
      file.head? ≠ some '/' ∧ ∃ dir, startDir a.stop d = .ok dir ∧ dir.head? = some '/' ∧
        full = Path.render (Path.walk (Path.components dir ++ Path.components file)))

/-- The register of the directory in the calls that open. -/
def openDir (name : String) : Option Nat := if name = "open" then none else some 0

end Verif.Confined
