import Verif.Model.FsPatterns

/-!
# Files of helper programs

Checkers, interactors, generators and validators are compiled by `compile_with_auxiliary_files` and are given files made by `mktemp`.

* `mktemp`: dmoj/utils/helper_files.py:9-13, used in dmoj/checkers/bridged.py:49, dmoj/graders/bridged.py:68;
* the `fs` of helper programs: helper_files.py:44;
* the directory of an executor: dmoj/executors/base_executor.py:47, 78-83, dmoj/executors/compiled_executor.py:40-43.
-/

namespace Verif.HelperFs
open Verif.FsPatterns

abbrev Str := List Char
abbrev Bytes := List UInt8

/-- `os.path.join(dir, name)`, of a name without a slash in front, as `tempfile` does it for `mktemp` (helper_files.py:10) and for `_file`
(base_executor.py:82). -/
def join (dir name : Str) : Str :=
  if dir = [] ∨ dir.getLast? = some '/' then dir ++ name else dir ++ '/' :: name

/-- The names of `tempfile`: `tmp` and random characters. (helper_files.py:10, base_executor.py:82) -/
def tempName (dir rand : Str) : Str := join dir ("tmp".toList ++ rand)

/-- A file of `mktemp`: always in the directory `tempfile.gettempdir()` of the system. (helper_files.py:10) -/
def caseFile (system rand : Str) : Str := tempName system rand

/-- Python's `a or b` of strings that may be `None`. (base_executor.py:47) -/
def orElse (a b : Option Str) : Option Str :=
  match a with
  | none => b
  | some [] => b
  | some (c :: s) => some (c :: s)

/-- The directory of an executor: `tempfile.mkdtemp(dir=dest_dir or env.tempdir)`, which takes the directory of the system for `None`.
(base_executor.py:47, 78-83) -/
def workDir (dest configured : Option Str) (system rand : Str) : Str :=
  tempName ((orElse dest configured).getD system) rand

/-- `dest_dir` of a compiled program: the configured place if it is kept for later. (compiled_executor.py:40-43) -/
def destOf (cached : Bool) (cacheDir : Option Str) : Option Str := if cached then cacheDir else none

/-- The patterns a helper program reads by: the executor's own `fs` and the directory of the system, which is not escaped.
(helper_files.py:44, mixins.py:76-79) -/
def helperParts (own extra : List Str) (system dir : Str) (more : List (Option Str)) : List (Option Str) :=
  readParts (own ++ [system]) extra dir more

/-- What is in the directory. -/
abbrev Disk := List (Str × Bytes)

/-- `with mktemp(a) as f, mktemp(b) as g, ...: body`: a file that cannot be written ends the statement with an exception (`none`), and every file made
before is removed on the way out, whether `body` raises (a value of `β` here) or not. The file that could not be written is taken to be removed
at once: nothing refers to it any more. (helper_files.py:9-13, checkers/bridged.py:49, graders/bridged.py:68) -/
def withFiles {β : Type} (room : Str → Bytes → Bool) : List (Str × Bytes) → Disk → (Disk → β) → Option β × Disk
  | [], d, body => (some (body d), d)
  | (n, b) :: l, d, body =>
    if room n b then
      let r := withFiles room l ((n, b) :: d) body
      (r.1, r.2.filter fun e => e.1 ≠ n)
    else (none, d)

end Verif.HelperFs
