import Verif.Model.Path

/-!
# Links made before a submission is run: dmoj/executors/mixins.py:96-107
-/

namespace Verif.Symlink
open Verif.Path

/-- `os.path.commonprefix` of two strings: character by character. (mixins.py:96-107) -/
def commonprefix : Str → Str → Str
  | a :: as, b :: bs => if a = b then a :: commonprefix as bs else []
  | _, _ => []

/-- `src = os.path.abspath(os.path.join(self._dir, src))`, mixins.py:98; `dir` is absolute, so that the
current directory does not matter. -/
def location (dir src : Str) : Str := normpath (join dir src)

/-- The guard, mixins.py:100. -/
def allowed (dir src : Str) : Bool := commonprefix (location dir src) dir == dir

/-- What is at a path. (mixins.py:96-107) -/
inductive Node where
  | link (dst : Str)
  | other
deriving DecidableEq

/-- A file system, looked at by name only: that a name may lead through links is not modelled. (mixins.py:96-107) -/
abbrev Fs := Str → Option Node

/-- How the loop ends. (mixins.py:96-107) -/
inductive Outcome where
  | done
  /-- `InternalError`: the link would be outside of the directory. -/
  | outside
  /-- `os.symlink` raises: something other than a link is there. -/
  | exists_
deriving DecidableEq

/-- `os.symlink(dst, src)` after the removal of an old link, mixins.py:103-105. -/
def place (fs : Fs) (p dst : Str) : Option Fs :=
  match fs p with
  | some .other => none
  | _ => some fun q => if q = p then some (.link dst) else fs q

/-- The loop over the configured links, mixins.py:97-107. -/
def prepare (dir : Str) : List (Str × Str) → Fs → Fs × Outcome
  | [], fs => (fs, .done)
  | (src, dst) :: links, fs =>
    if allowed dir src then
      match place fs (location dir src) dst with
      | some fs' => prepare dir links fs'
      | none => (fs, .exists_)
    else (fs, .outside)

end Verif.Symlink
