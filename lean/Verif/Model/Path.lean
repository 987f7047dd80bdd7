import Verif.Basic

/-!
# Paths, open flags and directory descriptors: dmoj/cptbox/isolate.py:188-195, 278-284

Paths are lists of characters.
-/

namespace Verif.Path

/-- Strings. (isolate.py:278-284) -/
abbrev Str := List Char

/-- `s.split('/')`. (isolate.py:278-284) -/
def split : Str → List Str
  | [] => [[]]
  | c :: r =>
    if c = '/' then [] :: split r
    else match split r with
      | [] => [[c]]
      | w :: ws => (c :: w) :: ws

/-- `'/'.join(l)`. (isolate.py:278-284) -/
def joinSlash : List Str → Str
  | [] => []
  | [w] => w
  | w :: ws => w ++ '/' :: joinSlash ws

/-- The component loop of Python's `posixpath.normpath`: `new` is `new_comps` reversed. (isolate.py:278-284) -/
def normLoop (initial : Bool) : List Str → List Str → List Str
  | new, [] => new
  | new, c :: cs =>
    if c = [] ∨ c = ['.'] then normLoop initial new cs
    else if c ≠ ['.', '.'] ∨ (initial = false ∧ new = []) ∨ (new.head? = some ['.', '.']) then
      normLoop initial (c :: new) cs
    else normLoop initial new.tail cs

/-- Number of leading slashes kept by `normpath`: POSIX keeps exactly two. (isolate.py:278-284) -/
def initialSlashes : Str → Nat
  | '/' :: '/' :: '/' :: _ => 1
  | '/' :: '/' :: _ => 2
  | '/' :: _ => 1
  | _ => 0

/-- Python's `posixpath.normpath`. (isolate.py:278-284) -/
def normpath (path : Str) : Str :=
  if path = [] then ['.']
  else
    let n := initialSlashes path
    let comps := (normLoop (n != 0) [] (split path)).reverse
    let p := List.replicate n '/' ++ joinSlash comps
    if p = [] then ['.'] else p

/-- Python's `posixpath.join` of two arguments. (isolate.py:278-284) -/
def join (a b : Str) : Str :=
  match b with
  | '/' :: _ => b
  | _ => if a = [] ∨ a.getLast? = some '/' then a ++ b else a ++ '/' :: b

/-- `s.lstrip('/')`. (isolate.py:278-284) -/
def lstripSlash (s : Str) : Str := s.dropWhile (· == '/')

/-- `get_full_path`, dmoj/cptbox/isolate.py:278-284; `dir` is the text of the symbolic link
`/proc/<pid>/cwd` or `/proc/<pid>/fd/<dirfd>`. -/
def getFullPath (dir file : Str) : Str :=
  let file := match file with
    | '/' :: _ => file
    | _ => join dir file
  '/' :: lstripSlash (normpath file)

/-- The base directory for a relative path: `_getcwd_pid` or `_getfd_pid`. (isolate.py:278-284) -/
inductive Base where
  | cwd
  | fd (n : Int)
deriving DecidableEq, Repr

/-- `dirfd = (dirfd & 0x7FFFFFFF) - (dirfd & 0x80000000)`, dmoj/cptbox/isolate.py:279; the argument is
the register as the debugger returns it (`long`). -/
def decodeDirfd (d : BitVec 64) : Int :=
  ((d &&& 0x7FFFFFFF#64).toNat : Int) - ((d &&& 0x80000000#64).toNat : Int)

/-- dmoj/cptbox/isolate.py:281; `AT_FDCWD` is -100. -/
def baseOf (d : BitVec 64) : Base :=
  if decodeDirfd d = -100 then .cwd else .fd (decodeDirfd d)

/-- `open_write_flags`, dmoj/cptbox/isolate.py:14-20, with the values of Linux on x86: O_WRONLY,
O_RDWR, O_TRUNC, O_CREAT, O_EXCL, O_TMPFILE. -/
def writeFlags : List Nat := [1, 2, 512, 64, 128, 4259840]

/-- `is_write_flags`, dmoj/cptbox/isolate.py:188-195. -/
def isWriteFlags (flags : Nat) : Bool := writeFlags.any fun f => (flags &&& f) == f

end Verif.Path
