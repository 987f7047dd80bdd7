import Verif.Model.Startup
import Verif.Spec.Roots

/-! # What the judge should start with -/

namespace Verif.Startup

open Verif.Roots

/-- The mapping says something about a key. -/
def Has (f : String → Option V) (k : String) (v : V) : Prop := f k = some v

/-- The value of a key in files, the first of which counts; `None` stands for a missing key. -/
inductive Says (k : String) : List (String → Option V) → V → Prop
  | nowhere : Says k [] .null
  | here {f fs v} (h : f k = some v) : Says k (f :: fs) v
  | later {f fs v} (h : f k = none) (hs : Says k fs v) : Says k (f :: fs) v

/-- The files read, the first of which counts: the configuration, and in docker the list of runtimes. -/
inductive Files (m : Machine) : List (String → Option V) → Prop
  | plain {c} (hd : m.docker = false) (hc : m.config = some (.map c)) : Files m [c]
  | docker {c r} (hd : m.docker = true) (hr : m.runtimes = some (.map r)) (hc : m.config = some (.map c)) : Files m [c, r]
  | bare {r} (hd : m.docker = true) (hr : m.runtimes = some (.map r)) (hc : m.config = none) : Files m [r]

/-- The value names problem roots. -/
inductive Names (m : Machine) : V → Dirs → Prop
  | text (s) : Names m (.text s) (.str (m.dirOf s))
  | roots (l) : Names m (.roots l) (.node l)

/-- The problem roots the judge is to have: those of `problem_storage_root`, also spelt with hyphens; in docker without a configuration
the directory /problems. -/
inductive Meant (m : Machine) (fs : List (String → Option V)) : Dirs → Prop
  | under {v d} (hc : m.config ≠ none) (h : Says "problem_storage_root" fs v) (hn : Names m v d) : Meant m fs d
  | hyphen {v d} (hc : m.config ≠ none) (h : Says "problem_storage_root" fs .null) (h' : Says "problem-storage-root" fs v)
      (hn : Names m v d) : Meant m fs d
  | bare (hc : m.config = none) : Meant m fs (.list [["problems"]])

/-- An argument counts if it is there and not empty. -/
def Counts (x : Option String) (s : String) : Prop := x = some s ∧ s ≠ ""

/-- `q` lies in the directory `p`, or is it. -/
def Under (p q : Path) : Prop := p <+: q

end Verif.Startup
