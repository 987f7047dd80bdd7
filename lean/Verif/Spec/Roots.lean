import Verif.Model.Roots

/-! # What the problem list should be -/

namespace Verif.Roots

/-- The path names something, namely `n`. -/
inductive At : Node → Path → Node → Prop
  | here (n : Node) : At n [] n
  | into {l : Bool} {m : Nat} {es : List (String × Node)} {c : String} {x n : Node} {p : Path} (h : es.lookup c = some x)
      (hp : At x p n) : At (.dir l m es) (c :: p) n

/-- The path is a directory. -/
def Dir (fs : Node) (p : Path) : Prop := ∃ l m es, At fs p (.dir l m es)

/-- The path is a file. -/
def File (fs : Node) (p : Path) : Prop := ∃ r, At fs p (.file r)

/-- `q` is a directory that lies exactly `d` levels below `p`. -/
def Below (fs : Node) (p : Path) (d : Nat) (q : Path) : Prop :=
  ∃ r : Path, q = p ++ r ∧ r.length = d ∧ Dir fs q

/-- The roots a configuration means in a file system. -/
def IsRoot (fs : Node) : Dirs → Path → Prop
  | .list l, q => q ∈ l
  | .node l, q => .plain q ∈ l ∨ ∃ m, .deep m ∈ l ∧ ∃ d : Nat, ∃ p, (some (d : Int), p) ∈ m ∧ Below fs p d q
  | .str p, q => Below fs p 1 q

/-- The configuration is a single string. -/
def IsString (cfg : Dirs) : Prop := ∃ p, cfg = .str p

/-- The problem `id` is in root `r`: its `init.yml` can be read (a directory of that name that can be listed counts). -/
def Has (fs : Node) (r : Path) (id : String) : Prop :=
  At fs (r ++ [id, "init.yml"]) (.file true) ∨ ∃ m es, At fs (r ++ [id, "init.yml"]) (.dir true m es)

/-- The problem `id` is in root `r`, and its directory was last changed at `t`. -/
def Offers (fs : Node) (r : Path) (id : String) (t : Nat) : Prop := Has fs r id ∧ ∃ l es, At fs (r ++ [id]) (.dir l t es)

/-- The depth is no number, or negative. -/
def BadDepth : Option Int → Prop
  | none => True
  | some d => d < 0

/-- The configuration contains such a depth. -/
def HasBadDepth (cfg : Dirs) : Prop := ∃ es m d p, cfg = .node es ∧ .deep m ∈ es ∧ (d, p) ∈ m ∧ BadDepth d

/-- The path is a directory that can be listed. -/
def Fine (fs : Node) (p : Path) : Prop := ∃ m es, At fs p (.dir true m es)

/-- The search `d` levels below `p` meets only directories it can list. -/
def Searchable (fs : Node) (p : Path) (d : Nat) : Prop :=
  (0 < d → Fine fs p) ∧ ∀ k < d, ∀ q, Below fs p k q → Fine fs q

/-- So do all searches of the configuration. -/
def SearchesFine (fs : Node) : Dirs → Prop
  | .list _ => True
  | .node l => ∀ m, .deep m ∈ l → ∀ (d : Nat) p, (some (d : Int), p) ∈ m → Searchable fs p d
  | .str p => Fine fs p

end Verif.Roots
