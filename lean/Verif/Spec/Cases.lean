import Verif.Model.Problem

/-!
# Specification vocabulary for test case discovery (C26)
-/

namespace Verif.Problem

/-- A file that matches one of the two patterns, with what the pattern says about it. -/
structure Rec where
  type : FileType
  file : String
  batch : Option Id
  case : Id
deriving DecidableEq, Repr

/-- The files of one type that match and have a case id. -/
def recordsOf (parse : String → Option (Option Id × Option Id)) (t : FileType) (files : List String) :
    List Rec :=
  files.filterMap fun f =>
    match parse f with
    | some (batch, some case) => some ⟨t, f, batch, case⟩
    | _ => none

/-- All matching files. -/
def records (int : String → Option Int) (files : List String) (inPat outPat : Pattern) : List Rec :=
  recordsOf (parsePosition int inPat) .input files ++ recordsOf (parsePosition int outPat) .output files

/-- Strictly smaller: integers numerically, strings lexicographically. -/
def Before : Id → Id → Prop
  | .int a, .int c => a < c
  | .str a, .str c => a < c
  | _, _ => False

/-- The last file of a type among the records with a property. -/
def lastFile (rs : List Rec) (t : FileType) (p : Rec → Bool) : Option String :=
  ((rs.filter fun r => decide (r.type = t) && p r).getLast?).map (·.file)

/-- The files of the case with exactly this batch and this case id. -/
def filesOf (rs : List Rec) (batch : Option Id) (case : Id) : Files :=
  ⟨lastFile rs .input (fun r => decide (r.batch = batch) && decide (r.case = case)),
   lastFile rs .output (fun r => decide (r.batch = batch) && decide (r.case = case))⟩

/-- `e` is the right configuration entry for `id`: a batch of all cases of that batch in order, or
the plain case `id`. -/
def EntryFor {P : Type} (rs : List Rec) (id : Id) (e : Entry P) (p : P) : Prop :=
  ((∃ r ∈ rs, r.batch = some id) ∧
    ∃ cs : List Id, cs.Pairwise Before ∧ (∀ c, c ∈ cs ↔ ∃ r ∈ rs, r.batch = some id ∧ r.case = c) ∧
      e = .batched (cs.map (filesOf rs (some id))) p) ∨
  ((∃ r ∈ rs, r.batch = none ∧ r.case = id) ∧ e = .single (filesOf rs none id) p)

/-- Ids are all integers or all strings. -/
def Homogeneous (rs : List Rec) : Prop :=
  (∀ r ∈ rs, (∃ n, r.case = .int n) ∧ ∀ b, r.batch = some b → ∃ n, b = .int n) ∨
  (∀ r ∈ rs, (∃ s, r.case = .str s) ∧ ∀ b, r.batch = some b → ∃ s, b = .str s)

end Verif.Problem
