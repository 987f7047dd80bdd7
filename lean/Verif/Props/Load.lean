import Verif.Spec.Load
import Verif.Props.Names

/-!
# Loading a problem (C103)
-/

namespace Verif.Load

open Spec

variable {w : World} {l : List (String × Y)} {meta_ : Y}

theorem lookup_append {β : Type} (a b : List (String × β)) (k : String) :
    (a ++ b).lookup k = (a.lookup k).or (b.lookup k) := by
  induction a with
  | nil => simp
  | cons x a ih =>
    obtain ⟨k', v⟩ := x
    simp only [List.cons_append, List.lookup_cons]
    cases k == k' <;> simp [ih]

/-- The configuration of a document. -/
def cfg (meta_ : Y) (l : List (String × Y)) : List (String × Y) :=
  l ++ defaults meta_ ((l.lookup "signature_grader").isSome)

theorem load_eq (h : Document w l) : load w meta_ = resolve w (cfg meta_ l) := by
  obtain ⟨h1, h2, h3⟩ := h
  have ht : (Y.map l).truthy = true := by
    cases l with
    | nil => exact absurd rfl h3
    | cons a l => rfl
  rw [load, if_pos h1, h2]
  simp only [ht, if_true]
  rfl

theorem resolve_config {c : List (String × Y)} {r : Loaded} (h : resolve w c = .ok r) : r.config = c := by
  unfold resolve at h
  split at h
  · cases h
  · split at h
    · cases h
    · cases h; rfl

/-- **C103**: what the document says is the configuration; where it is silent the defaults hold: a case is worth 1 point, the first
64 bytes of the output are shown, none when grading by signature, and so on. -/
theorem C103_settings (h : Document w l) {r : Loaded} (hl : load w meta_ = .ok r) :
    (∀ k v, Says l k v → Says r.config k v) ∧
    (Silent l "points" → Says r.config "points" (.num 1)) ∧
    (Silent l "output_prefix_length" →
      Says r.config "output_prefix_length" (.num (if (l.lookup "signature_grader").isSome then 0 else 64))) ∧
    (Silent l "output_limit_length" → Says r.config "output_limit_length" (.num 25165824)) ∧
    (Silent l "wall_time_factor" → Says r.config "wall_time_factor" (.num 3)) ∧
    (Silent l "binary_data" → Says r.config "binary_data" (.bool false)) ∧
    (Silent l "short_circuit" → Says r.config "short_circuit" (.bool true)) ∧
    (Silent l "symlinks" → Says r.config "symlinks" (.map [])) ∧
    (Silent l "meta" → Says r.config "meta" meta_) ∧
    ∀ k, Silent l k → k ∉ ["wall_time_factor", "output_prefix_length", "output_limit_length", "binary_data", "short_circuit",
      "points", "symlinks", "meta"] → Silent r.config k := by
  rw [load_eq h] at hl
  have hc := resolve_config hl
  simp only [Says, Silent, hc, cfg, lookup_append]
  refine ⟨fun k v hk => by rw [hk]; rfl, fun hk => by rw [hk]; rfl, fun hk => by rw [hk]; rfl, fun hk => by rw [hk]; rfl,
    fun hk => by rw [hk]; rfl, fun hk => by rw [hk]; rfl, fun hk => by rw [hk]; rfl, fun hk => by rw [hk]; rfl,
    fun hk => by rw [hk]; rfl, fun k hk hn => ?_⟩
  rw [hk, Option.none_or, List.lookup_eq_none_iff]
  intro p hp
  simp only [defaults, List.mem_cons, List.not_mem_nil, or_false] at hp hn
  rcases hp with rfl | rfl | rfl | rfl | rfl | rfl | rfl | rfl <;> simp <;> grind

theorem item_says {k : String} {v : Y} (h : Says l k v) : item (cfg meta_ l) k = v.wrap := by
  rw [item, cfg, lookup_append, h]; rfl

theorem item_silent {k : String} (h : Silent l k) (hd : (defaults meta_ ((l.lookup "signature_grader").isSome)).lookup k = none) :
    item (cfg meta_ l) k = .null := by
  rw [item, cfg, lookup_append, h, hd]; rfl

theorem hyphens_cases : hyphens "test_cases" = "test-cases" := by decide +kernel
theorem hyphens_archive : hyphens "archive" = "archive" := by decide +kernel
theorem hyphens_points : hyphens "points" = "points" := by decide +kernel

theorem attr_same {c : List (String × Y)} {k : String} (h : hyphens k = k) : attr c k = item c k := by
  rw [attr, h]
  split <;> simp_all

theorem archive_says {s : String} {names : List String} (hs : s ≠ "") (h : Says l "archive" (.str s)) (hz : w.archive s = .zip names) :
    archiveOf w (cfg meta_ l) = .ok (some names) := by
  have : (Y.str s).truthy = true := by simpa [Y.truthy] using hs
  simp only [archiveOf, attr_same hyphens_archive, item_says h, Y.wrap, this, if_true, hz]

theorem archive_silent (h : Silent l "archive") : archiveOf w (cfg meta_ l) = .ok none := by
  have hd : (defaults meta_ ((l.lookup "signature_grader").isSome)).lookup "archive" = none := rfl
  simp only [archiveOf, attr_same hyphens_archive, item_silent h hd, Y.truthy]
  rfl

/-- **C103**: a list of test cases in the document is what is graded, with or without an archive. -/
theorem C103_given (h : Document w l) {cs : List Y} (hne : cs ≠ []) (hc : Says l "test_cases" (.list cs)) :
    (Silent l "archive" → load w meta_ = .ok ⟨cfg meta_ l, none, .given cs⟩) ∧
    ∀ names, HasArchive w l names → load w meta_ = .ok ⟨cfg meta_ l, some names, .given cs⟩ := by
  have hw : (Y.list cs).wrap = .list cs := by
    cases cs with
    | nil => exact absurd rfl hne
    | cons a cs => rfl
  have hcases : ∀ f, casesOf w (cfg meta_ l) f = .ok (.given cs) := by
    intro f
    simp only [casesOf, attr, item_says hc, hw]
  constructor
  · intro ha
    simp only [load_eq h, resolve, archive_silent ha, hcases]
  · rintro names ⟨s, hs, ha, hz⟩
    simp only [load_eq h, resolve, archive_says hs ha hz, hcases]

theorem attr_noCases (h : NoCases l) : attr (cfg meta_ l) "test_cases" = .null := by
  have h1 : item (cfg meta_ l) "test_cases" = .null := item_silent h.1 rfl
  have h2 : item (cfg meta_ l) "test-cases" = .null := item_silent h.2 rfl
  simp only [attr, h1, hyphens_cases, h2]

theorem pattern_input : pattern w Names.inputPattern none = .ok (Names.default w.u Names.inputPattern) := by
  simp only [pattern, Names.parse_input]
  congr 1

theorem pattern_output : pattern w Names.outputPattern none = .ok (Names.default w.u Names.outputPattern) := by
  simp only [pattern, Names.parse_output]
  congr 1

/-- The points of the problem. -/
def problemPoints (l : List (String × Y)) : Y := ((l.lookup "points").getD (.num 1)).wrap

theorem attr_points : attr (cfg meta_ l) "points" = problemPoints l := by
  rw [attr_same hyphens_points, item, cfg, lookup_append, problemPoints]
  cases l.lookup "points" <;> rfl

/-- **C103**: a problem with an archive and no mention of test cases has those found by their names (C102), each worth the points of
the problem. -/
theorem C103_guessed (h : Document w l) (hn : NoCases l) {names : List String} (ha : HasArchive w l names)
    (hr : Names.ReadsDigits w.u w.int) (ho : ∀ f ∈ names, Names.OneLine f.toList) :
    ∃ es, Names.guess w.u w.int (some names) (problemPoints l) = some (.ok es) ∧
      load w meta_ = .ok ⟨cfg meta_ l, some names, .found es⟩ := by
  obtain ⟨es, hes⟩ := (Names.C102_accepted (points := problemPoints l) hr (some names) (by rintro _ ⟨⟩; exact ho)).2 _ rfl
  refine ⟨es, hes, ?_⟩
  obtain ⟨s, hs, ha, hz⟩ := ha
  rw [Names.guess_eq, Option.some.injEq] at hes
  simp only [load_eq h, resolve, archive_says hs ha hz, casesOf, attr_noCases hn, find, withDefault, pattern_input, pattern_output, pointsOf,
    attr_points, hes]

/-- The pattern that a setting stands for. -/
def FormatIs (w : World) (l m : List (String × Y)) (k : String) (dflt p : Problem.Pattern) : Prop :=
  (∃ s, s ≠ "" ∧ Effective l m k (.str s) ∧ w.compile s = some p) ∨ Nowhere l m k ∧ p = dflt

/-- The points of the entries, one after the other. -/
def PointsAre (l m : List (String × Y)) (f : Nat → Option Y) : Prop :=
  (∃ ps, ps ≠ [] ∧ Effective l m "case_points" (.list ps) ∧ f = fun k => (ps[k]?).map Y.wrap) ∨
  Nowhere l m "case_points" ∧ f = fun _ => some (problemPoints l)

theorem withDefault_effective {m : List (String × Y)} {k : String} {v : Y} (hm : m ≠ []) (h : Effective l m k v)
    (ht : v.wrap.truthy = true) : withDefault (cfg meta_ l) (some m) k = some v.wrap := by
  cases m with
  | nil => exact absurd rfl hm
  | cons x m =>
    rcases h with h | ⟨h1, h2⟩
    · unfold Says at h
      simp only [withDefault, h, ht, if_true]
    · unfold Silent at h1
      simp only [withDefault, h1, item_says h2, ht, if_true]

theorem withDefault_nowhere {m : List (String × Y)} {k : String} (h : Nowhere l m k)
    (hd : (defaults meta_ ((l.lookup "signature_grader").isSome)).lookup k = none) :
    withDefault (cfg meta_ l) (some m) k = none := by
  cases m with
  | nil => rfl
  | cons x m =>
    obtain ⟨h1, h2⟩ := h
    unfold Silent at h1
    simp only [withDefault, h1, item_silent h2 hd, Y.truthy, Bool.false_eq_true, if_false]

theorem formatIs {m : List (String × Y)} {k : String} {dflt : Names.Str} {d p : Problem.Pattern} (hm : m ≠ [])
    (hd : (defaults meta_ ((l.lookup "signature_grader").isSome)).lookup k = none) (hdf : pattern w dflt none = .ok d)
    (h : FormatIs w l m k d p) : pattern w dflt (withDefault (cfg meta_ l) (some m) k) = .ok p := by
  rcases h with ⟨s, hs, he, hc⟩ | ⟨hn, rfl⟩
  · have := withDefault_effective (meta_ := meta_) hm he (by simpa [Y.wrap, Y.truthy] using hs)
    simp only [this, Y.wrap, pattern, hc]
  · rw [withDefault_nowhere hn hd, hdf]

/-- **C103**: with anything in `test_cases` the members of the archive are matched with the formats given there or beside it, or
the default ones, and the entries get the points listed one after the other, or those of the problem. -/
theorem C103_formats (h : Document w l) {names : List String} (ha : HasArchive w l names) {m : List (String × Y)}
    (hm : Says l "test_cases" (.map m)) (hne : m ≠ []) {i o : Problem.Pattern} {f : Nat → Option Y}
    (hi : FormatIs w l m "input_format" (Names.default w.u Names.inputPattern) i)
    (ho : FormatIs w l m "output_format" (Names.default w.u Names.outputPattern) o) (hp : PointsAre l m f) :
    (∀ es, Problem.matchTestCases w.int names i o f = .ok es → load w meta_ = .ok ⟨cfg meta_ l, some names, .found es⟩) ∧
    (∀ e, Problem.matchTestCases w.int names i o f = .error e → load w meta_ = .error (ofMatch e)) := by
  obtain ⟨s, hs, ha, hz⟩ := ha
  have h1 := formatIs (meta_ := meta_) hne rfl pattern_input hi
  have h2 := formatIs (meta_ := meta_) hne rfl pattern_output ho
  have h3 : pointsOf (cfg meta_ l) (withDefault (cfg meta_ l) (some m) "case_points") = .ok f := by
    rcases hp with ⟨ps, hps, he, rfl⟩ | ⟨hn, rfl⟩
    · have hw : (Y.list ps).wrap = .list ps ∧ (Y.list ps).truthy = true := by
        cases ps with
        | nil => exact absurd rfl hps
        | cons a ps => exact ⟨rfl, rfl⟩
      have := withDefault_effective (meta_ := meta_) hne he (by rw [hw.1]; exact hw.2)
      simp only [this, hw.1, pointsOf]
    · rw [withDefault_nowhere hn rfl, pointsOf, attr_points]
  constructor <;> intro r hr <;>
    simp only [load_eq h, resolve, archive_says hs ha hz, casesOf, attr, item_says hm, Y.wrap, find, h1, h2, h3, hr]

/-- **C103**: a missing or empty `init.yml`, one that is not YAML, an archive that does not exist or is no zip file, and formats or a
guess without an archive are refused as errors of the configuration. -/
theorem C103_refused :
    (w.root = true → (w.init = none ∨ w.init = some .parserError ∨ w.init = some .scannerError ∨ w.init = some (.doc .null) ∨
      w.init = some (.doc (.map []))) → load w meta_ = .error .invalidInit) ∧
    (Document w l → (∃ s, s ≠ "" ∧ Says l "archive" (.str s) ∧ (w.archive s = .missing ∨ w.archive s = .notZip)) →
      load w meta_ = .error .invalidInit) ∧
    (Document w l → Silent l "archive" → (NoCases l ∨ ∃ m, Says l "test_cases" (.map m)) →
      load w meta_ = .error .invalidInit) := by
  refine ⟨?_, ?_, ?_⟩
  · rintro hr (h | h | h | h | h) <;> simp [load, hr, h, Y.truthy]
  · rintro h ⟨s, hs, ha, hz⟩
    have : (Y.str s).truthy = true := by simpa [Y.truthy] using hs
    have : archiveOf w (cfg meta_ l) = .error .invalidInit := by
      simp only [archiveOf, attr_same hyphens_archive, item_says ha, Y.wrap, this, if_true]
      rcases hz with hz | hz <;> rw [hz]
    simp only [load_eq h, resolve, this]
  · rintro h ha (hc | ⟨m, hm⟩)
    · simp only [load_eq h, resolve, archive_silent ha, casesOf, attr_noCases hc, find]
    · simp only [load_eq h, resolve, archive_silent ha, casesOf, attr, item_says hm, Y.wrap, find]

theorem pattern_none {dflt : Names.Str} (hd : ∃ r, Names.parse dflt = some r) : ∃ p, pattern w dflt none = .ok p := by
  obtain ⟨r, hd⟩ := hd
  simp only [pattern, hd]
  exact ⟨_, rfl⟩

theorem proper_pattern {m : List (String × Y)} {k : String} {dflt : Names.Str}
    (hd : ∃ r, Names.parse dflt = some r)
    (hk0 : (defaults meta_ ((l.lookup "signature_grader").isSome)).lookup k = none)
    (hk : Silent m k ∧ Silent l k ∨ ∃ s p, Says m k (.str s) ∧ w.compile s = some p) :
    ∃ p, pattern w dflt (withDefault (cfg meta_ l) (some m) k) = .ok p := by
  have hn : ∃ p, pattern w dflt none = .ok p := pattern_none hd
  cases m with
  | nil => exact hn
  | cons x m =>
    rcases hk with ⟨h1, h2⟩ | ⟨s, p, h1, h2⟩
    · unfold Silent at h1
      have h2 := item_silent (meta_ := meta_) h2 hk0
      simpa only [withDefault, h1, h2, Y.truthy, Bool.false_eq_true, if_false] using hn
    · unfold Says at h1
      simp only [withDefault, h1, Y.wrap]
      split
      · exact ⟨p, by simp only [pattern, h2]⟩
      · exact hn

/-- **C103 (partial)**: if the settings are of the kinds they are meant to be, whatever keeps the problem from being loaded is reported
as an error of the configuration, except for two: too few points for the cases found, and ids of which some are numbers and some
are not. Missing for the full claim: these and settings of other kinds (`C103_raises_fails`). -/
theorem C103_raises_partial (h : Document w l) (hp : Proper w l) {e : Err} (he : load w meta_ = .error e) :
    e = .invalidInit ∨ ((e = .stopIteration ∨ e = .typeError) ∧ ∃ names pi po, ∃ pts : Nat → Option Y, ∃ me, HasArchive w l names ∧
      Problem.matchTestCases w.int names pi po pts = .error me ∧ e = ofMatch me) := by
  rw [load_eq h, resolve] at he
  have harch : archiveOf w (cfg meta_ l) = .ok none ∨ archiveOf w (cfg meta_ l) = .error .invalidInit ∨
      ∃ names, HasArchive w l names ∧ archiveOf w (cfg meta_ l) = .ok (some names) := by
    rcases hp.archive with ha | ⟨s, ha, hu⟩
    · exact .inl (archive_silent ha)
    · by_cases hs : s = ""
      · subst hs
        refine .inl ?_
        have : (Y.str "").truthy = false := by decide
        simp only [archiveOf, attr_same hyphens_archive, item_says ha, Y.wrap, this]
        rfl
      · have ht : (Y.str s).truthy = true := by simpa [Y.truthy] using hs
        cases hz : w.archive s with
        | unreadable => exact absurd hz hu
        | zip names => exact .inr (.inr ⟨names, ⟨s, hs, ha, hz⟩, archive_says hs ha hz⟩)
        | missing =>
          refine .inr (.inl ?_)
          simp only [archiveOf, attr_same hyphens_archive, item_says ha, Y.wrap, ht, if_true, hz]
        | notZip =>
          refine .inr (.inl ?_)
          simp only [archiveOf, attr_same hyphens_archive, item_says ha, Y.wrap, ht, if_true, hz]
  have hfind : ∀ (t : Option (List (String × Y))), (∃ p, pattern w Names.inputPattern (withDefault (cfg meta_ l) t "input_format") = .ok p) →
      (∃ p, pattern w Names.outputPattern (withDefault (cfg meta_ l) t "output_format") = .ok p) →
      (∃ p, pointsOf (cfg meta_ l) (withDefault (cfg meta_ l) t "case_points") = .ok p) →
      ∀ f, (∀ names, f = some names → HasArchive w l names) → find w (cfg meta_ l) f t = .error e →
      e = .invalidInit ∨ ((e = .stopIteration ∨ e = .typeError) ∧ ∃ names pi po, ∃ pts : Nat → Option Y, ∃ me, HasArchive w l names ∧
      Problem.matchTestCases w.int names pi po pts = .error me ∧ e = ofMatch me) := by
    rintro t ⟨pi, hi⟩ ⟨po, ho⟩ ⟨pts, hpts⟩ f hf he
    cases f with
    | none => simp only [find, Except.error.injEq] at he; exact .inl he.symm
    | some names =>
      simp only [find, hi, ho, hpts] at he
      cases hm : Problem.matchTestCases w.int names pi po pts with
      | ok es => rw [hm] at he; cases he
      | error me =>
        rw [hm] at he
        simp only [Except.error.injEq] at he
        subst he
        cases me with
        | noCase => exact .inl rfl
        | conflict => exact .inl rfl
        | typeError => exact .inr ⟨.inr rfl, names, pi, po, pts, _, hf _ rfl, hm, rfl⟩
        | stopIteration => exact .inr ⟨.inl rfl, names, pi, po, pts, _, hf _ rfl, hm, rfl⟩
  have hcases : ∀ f, (∀ names, f = some names → HasArchive w l names) → casesOf w (cfg meta_ l) f = .error e →
      e = .invalidInit ∨ ((e = .stopIteration ∨ e = .typeError) ∧ ∃ names pi po, ∃ pts : Nat → Option Y, ∃ me, HasArchive w l names ∧
      Problem.matchTestCases w.int names pi po pts = .error me ∧ e = ofMatch me) := by
    intro f hf he
    have hnone : ∀ t, t = none ∨ t = some [] → find w (cfg meta_ l) f t = .error e → _ := fun t ht =>
      hfind t (by rcases ht with rfl | rfl <;> exact pattern_none ⟨_, Names.parse_input⟩)
        (by rcases ht with rfl | rfl <;> exact pattern_none ⟨_, Names.parse_output⟩)
        (by rcases ht with rfl | rfl <;> exact ⟨_, rfl⟩) f hf
    rcases hp.cases with hn | ⟨cs, hc⟩ | ⟨m, hm, hk, hpt⟩
    · simp only [casesOf, attr_noCases hn] at he
      exact hnone _ (.inl rfl) he
    · cases cs with
      | nil =>
        simp only [casesOf, attr, item_says hc, Y.wrap] at he
        exact hnone _ (.inr rfl) he
      | cons x cs =>
        simp only [casesOf, attr, item_says hc, Y.wrap] at he
        cases he
    · simp only [casesOf, attr, item_says hm, Y.wrap] at he
      refine hfind (some m) (proper_pattern ⟨_, Names.parse_input⟩ rfl (hk _ (.inl rfl)))
        (proper_pattern ⟨_, Names.parse_output⟩ rfl (hk _ (.inr rfl))) ?_ f hf he
      cases m with
      | nil => exact ⟨_, rfl⟩
      | cons x m =>
        rcases hpt with ⟨h1, h2⟩ | ⟨ps, h1⟩
        · unfold Silent at h1
          have h2 := item_silent (meta_ := meta_) h2 rfl
          simp only [withDefault, h1, h2, Y.truthy, Bool.false_eq_true, if_false]
          exact ⟨_, rfl⟩
        · unfold Says at h1
          simp only [withDefault, h1]
          cases ps with
          | nil => exact ⟨_, rfl⟩
          | cons y ps => exact ⟨_, rfl⟩
  rcases harch with ha | ha | ⟨names, hz, ha⟩
  · simp only [ha] at he
    split at he
    · rename_i e' he'
      cases he
      exact hcases none (by simp) he'
    · cases he
  · simp only [ha, Except.error.injEq] at he
    exact .inl he.symm
  · simp only [ha] at he
    split at he
    · rename_i e' he'
      cases he
      exact hcases (some names) (by rintro _ ⟨⟩; exact hz) he'
    · cases he

/-! ## Concrete problems -/

/-- Everything in place, and this document. -/
def world (y : Yaml) : World where
  root := true
  init := some y
  archive s := if s = "a.zip" then .zip ["a.1.in", "a.1.out", "a.2.in", "a.2.out"] else .missing
  u := Names.ascii
  int := Names.readDec
  compile _ := none

/-- Cases found, with their points. -/
example : load (world (.doc (.map [("archive", .str "a.zip"), ("points", .num 7)]))) .null =
    .ok ⟨cfg .null [("archive", .str "a.zip"), ("points", .num 7)], some ["a.1.in", "a.1.out", "a.2.in", "a.2.out"],
      .found [.single ⟨some "a.1.in", some "a.1.out"⟩ (.num 7), .single ⟨some "a.2.in", some "a.2.out"⟩ (.num 7)]⟩ := by
  obtain ⟨es, h1, h2⟩ := C103_guessed (w := world (.doc (.map [("archive", .str "a.zip"), ("points", .num 7)]))) (meta_ := .null)
    ⟨rfl, rfl, by simp⟩ ⟨rfl, rfl⟩ ⟨"a.zip", by decide, rfl, rfl⟩ Names.readDec_reads (by decide)
  rw [h2]
  rw [Names.guess_eq, Option.some.injEq] at h1
  have : Problem.matchTestCases Names.readDec ["a.1.in", "a.1.out", "a.2.in", "a.2.out"]
      (Names.default Names.ascii Names.inputPattern) (Names.default Names.ascii Names.outputPattern) (fun _ => some (Y.num 7)) =
      .ok [.single ⟨some "a.1.in", some "a.1.out"⟩ (.num 7), .single ⟨some "a.2.in", some "a.2.out"⟩ (.num 7)] := by rfl
  have e : es = [.single ⟨some "a.1.in", some "a.1.out"⟩ (.num 7), .single ⟨some "a.2.in", some "a.2.out"⟩ (.num 7)] := by
    have := h1.symm.trans this
    cases this; rfl
  rw [e]

/-- Points and a format of its own, the other format from beside `test_cases`. -/
def picky : World := { world (.doc (.map [("archive", .str "a.zip"), ("output_format", .str "o"),
  ("test_cases", .map [("input_format", .str "i"), ("case_points", .list [.num 3, .num 4])])])) with
    compile := fun s => if s = "i" then some (Names.default Names.ascii Names.inputPattern) else
      some (Names.default Names.ascii Names.outputPattern) }

example : load picky .null = .ok ⟨cfg .null [("archive", .str "a.zip"), ("output_format", .str "o"),
      ("test_cases", .map [("input_format", .str "i"), ("case_points", .list [.num 3, .num 4])])],
      some ["a.1.in", "a.1.out", "a.2.in", "a.2.out"],
      .found [.single ⟨some "a.1.in", some "a.1.out"⟩ (.num 3), .single ⟨some "a.2.in", some "a.2.out"⟩ (.num 4)]⟩ :=
  (C103_formats (w := picky) ⟨rfl, rfl, by simp⟩ ⟨"a.zip", by decide, rfl, rfl⟩ rfl (by simp)
    (.inl ⟨"i", by decide, .inl rfl, rfl⟩) (.inl ⟨"o", by decide, .inr ⟨rfl, rfl⟩, rfl⟩)
    (.inl ⟨[.num 3, .num 4], by simp, .inl rfl, rfl⟩)).1 _ rfl

/-- **C103**: test cases under the name with a hyphen are taken as well. -/
theorem C103_hyphen (h : Document w l) (hs : Silent l "test_cases") {cs : List Y} (hne : cs ≠ [])
    (hc : Says l "test-cases" (.list cs)) (ha : Silent l "archive") : load w meta_ = .ok ⟨cfg meta_ l, none, .given cs⟩ := by
  have hw : (Y.list cs).wrap = .list cs := by
    cases cs with
    | nil => exact absurd rfl hne
    | cons a cs => rfl
  have h1 : item (cfg meta_ l) "test_cases" = .null := item_silent hs rfl
  simp only [load_eq h, resolve, archive_silent ha, casesOf, attr, h1, hyphens_cases, item_says hc, hw]

example : load (world (.doc (.map [("test-cases", .list [.num 1])]))) .null =
    .ok ⟨cfg .null [("test-cases", .list [.num 1])], none, .given [.num 1]⟩ :=
  C103_hyphen (w := world (.doc (.map [("test-cases", .list [.num 1])]))) ⟨rfl, rfl, by simp⟩ rfl (by simp) rfl rfl

/-- A list of cases. -/
example : load (world (.doc (.map [("test_cases", .list [.map [("in", .str "x")]])]))) .null =
    .ok ⟨cfg .null [("test_cases", .list [.map [("in", .str "x")]])], none, .given [.map [("in", .str "x")]]⟩ :=
  (C103_given (w := world (.doc (.map [("test_cases", .list [.map [("in", .str "x")]])]))) ⟨rfl, rfl, by simp⟩ (by simp) rfl).1 rfl

/-- **C103 fails**: an empty list of test cases is taken for none at all, and cases are looked for in the archive. -/
theorem C103_empty_fails : ∃ (w : World) (l : List (String × Y)) (r : Loaded), Document w l ∧ Says l "test_cases" (.list []) ∧
    load w .null = .ok r ∧ ∃ a b, r.cases = .found [a, b] :=
  ⟨world (.doc (.map [("archive", .str "a.zip"), ("test_cases", .list [])])), _,
    ⟨_, some ["a.1.in", "a.1.out", "a.2.in", "a.2.out"],
      .found [.single ⟨some "a.1.in", some "a.1.out"⟩ (.num 1), .single ⟨some "a.2.in", some "a.2.out"⟩ (.num 1)]⟩,
    ⟨rfl, rfl, by simp⟩, rfl, rfl, _, _, rfl⟩

/-- **C103 fails**: other errors for a problem that does not exist, a document that is no dictionary, YAML with an unknown tag or alias,
test cases that are a text, a format that is no pattern, fewer points than cases, and an archive that is a directory. -/
theorem C103_raises_fails :
    load { world (.doc .null) with root := false } .null = .error .keyError ∧
    load (world .otherError) .null = .error .yamlError ∧
    load (world (.doc (.num 5))) .null = .error .typeError ∧
    load (world (.doc (.str "archive"))) .null = .error .valueError ∧
    load (world (.doc (.map [("archive", .str "a.zip"), ("test_cases", .str "all")]))) .null = .error .attributeError ∧
    load (world (.doc (.map [("archive", .str "a.zip"), ("test_cases", .map [("input_format", .str "(")])]))) .null = .error .reError ∧
    load (world (.doc (.map [("archive", .str "a.zip"), ("test_cases", .map [("case_points", .list [.num 1])])]))) .null =
      .error .stopIteration ∧
    load { world (.doc (.map [("archive", .str "tests")])) with archive := fun _ => .unreadable } .null = .error .osError :=
  ⟨rfl, rfl, rfl, rfl, rfl, rfl, rfl, rfl⟩

/-- Those settings that are refused although `Proper`: the hypotheses of `C103_raises_partial` are met. -/
example : Proper (world (.doc (.map [("archive", .str "b.zip")]))) [("archive", .str "b.zip")] ∧
    load (world (.doc (.map [("archive", .str "b.zip")]))) .null = .error .invalidInit :=
  ⟨⟨.inr ⟨_, rfl, by simp [world]⟩, .inl ⟨rfl, rfl⟩⟩, rfl⟩

theorem pairs_of (ps : List (String × Y)) : pairs (ps.map fun p => .list [.str p.1, p.2]) = .ok ps := by
  induction ps with
  | nil => rfl
  | cons p ps ih => simp [pairs, pairOf, ih]

theorem lookup_of_mem {ps : List (String × Y)} (hd : (ps.map (·.1)).Nodup) {k : String} {v : Y} (h : (k, v) ∈ ps) : ps.lookup k = some v := by
  induction ps with
  | nil => cases h
  | cons p ps ih =>
    obtain ⟨k', v'⟩ := p
    simp only [List.map_cons, List.nodup_cons, List.mem_map, not_exists, not_and] at hd
    rcases List.mem_cons.1 h with h | h
    · cases h; simp
    · have : k ≠ k' := fun e => hd.1 _ h e
      rw [List.lookup_cons]
      simp only [beq_eq_false_iff_ne.2 this]
      exact ih hd.2 h

/-- **C103 fails**: a document that is a list of pairs is taken for a dictionary, and its settings hold; but for it a `signature_grader` is
not seen: the first 64 bytes of the output are shown although it is graded by signature. -/
theorem C103_pairs_fails (ps : List (String × Y)) (hne : ps ≠ []) (hd : (ps.map (·.1)).Nodup) (hr : w.root = true)
    (hi : w.init = some (.doc (.list (ps.map fun p => .list [.str p.1, p.2])))) (ha : ∀ v, ("archive", v) ∉ ps) (cs : List Y) (hcs : cs ≠ [])
    (hc : ("test_cases", .list cs) ∈ ps) :
    ∃ r, load w meta_ = .ok r ∧ r.cases = .given cs ∧ (∀ k v, (k, v) ∈ ps → Says r.config k v) ∧
      ((∀ v, ("output_prefix_length", v) ∉ ps) → Says r.config "output_prefix_length" (.num 64)) := by
  have hin : inDoc "signature_grader" (.list (ps.map fun p => .list [.str p.1, p.2])) = some false := by
    simp only [inDoc, Option.some.injEq, List.any_eq_false, List.mem_map]
    rintro _ ⟨p, -, rfl⟩
    simp
  have hcfg : configOf meta_ (.list (ps.map fun p => .list [.str p.1, p.2])) = .ok (ps.reverse ++ defaults meta_ false) := by
    rw [configOf, hin]
    simp only [pairs_of]
  have hmem : ∀ k v, (k, v) ∈ ps → (ps.reverse ++ defaults meta_ false).lookup k = some v := by
    intro k v h
    have hd' : (ps.reverse.map (·.1)).Nodup := by rw [List.map_reverse]; exact List.nodup_reverse.2 hd
    rw [lookup_append, lookup_of_mem hd' (List.mem_reverse.2 h)]
    rfl
  have hnot : ∀ k, (∀ v, (k, v) ∉ ps) → ps.reverse.lookup k = none := by
    intro k h
    rw [List.lookup_eq_none_iff]
    rintro ⟨k', v⟩ hp
    simp only [List.mem_reverse] at hp
    simp only [bne_iff_ne, ne_eq, Bool.not_eq_true]
    rintro rfl
    exact h v hp
  have htr : (Y.list (ps.map fun p => .list [.str p.1, p.2])).truthy = true := by
    cases ps with
    | nil => exact absurd rfl hne
    | cons => rfl
  have harch : attr (ps.reverse ++ defaults meta_ false) "archive" = .null := by
    rw [attr_same hyphens_archive, item, lookup_append, hnot _ ha]; rfl
  have hwrap : (Y.list cs).wrap = .list cs := by
    cases cs with
    | nil => exact absurd rfl hcs
    | cons => rfl
  have hcases : attr (ps.reverse ++ defaults meta_ false) "test_cases" = .list cs := by
    have : item (ps.reverse ++ defaults meta_ false) "test_cases" = .list cs := by
      rw [item, hmem _ _ hc]; exact hwrap
    rw [attr, this]
  refine ⟨⟨ps.reverse ++ defaults meta_ false, none, .given cs⟩, ?_, rfl, hmem, fun h => ?_⟩
  · rw [load, if_pos hr, hi]
    simp only [htr, if_true, hcfg, resolve, archiveOf, harch, Y.truthy, Bool.false_eq_true, if_false, casesOf, hcases]
    exact if_pos htr
  · rw [Says, lookup_append, hnot _ h]; rfl

example : ∃ r, load (world (.doc (.list [.list [.str "test_cases", .list [.num 1]], .list [.str "signature_grader", .map [("x", .num 1)]]]))) .null = .ok r ∧
    r.cases = .given [.num 1] ∧ Says r.config "output_prefix_length" (.num 64) :=
  have ⟨r, h1, h2, _, h4⟩ := C103_pairs_fails (meta_ := .null)
    (w := world (.doc (.list [.list [.str "test_cases", .list [.num 1]], .list [.str "signature_grader", .map [("x", .num 1)]]])))
    [("test_cases", .list [.num 1]), ("signature_grader", .map [("x", .num 1)])] (by simp) (by simp) rfl rfl (by simp) [.num 1] (by simp) (by simp)
  ⟨r, h1, h2, h4 (by simp)⟩

theorem pairOf_iff (y : Y) : (∃ p, pairOf y = .ok p) ↔ PairLike y := by
  constructor
  · rintro ⟨p, h⟩
    unfold pairOf at h
    split at h
    · exact .list _ _ (.str _)
    · cases h
    · cases h
    · next x v h1 h2 h3 =>
      refine .list x v ?_
      cases x with
      | null => exact .null
      | bool b => exact .bool b
      | num n => exact .num n
      | str s => exact absurd rfl (h1 s)
      | list l => exact absurd rfl (h2 l)
      | map l => exact absurd rfl (h3 l)
    · cases h
    · exact .keys _ _
    · cases h
    · split at h
      · next hs => exact .letters _ _ _ hs
      · cases h
    · cases h
  · rintro (⟨k, v, hk⟩ | ⟨⟨a, x⟩, ⟨b, z⟩⟩ | ⟨s, a, b, hs⟩)
    · cases hk <;> exact ⟨_, rfl⟩
    · exact ⟨_, rfl⟩
    · exact ⟨some (String.singleton a, .str (String.singleton b)), by simp only [pairOf, hs]⟩

theorem pairs_iff (l : List Y) : (∃ r, pairs l = .ok r) ↔ ∀ y ∈ l, PairLike y := by
  induction l with
  | nil => exact ⟨by simp, fun _ => ⟨[], rfl⟩⟩
  | cons y l ih =>
    have hy := pairOf_iff y
    simp only [List.mem_cons, forall_eq_or_imp, ← ih, ← hy, pairs]
    constructor
    · rintro ⟨r, h⟩
      split at h
      · cases h
      · next p hp =>
        split at h
        · cases h
        · next r' hr' => exact ⟨⟨p, hp⟩, r', hr'⟩
    · rintro ⟨⟨p, hp⟩, r, hr⟩
      exact ⟨_, by rw [hp, hr]⟩

/-- C103.  Of the documents that are lists, exactly those whose elements all count as pairs are taken for dictionaries; the problem cannot be loaded from the
others. -/
theorem C103_list (ys : List Y) : (∃ c, configOf meta_ (.list ys) = .ok c) ↔ ∀ y ∈ ys, PairLike y := by
  rw [← pairs_iff]
  simp only [configOf, inDoc]
  constructor
  · rintro ⟨c, h⟩
    split at h
    · cases h
    · next r hr => exact ⟨r, hr⟩
  · rintro ⟨r, hr⟩
    exact ⟨_, by rw [hr]⟩

/-- C103.  So the problem cannot be loaded from the others. -/
theorem C103_list_refused (ys : List Y) (hi : w.init = some (.doc (.list ys))) (hn : ∃ y ∈ ys, ¬ PairLike y) : ∃ e, load w meta_ = .error e := by
  have hc : ∀ c, configOf meta_ (.list ys) ≠ .ok c := by
    intro c h
    obtain ⟨y, hy, hp⟩ := hn
    exact hp ((C103_list ys).1 ⟨c, h⟩ y hy)
  rw [load, hi]
  split
  · simp only
    split
    · split
      · exact ⟨_, rfl⟩
      · next c h => exact absurd h (hc c)
    · exact ⟨_, rfl⟩
  · exact ⟨_, rfl⟩

/-- A dictionary as a key. -/
example : ¬ PairLike (.list [.map [("a", .null)], .num 1]) ∧ PairLike (.str "ab") ∧ ¬ PairLike (.str "abc") := by
  refine ⟨?_, .letters _ 'a' 'b' (by decide +kernel), ?_⟩
  · rintro (⟨_, _, hk⟩ | _ | _); cases hk
  · rintro (_ | _ | ⟨_, a, b, hs⟩)
    have : "abc".toList = ['a', 'b', 'c'] := by decide +kernel
    rw [this] at hs; cases hs

theorem truthy_iff (y : Y) : y.truthy = false ↔ Nothing y := by
  constructor
  · intro h
    cases y with
    | null => exact .null
    | bool b => cases b <;> first | exact .false | cases h
    | num n =>
      have : n = 0 := by simpa [Y.truthy] using h
      subst this; exact .zero
    | str t =>
      have : t = "" := by simpa [Y.truthy] using h
      subst this; exact .text
    | list l =>
      have : l = [] := by simpa [Y.truthy] using h
      subst this; exact .list
    | map l =>
      have : l = [] := by simpa [Y.truthy] using h
      subst this; exact .map
  · rintro ⟨⟩ <;> simp [Y.truthy]

/-- **C103**: a document that is a single value is refused as an invalid `init.yml` exactly if it counts as none (nothing, `false`, 0, an empty text);
every other is refused with another error, so that the reason given is not that of the user's mistake. -/
theorem C103_scalar (y : Y) (hr : w.root = true) (hi : w.init = some (.doc y)) (hl : ∀ ys, y ≠ .list ys) (hm : ∀ l, y ≠ .map l) :
    (load w meta_ = .error .invalidInit ↔ Nothing y) ∧ (¬ Nothing y → load w meta_ = .error .typeError ∨ load w meta_ = .error .valueError) := by
  have key : ¬ Nothing y → load w meta_ = .error .typeError ∨ load w meta_ = .error .valueError := by
    intro hn
    have ht : y.truthy = true := by
      cases h : y.truthy with
      | true => rfl
      | false => exact absurd ((truthy_iff y).1 h) hn
    rw [load, if_pos hr, hi]
    simp only [ht, if_true]
    rw [configOf]
    cases inDoc "signature_grader" y with
    | none => exact .inl rfl
    | some b =>
      cases y with
      | list ys => exact absurd rfl (hl ys)
      | map l => exact absurd rfl (hm l)
      | _ => exact .inr rfl
  refine ⟨⟨fun h => ?_, fun h => ?_⟩, key⟩
  · by_contra hn
    rcases key hn with h' | h' <;> rw [h] at h' <;> cases h'
  · rw [load, if_pos hr, hi]
    simp only [(truthy_iff y).2 h, Bool.false_eq_true, if_false]

example : Nothing (.num 0) ∧ ¬ Nothing (.num 5) := ⟨.zero, fun h => by cases h⟩

/-- **C103**: an archive that counts as none is none. -/
theorem C103_no_archive (h : Document w l) {y : Y} (ha : Says l "archive" y) (hy : Nothing y) {cs : List Y} (hne : cs ≠ [])
    (hc : Says l "test_cases" (.list cs)) : load w meta_ = .ok ⟨cfg meta_ l, none, .given cs⟩ := by
  have hw : (Y.list cs).wrap = .list cs := by
    cases cs with
    | nil => exact absurd rfl hne
    | cons a cs => rfl
  have hcases : ∀ f, casesOf w (cfg meta_ l) f = .ok (.given cs) := by
    intro f
    simp only [casesOf, attr, item_says hc, hw]
  have hat : (attr (cfg meta_ l) "archive").truthy = false := by
    have hh : hyphens "archive" = "archive" := by decide +kernel
    rw [attr_same hh, item_says ha]
    cases hy <;> simp [Y.wrap, Y.truthy]
  simp only [load_eq h, resolve, archiveOf, hat, Bool.false_eq_true, if_false, hcases]

example : Document (world (.doc (.map [("archive", .num 0), ("test_cases", .list [.null])]))) [("archive", .num 0), ("test_cases", .list [.null])]
    ∧ Says [("archive", .num 0), ("test_cases", .list [.null])] "archive" (.num 0)
    ∧ Says [("archive", .num 0), ("test_cases", .list [.null])] "test_cases" (.list [.null]) := by
  exact ⟨⟨rfl, rfl, by simp⟩, rfl, rfl⟩

/-- **C103** (fails): a format that is no pattern, and one that is not even a text, are errors of the configuration, but none is reported as such: the
exceptions are those of the library of patterns. -/
theorem C103_format_fails (h : Document w l) {names : List String} (ha : HasArchive w l names) {m : List (String × Y)}
    (hm : Says l "test_cases" (.map m)) (hne : m ≠ []) {v : Y} (hv : Effective l m "input_format" v) (hn : ¬ Nothing v) :
    (∀ s, v = .str s → w.compile s = none → load w meta_ = .error .reError) ∧ ((∀ s, v ≠ .str s) → load w meta_ = .error .typeError) := by
  obtain ⟨s, hs, ha, hz⟩ := ha
  have ht : v.truthy = true := by
    cases e : v.truthy with
    | true => rfl
    | false => exact absurd ((truthy_iff v).1 e) hn
  have hw : v.wrap = v := by
    cases v with
    | list ys => cases ys with
      | nil => cases ht
      | cons y ys => rfl
    | _ => rfl
  have hd := withDefault_effective (meta_ := meta_) hne hv (by rw [hw]; exact ht)
  rw [hw] at hd
  constructor
  · rintro t rfl hc
    simp only [load_eq h, resolve, archive_says hs ha hz, casesOf, attr, item_says hm, Y.wrap, find, hd, pattern, hc]
  · intro hv
    have hp : ∀ d, pattern w d (some v) = .error .typeError := by
      intro d
      cases v with
      | str t => exact absurd rfl (hv t)
      | _ => rfl
    simp only [load_eq h, resolve, archive_says hs ha hz, casesOf, attr, item_says hm, Y.wrap, find, hd, hp]

example : HasArchive (world (.doc .null)) [("archive", .str "a.zip"), ("test_cases", .map [("input_format", .num 7)])]
      ["a.1.in", "a.1.out", "a.2.in", "a.2.out"]
    ∧ Effective [("archive", .str "a.zip"), ("test_cases", .map [("input_format", .num 7)])] [("input_format", .num 7)] "input_format" (.num 7)
    ∧ ¬ Nothing (.num 7) :=
  ⟨⟨"a.zip", by simp, rfl, rfl⟩, .inl rfl, fun h => by cases h⟩

theorem truthy_of {v : Y} (hn : ¬ Nothing v) : v.truthy = true ∧ v.wrap = v := by
  have ht : v.truthy = true := by
    cases e : v.truthy with
    | true => rfl
    | false => exact absurd ((truthy_iff v).1 e) hn
  refine ⟨ht, ?_⟩
  cases v with
  | list ys => cases ys with
    | nil => cases ht
    | cons y ys => rfl
  | _ => rfl

/-- **C103** (fails): an archive that is not a text is an error of the configuration, too, and not reported as such. -/
theorem C103_archive_fails (h : Document w l) {v : Y} (ha : Says l "archive" v) (hn : ¬ Nothing v) (hv : ∀ s, v ≠ .str s) :
    load w meta_ = .error .typeError := by
  obtain ⟨ht, hw⟩ := truthy_of hn
  have hh : hyphens "archive" = "archive" := by decide +kernel
  have hat : attr (cfg meta_ l) "archive" = v := by rw [attr_same hh, item_says ha, hw]
  have : archiveOf w (cfg meta_ l) = .error .typeError := by
    simp only [archiveOf, hat, ht, if_true]
  simp only [load_eq h, resolve, this]

example : Says [("archive", .list [.str "a.zip"])] "archive" (.list [.str "a.zip"]) ∧ ¬ Nothing (.list [.str "a.zip"]) :=
  ⟨rfl, fun h => by cases h⟩

/-- **C103**: points that are not a list: of a dictionary the keys are taken, not the values, and of a text its letters, each as a text; a number or a
boolean is refused, although it could be meant as the points of each case, and not as an error of the configuration. -/
theorem C103_points (h : Document w l) {names : List String} (ha : HasArchive w l names) {m : List (String × Y)}
    (hm : Says l "test_cases" (.map m)) (hne : m ≠ []) {i o : Problem.Pattern}
    (hi : FormatIs w l m "input_format" (Names.default w.u Names.inputPattern) i)
    (ho : FormatIs w l m "output_format" (Names.default w.u Names.outputPattern) o) {v : Y} (hv : Effective l m "case_points" v) (hn : ¬ Nothing v) :
    (∀ d f, v = .map d → (∀ k, f k = (d.map fun e => Y.str e.1)[k]?) → ∀ es, Problem.matchTestCases w.int names i o f = .ok es →
      load w meta_ = .ok ⟨cfg meta_ l, some names, .found es⟩) ∧
    (∀ s f, v = .str s → (∀ k, f k = (s.toList.map fun c => Y.str (String.ofList [c]))[k]?) → ∀ es, Problem.matchTestCases w.int names i o f = .ok es →
      load w meta_ = .ok ⟨cfg meta_ l, some names, .found es⟩) ∧
    ((∃ n, v = .num n) ∨ (∃ b, v = .bool b) → load w meta_ = .error .typeError) := by
  obtain ⟨s, hs, ha, hz⟩ := ha
  have h1 := formatIs (meta_ := meta_) hne rfl pattern_input hi
  have h2 := formatIs (meta_ := meta_) hne rfl pattern_output ho
  obtain ⟨ht, hw⟩ := truthy_of hn
  have hd := withDefault_effective (meta_ := meta_) hne hv (by rw [hw]; exact ht)
  rw [hw] at hd
  refine ⟨?_, ?_, ?_⟩
  · rintro d f rfl hf es he
    have h3 : pointsOf (cfg meta_ l) (some (.map d)) = .ok f := by
      rw [pointsOf]; congr 1; funext k; rw [hf k, List.getElem?_map]
    simp only [load_eq h, resolve, archive_says hs ha hz, casesOf, attr, item_says hm, Y.wrap, find, h1, h2, hd, h3, he]
  · rintro t f rfl hf es he
    have h3 : pointsOf (cfg meta_ l) (some (.str t)) = .ok f := by
      rw [pointsOf]; congr 1; funext k; rw [hf k, List.getElem?_map]; rfl
    simp only [load_eq h, resolve, archive_says hs ha hz, casesOf, attr, item_says hm, Y.wrap, find, h1, h2, hd, h3, he]
  · rintro (⟨n, rfl⟩ | ⟨b, rfl⟩) <;>
      simp only [load_eq h, resolve, archive_says hs ha hz, casesOf, attr, item_says hm, Y.wrap, find, h1, h2, hd, pointsOf]

/-- Two letters for the points of the two cases of an archive. -/
example : ∃ r a b, load (world (.doc (.map [("archive", .str "a.zip"), ("test_cases", .map [("case_points", .str "37")])]))) .null = .ok r
    ∧ r.cases = .found [a, b] ∧ Effective [("archive", .str "a.zip"), ("test_cases", .map [("case_points", .str "37")])] [("case_points", .str "37")] "case_points" (.str "37") :=
  ⟨⟨_, _, .found [_, _]⟩, _, _, rfl, rfl, .inl rfl⟩

end Verif.Load
