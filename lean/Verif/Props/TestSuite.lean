import Verif.Spec.TestSuite
import Mathlib.Tactic.SplitIfs
import Mathlib.Tactic.Common
import Mathlib.Data.List.Basic

/-!
# C54 Regression-suite expectations
-/

namespace Verif.TestSuite
open Spec

private theorem isKey_iff (pos : Int) (k : Scalar) : isKey pos k = true ↔ KeyIs pos k := by
  unfold isKey KeyIs
  cases k with
  | bool b => cases b <;> simp [Bool.toInt, eq_comm]
  | _ => simp

private theorem applies_iff {α : Type} (all : α) (d : List (Scalar × α)) (pos : Int) (x : α) :
    Applies all d pos x ↔ x = (lookup pos d).getD all := by
  unfold lookup
  cases h : d.find? (fun p => isKey pos p.1) with
  | none =>
    have hn : ∀ q ∈ d, ¬ KeyIs pos q.1 := by
      intro q hq hk
      have := List.find?_eq_none.1 h q hq
      exact this ((isKey_iff pos q.1).2 hk)
    constructor
    · rintro (⟨pre, k, post, rfl, hk, _⟩ | ⟨hx, _⟩)
      · exact absurd hk (hn (k, x) (by simp))
      · exact hx
    · intro hx
      exact .inr ⟨hx, hn⟩
  | some q =>
    obtain ⟨hk0, as, bs, rfl, hpre0⟩ := List.find?_eq_some_iff_append.1 h
    have hk : KeyIs pos q.1 := (isKey_iff _ _).1 hk0
    have hpre : ∀ p ∈ as, ¬ KeyIs pos p.1 := fun p hp hkp => by
      have := hpre0 p hp
      rw [(isKey_iff _ _).2 hkp] at this
      exact nomatch this
    constructor
    · rintro (⟨pre, k, post, e, hk', hpre'⟩ | ⟨_, hn⟩)
      · -- the first entry with the key is unique
        show x = q.2
        clear h hpre0
        induction as generalizing pre with
        | nil =>
          cases pre with
          | nil => cases e; rfl
          | cons p pre =>
            simp only [List.nil_append, List.cons_append, List.cons.injEq] at e
            exact absurd (e.1 ▸ hk) (hpre' p (by simp))
        | cons a as ih =>
          cases pre with
          | nil =>
            simp only [List.nil_append, List.cons_append, List.cons.injEq] at e
            exact absurd (e.1 ▸ hk') (hpre a (by simp))
          | cons p pre =>
            simp only [List.cons_append, List.cons.injEq] at e
            exact ih (fun p hp => hpre p (by simp [hp])) pre e.2 (fun p hp => hpre' p (by simp [hp]))
      · exact absurd hk (hn q (by simp))
    · intro hx
      left
      exact ⟨as, q.1, bs, by rw [show x = q.2 from hx], hk, hpre⟩

private theorem lookup_mem {α : Type} {pos : Int} {d : List (Scalar × α)} {x : α} (h : lookup pos d = some x) : ∃ k, (k, x) ∈ d := by
  unfold lookup at h
  obtain ⟨q, hq, rfl⟩ := Option.map_eq_some_iff.1 h
  exact ⟨q.1, List.mem_of_find?_eq_some hq⟩

/-- Exactly one expectation of each kind holds for a case. -/
theorem C54_applies {α : Type} (all : α) (d : List (Scalar × α)) (pos : Int) : ∃! x, Applies all d pos x :=
  ⟨(lookup pos d).getD all, (applies_iff _ _ _ _).2 rfl, fun _ h => (applies_iff _ _ _ _).1 h⟩

private theorem met_case (contains : String → String → Bool) (e : Expected) (pos : Int) (code : String) (points : Rat) (feedback : String) :
    Met contains e (.case pos code points feedback) ↔
      code ∈ (lookup pos e.codesCases).getD e.codesAll ∧
      (∀ s, (lookup pos e.pointsCases).getD e.pointsAll = some s → ∃ n ∈ s, (n : Rat) = points) ∧
      ∀ s, (lookup pos e.feedbackCases).getD e.feedbackAll = some s → .str feedback ∈ s := by
  unfold Met
  simp only [applies_iff, exists_eq_left]

private theorem code_step (e : Expected) (pos : Int) (code : String) (failed : Bool) :
    checkCode e pos code failed = some (if code ∈ (lookup pos e.codesCases).getD e.codesAll then failed else true) := by
  unfold checkCode
  cases lookup pos e.codesCases <;> simp only [Option.getD_none, Option.getD_some] <;> split_ifs <;> rfl

private theorem hasPoints_iff (s : PSet Int) (p : Rat) : hasPoints s p = true ↔ ∃ n ∈ s, (n : Rat) = p := by
  simp [hasPoints]

private theorem points_ok (e : Expected) (hs : Sane e) (pos : Int) (points : Rat) (failed : Bool)
    (h : ∀ s, (lookup pos e.pointsCases).getD e.pointsAll = some s → ∃ n ∈ s, (n : Rat) = points) :
    checkPoints e pos points failed = some failed := by
  unfold checkPoints
  cases hl : lookup pos e.pointsCases with
  | none =>
    rw [hl] at h
    cases ha : e.pointsAll with
    | none => rfl
    | some s =>
      have := (hasPoints_iff s points).2 (h s ha)
      simp [this]
  | some o =>
    cases o with
    | none =>
      obtain ⟨k, hk⟩ := lookup_mem hl
      exact absurd hk (hs.pointsCases k)
    | some s =>
      rw [hl] at h
      have := (hasPoints_iff s points).2 (h s rfl)
      simp [this]

private theorem points_bad (e : Expected) (hs : Sane e) (pos : Int) (points : Rat) (failed : Bool)
    (h : ¬ ∀ s, (lookup pos e.pointsCases).getD e.pointsAll = some s → ∃ n ∈ s, (n : Rat) = points) :
    checkPoints e pos points failed = some true ∨ checkPoints e pos points failed = none ∧ "IE" ∉ e.codesAll := by
  have h : ∃ s, (lookup pos e.pointsCases).getD e.pointsAll = some s ∧ hasPoints s points = false := by
    apply Classical.byContradiction
    intro hn
    refine h fun s hs => (hasPoints_iff s points).1 ?_
    apply Classical.byContradiction
    intro hp
    exact hn ⟨s, hs, by simpa using hp⟩
  obtain ⟨s, h1, h2⟩ := h
  unfold checkPoints
  cases hl : lookup pos e.pointsCases with
  | none =>
    rw [hl] at h1
    rw [show e.pointsAll = some s from h1]
    simp [h2]
  | some o =>
    rw [hl] at h1
    rw [show o = some s from h1]
    simp only [h2]
    have hi : "IE" ∉ e.codesAll := by
      intro hi
      obtain ⟨k, hk⟩ := lookup_mem hl
      rw [hs.points hi] at hk
      exact nomatch hk
    by_cases hnil : s = []
    · left; simp [hnil]
    · right; exact ⟨by simp [hnil], hi⟩

private theorem feedback_step (e : Expected) (hs : Sane e) (pos : Int) (feedback : String) (failed : Bool) :
    ((∀ s, (lookup pos e.feedbackCases).getD e.feedbackAll = some s → .str feedback ∈ s) → checkFeedback e pos feedback failed = some failed) ∧
    ((¬ ∀ s, (lookup pos e.feedbackCases).getD e.feedbackAll = some s → .str feedback ∈ s) → checkFeedback e pos feedback failed = some true) := by
  have hstr : ∀ s, (lookup pos e.feedbackCases).getD e.feedbackAll = some s → joins s = true := by
    intro s h
    have : Strings s := by
      cases hl : lookup pos e.feedbackCases with
      | none => rw [hl] at h; exact hs.feedbackAll s h
      | some o =>
        rw [hl] at h
        obtain ⟨k, hk⟩ := lookup_mem hl
        rw [show o = some s from h] at hk
        exact hs.feedbackCases k s hk
    unfold joins
    rw [List.all_eq_true]
    intro x hx
    obtain ⟨t, rfl⟩ := this x hx
    rfl
  unfold checkFeedback
  cases hf : (lookup pos e.feedbackCases).getD e.feedbackAll with
  | none => exact ⟨fun _ => rfl, fun h => absurd (fun s hs => (nomatch hs)) h⟩
  | some s =>
    simp only
    refine ⟨fun h => by rw [if_neg (not_not_intro (h s rfl))], fun h => ?_⟩
    have : Scalar.str feedback ∉ s := fun hm => h fun s' e => by cases e; exact hm
    rw [if_pos this, if_pos (hstr s hf)]

private theorem case_met (contains : String → String → Bool) (e : Expected) (hs : Sane e) (pos : Int) (code : String) (points : Rat)
    (feedback : String) (failed : Bool) (h : Met contains e (.case pos code points feedback)) :
    casePacket e pos code points feedback failed = (failed, true) := by
  obtain ⟨h1, h2, h3⟩ := (met_case _ _ _ _ _ _).1 h
  unfold casePacket
  rw [code_step, if_pos h1]
  simp only [points_ok e hs pos points failed h2, (feedback_step e hs pos feedback failed).1 h3]

private theorem case_unmet (contains : String → String → Bool) (e : Expected) (hs : Sane e) (pos : Int) (code : String) (points : Rat)
    (feedback : String) (failed : Bool) (h : ¬ Met contains e (.case pos code points feedback)) :
    casePacket e pos code points feedback failed = (true, true) ∨ (casePacket e pos code points feedback failed).2 = false ∧ "IE" ∉ e.codesAll := by
  rw [met_case] at h
  unfold casePacket
  rw [code_step]
  simp only
  generalize hf1 : (if code ∈ (lookup pos e.codesCases).getD e.codesAll then failed else true) = f1
  by_cases h2 : ∀ s, (lookup pos e.pointsCases).getD e.pointsAll = some s → ∃ n ∈ s, (n : Rat) = points
  · simp only [points_ok e hs pos points f1 h2]
    by_cases h3 : ∀ s, (lookup pos e.feedbackCases).getD e.feedbackAll = some s → .str feedback ∈ s
    · simp only [(feedback_step e hs pos feedback f1).1 h3]
      left
      have h1 : code ∉ (lookup pos e.codesCases).getD e.codesAll := fun h1 => h ⟨h1, h2, h3⟩
      rw [if_neg h1] at hf1
      rw [← hf1]
    · simp only [(feedback_step e hs pos feedback f1).2 h3]
      left; trivial
  · rcases points_bad e hs pos points f1 h2 with h4 | ⟨h4, h5⟩
    · simp only [h4]
      by_cases h3 : ∀ s, (lookup pos e.feedbackCases).getD e.feedbackAll = some s → .str feedback ∈ s
      · simp only [(feedback_step e hs pos feedback true).1 h3]
        left; trivial
      · simp only [(feedback_step e hs pos feedback true).2 h3]
        left; trivial
    · simp only [h4]
      right
      exact ⟨trivial, h5⟩

private theorem anyIn_strings (contains : String → String → Bool) (m : String) (s : PSet Scalar) (h : Strings s) :
    ∃ r, anyIn contains m s = some r ∧ (r = true ↔ ∃ t, .str t ∈ s ∧ contains t m = true) := by
  induction s with
  | nil => exact ⟨false, rfl, by simp⟩
  | cons x s ih =>
    obtain ⟨t, rfl⟩ := h x (by simp)
    obtain ⟨r, h1, h2⟩ := ih fun y hy => h y (by simp [hy])
    unfold anyIn
    by_cases hc : contains t m = true
    · rw [if_pos hc]
      exact ⟨true, rfl, fun _ => ⟨t, by simp, hc⟩, fun _ => rfl⟩
    · rw [if_neg hc]
      refine ⟨r, h1, h2.trans ?_⟩
      constructor
      · rintro ⟨u, hu, hcu⟩; exact ⟨u, by simp [hu], hcu⟩
      · rintro ⟨u, hu, hcu⟩
        rcases List.mem_cons.1 hu with e | hu
        · cases e; exact absurd hcu hc
        · exact ⟨u, hu, hcu⟩

private theorem internal_step (contains : String → String → Bool) (e : Expected) (hs : Sane e) (m : String) (failed : Bool) :
    (ErrorPermitted contains e m → internalPacket contains e m failed = failed) ∧
    (¬ ErrorPermitted contains e m → internalPacket contains e m failed = true) := by
  have key : ∃ a, allowFeedback contains e m = some a ∧
      (a = true ↔ ∀ s, e.feedbackAll = some s → s ≠ [] → ∃ t, .str t ∈ s ∧ contains t m = true) := by
    unfold allowFeedback
    cases hf : e.feedbackAll with
    | none => exact ⟨true, rfl, by simp⟩
    | some s =>
      by_cases hs' : s = []
      · simp [hs']
      · simp only [if_neg hs']
        obtain ⟨r, h1, h2⟩ := anyIn_strings contains m s (hs.feedbackAll _ hf)
        refine ⟨r, h1, h2.trans ?_⟩
        constructor
        · intro h s' e _; cases e; exact h
        · intro h; exact h _ rfl hs'
  obtain ⟨a, h1, h2⟩ := key
  unfold internalPacket ErrorPermitted
  rw [h1, ← h2]
  by_cases hi : "IE" ∈ e.codesAll
  · cases a <;> simp [hi]
  · simp [hi]

private theorem internal_true (contains : String → String → Bool) (e : Expected) (m : String) : internalPacket contains e m true = true := by
  unfold internalPacket
  split
  · rfl
  · split_ifs <;> rfl

private theorem points_true (e : Expected) (pos : Int) (points : Rat) (f : Bool) (h : checkPoints e pos points true = some f) : f = true := by
  unfold checkPoints at h
  split at h
  · exact nomatch h
  · split_ifs at h <;> exact (Option.some.inj h).symm
  · split at h
    · exact (Option.some.inj h).symm
    · split_ifs at h <;> exact (Option.some.inj h).symm

private theorem feedback_true (e : Expected) (pos : Int) (fb : String) (f : Bool) (h : checkFeedback e pos fb true = some f) : f = true := by
  unfold checkFeedback at h
  split at h
  · exact (Option.some.inj h).symm
  · split_ifs at h <;> exact (Option.some.inj h).symm

private theorem case_true (e : Expected) (pos : Int) (code : String) (points : Rat) (fb : String) :
    (casePacket e pos code points fb true).1 = true := by
  unfold casePacket
  rw [code_step]
  simp only [ite_self]
  cases h : checkPoints e pos points true with
  | none => rfl
  | some f2 =>
    have := points_true e pos points f2 h
    subst this
    simp only
    cases h' : checkFeedback e pos fb true with
    | none => rfl
    | some f3 => exact feedback_true e pos fb f3 h'

private theorem grade_true (contains : String → String → Bool) (trace : String) (e : Expected) (ms : List Msg) (ending : Option String) :
    grade contains trace e ms ending true = true := by
  induction ms with
  | nil =>
    cases ending with
    | none => rfl
    | some t => exact internal_true contains e t
  | cons m ms ih =>
    cases m with
    | case pos code points fb =>
      have h := case_true e pos code points fb
      unfold grade
      generalize hc : casePacket e pos code points fb true = r at *
      obtain ⟨f, ok⟩ := r
      simp only at h
      subst h
      cases ok
      · exact internal_true contains e trace
      · exact ih
    | compileError =>
      unfold grade
      rw [ite_self]
      exact ih
    | exception m =>
      unfold grade
      rw [internal_true]
      exact ih
    | other => unfold grade; exact ih

/-- A source fails its test exactly when something the worker reported does not meet the expectations. What is
missing: expectations that are not `Sane` (`C54_points_fails`, `C54_feedback_fails`, `C54_any_points_fails`), and
expectations for cases that are not reported (`C54_missing_fails`). -/
theorem C54_source_partial (contains : String → String → Bool) (trace : String) (e : Expected) (hs : Sane e) (ms : List Msg) (ending : Option String) :
    grade contains trace e ms ending false = true ↔ ¬ AllMet contains e (ms, ending) := by
  induction ms with
  | nil =>
    unfold AllMet
    cases ending with
    | none =>
      unfold grade
      simp
    | some t =>
      unfold grade
      obtain ⟨h1, h2⟩ := internal_step contains e hs t false
      by_cases h : ErrorPermitted contains e t
      · rw [h1 h]; simp [h]
      · rw [h2 h]; simp [h]
  | cons m ms ih =>
    have cons : ∀ (h : Met contains e m), (AllMet contains e (m :: ms, ending) ↔ AllMet contains e (ms, ending)) := by
      intro h
      unfold AllMet
      simp [h]
    have bad : ∀ (h : ¬ Met contains e m), ¬ AllMet contains e (m :: ms, ending) := fun h ⟨h', _⟩ => h (h' m (by simp))
    cases m with
    | case pos code points fb =>
      by_cases h : Met contains e (.case pos code points fb)
      · rw [cons h, ← ih]
        rw [grade, case_met contains e hs pos code points fb false h]
      · refine ⟨fun _ => bad h, fun _ => ?_⟩
        unfold grade
        rcases case_unmet contains e hs pos code points fb false h with h' | ⟨h', hi⟩
        · rw [h']
          exact grade_true contains trace e ms ending
        · generalize casePacket e pos code points fb false = r at *
          obtain ⟨f, ok⟩ := r
          simp only at h'
          subst h'
          exact (internal_step contains e hs trace f).2 fun hp => hi hp.1
    | compileError =>
      by_cases h : Met contains e .compileError
      · rw [cons h, ← ih]
        rw [grade, if_neg (not_not_intro (show "CE" ∈ e.codesAll from h))]
      · refine ⟨fun _ => bad h, fun _ => ?_⟩
        rw [grade, if_pos (show "CE" ∉ e.codesAll from h)]
        exact grade_true contains trace e ms ending
    | exception x =>
      by_cases h : Met contains e (.exception x)
      · rw [cons h, ← ih, grade, (internal_step contains e hs x false).1 h]
      · refine ⟨fun _ => bad h, fun _ => ?_⟩
        rw [grade, (internal_step contains e hs x false).2 h]
        exact grade_true contains trace e ms ending
    | other =>
      rw [cons trivial, ← ih, grade]

/-- Expectations as most tests have them. -/
example : Sane ⟨["AC"], [(.int 2, ["WA", "TLE"])], none, [(.int 1, some [5])], none, [(.int 2, some [.str "ok"])]⟩ where
  feedbackAll s h := nomatch h
  feedbackCases k s h := by
    simp at h
    rw [h.2]
    intro x hx
    simp at hx
    exact ⟨_, hx⟩
  pointsCases k := by simp
  points h := by simp at h

example : Met (fun _ _ => false) ⟨["AC"], [(.int 2, ["WA", "TLE"])], none, [(.int 1, some [5])], none, [(.int 2, some [.str "ok"])]⟩
    (.case 2 "TLE" 0 "ok") := by
  rw [met_case]
  refine ⟨by decide +kernel, fun s h => ?_, fun s h => ?_⟩
  · rw [show (lookup 2 [(Scalar.int 1, some [(5 : Int)])]) = none by decide +kernel] at h
    exact nomatch h
  · rw [show (lookup 2 [(Scalar.int 2, some [Scalar.str "ok"])]) = some (some [.str "ok"]) by decide +kernel] at h
    cases h
    simp

/-- If internal errors are permitted, wrong points for a case go unnoticed: the text of the complaint cannot be made,
and the exception counts as a permitted internal error. -/
theorem C54_points_fails : ∃ (e : Expected) (ms : List Msg), (∀ contains trace, grade contains trace e ms none false = false) ∧
    ∀ contains, ¬ AllMet contains e (ms, none) := by
  refine ⟨⟨allCodes, [], none, [(.int 1, some [5])], none, []⟩, [.case 1 "AC" 3 ""], fun c t => rfl, fun c h => ?_⟩
  have := ((met_case _ _ _ _ _ _).1 (h.1 _ (List.mem_singleton.2 rfl))).2.1 [5] rfl
  simp at this

/-- Feedback written as a number is never compared: the complaint cannot be made, nor can the complaint about that. -/
theorem C54_feedback_fails : ∃ (e : Expected) (ms : List Msg), (∀ contains trace, grade contains trace e ms none false = false) ∧
    (∀ contains, ¬ AllMet contains e (ms, none)) ∧ "IE" ∉ e.codesAll := by
  refine ⟨⟨["AC"], [], none, [], some [.int 5], []⟩, [.case 1 "AC" 3 "6"], fun c t => rfl, fun c h => ?_, by decide +kernel⟩
  have := ((met_case _ _ _ _ _ _).1 (h.1 _ (List.mem_singleton.2 rfl))).2.2 [.int 5] rfl
  simp at this

/-- "Any points" for a single case makes the test fail whatever the points. -/
theorem C54_any_points_fails : ∃ (e : Expected) (ms : List Msg), (∀ contains trace, grade contains trace e ms none false = true) ∧
    ∀ contains, AllMet contains e (ms, none) := by
  refine ⟨⟨["AC"], [], none, [(.int 1, none)], none, []⟩, [.case 1 "AC" 3 ""], fun c t => rfl, fun c => ⟨fun m hm => ?_, fun t h => nomatch h⟩⟩
  rw [List.mem_singleton.1 hm, met_case]
  exact ⟨by decide +kernel, fun s h => (nomatch h), fun s h => (nomatch h)⟩

/-- An expectation for a case that is never reported is not missed. -/
theorem C54_missing_fails : ∃ (e : Expected) (ms : List Msg), (∀ contains trace, grade contains trace e ms none false = false) ∧
    lookup 2 e.codesCases = some ["WA"] ∧ ∀ m ∈ ms, ∀ code points fb, m ≠ .case 2 code points fb :=
  ⟨⟨["AC"], [(.int 2, ["WA"])], none, [], none, []⟩, [.case 1 "AC" 3 ""], fun c t => rfl, by decide +kernel, by simp⟩

/-! ## Documents -/

private theorem asStrings_iff (xs : List Scalar) (ss : List String) : asStrings xs = some ss ↔ xs = ss.map .str := by
  unfold asStrings
  induction xs generalizing ss with
  | nil => simp [eq_comm]
  | cons x xs ih =>
    rw [List.mapM_cons]
    cases x with
    | str s =>
      simp only [Option.bind_eq_bind, Option.bind_some, Option.bind_eq_some_iff]
      constructor
      · rintro ⟨t, ht, h⟩
        have h : s :: t = ss := Option.some.inj h
        rw [← h, (ih t).1 ht]
        rfl
      · intro h
        cases ss with
        | nil => simp at h
        | cons s' ss =>
          simp at h
          exact ⟨ss, (ih ss).2 h.2, by rw [h.1]; rfl⟩
    | _ =>
      constructor
      · intro h; exact nomatch h
      · intro h
        cases ss with
        | nil => simp at h
        | cons s' ss => simp at h

/-- The codes permitted are the ones written; a document naming an unknown code, or anything but names, is an error. -/
theorem C54_codes (v : Value) :
    (∀ s, parseCodes v = some s → (∀ c, c ∈ s ↔ PermitsCode v c) ∧ ∀ c ∈ s, c ∈ allCodes) ∧
    (parseCodes v = none → (∃ c, PermitsCode v c ∧ c ∉ allCodes) ∨ (∃ x, v = .scalar x ∧ ∀ t, x ≠ .str t) ∨
      ∃ xs x, (v = .list xs ∨ v = .dict xs) ∧ x ∈ xs ∧ ∀ t, x ≠ .str t) := by
  have listy : ∀ xs : List Scalar,
      (∀ s, (match asStrings xs with | none => none | some ss => if ∀ s ∈ ss, s ∈ allCodes then some ss else none) = some s →
        (∀ c, c ∈ s ↔ .str c ∈ xs) ∧ ∀ c ∈ s, c ∈ allCodes) ∧
      ((match asStrings xs with | none => none | some ss => if ∀ s ∈ ss, s ∈ allCodes then some ss else none) = none →
        (∃ c, .str c ∈ xs ∧ c ∉ allCodes) ∨ ∃ x ∈ xs, ∀ t, x ≠ .str t) := by
    intro xs
    cases h : asStrings xs with
    | none =>
      refine ⟨fun s e => (nomatch e), fun _ => .inr ?_⟩
      apply Classical.byContradiction
      intro hn
      have : ∀ x ∈ xs, ∃ t, x = .str t := fun x hx => Classical.byContradiction fun h' => hn ⟨x, hx, fun t e => h' ⟨t, e⟩⟩
      have : ∃ ss : List String, xs = ss.map .str := by
        clear h hn
        induction xs with
        | nil => exact ⟨[], rfl⟩
        | cons x xs ih =>
          obtain ⟨t, rfl⟩ := this x (by simp)
          obtain ⟨ss, rfl⟩ := ih fun y hy => this y (by simp [hy])
          exact ⟨t :: ss, rfl⟩
      obtain ⟨ss, e⟩ := this
      rw [(asStrings_iff xs ss).2 e] at h
      exact nomatch h
    | some ss =>
      have e := (asStrings_iff xs ss).1 h
      simp only
      refine ⟨fun s hs => ?_, fun hs => ?_⟩
      · split_ifs at hs with ha
        cases hs
        refine ⟨fun c => ?_, ha⟩
        rw [e]
        simp
      · split_ifs at hs with ha
        left
        rw [not_forall] at ha
        obtain ⟨c, hc⟩ := ha
        rw [Classical.not_imp] at hc
        exact ⟨c, by rw [e]; simp [hc.1], hc.2⟩
  cases v with
  | scalar x =>
    cases x with
    | str s =>
      unfold parseCodes
      simp only
      by_cases h1 : s = "*"
      · rw [if_pos h1]
        refine ⟨fun t ht => ?_, fun h => nomatch h⟩
        cases ht
        exact ⟨fun c => by simp [PermitsCode, h1, allCodes], fun c hc => hc⟩
      · rw [if_neg h1]
        by_cases h2 : s ∈ allCodes
        · rw [if_pos h2]
          refine ⟨fun t ht => ?_, fun h => nomatch h⟩
          cases ht
          exact ⟨fun c => by simp [PermitsCode, h1], fun c hc => by simp at hc; rw [hc]; exact h2⟩
        · rw [if_neg h2]
          exact ⟨fun t ht => (nomatch ht), fun _ => .inl ⟨s, .inr ⟨h1, rfl⟩, h2⟩⟩
    | _ => exact ⟨fun t ht => (nomatch ht), fun _ => .inr (.inl ⟨_, rfl, by simp⟩)⟩
  | list xs =>
    refine ⟨(listy xs).1, fun h => ?_⟩
    rcases (listy xs).2 h with h | ⟨x, h1, h2⟩
    · exact .inl h
    · exact .inr (.inr ⟨xs, x, .inl rfl, h1, h2⟩)
  | dict xs =>
    refine ⟨(listy xs).1, fun h => ?_⟩
    rcases (listy xs).2 h with h | ⟨x, h1, h2⟩
    · exact .inl h
    · exact .inr (.inr ⟨xs, x, .inr rfl, h1, h2⟩)

private theorem list_lookup {α : Type} (f : Value → Option α) (xs : List Value) : ∀ (k : Nat) (cs : List (Scalar × α)),
    ((xs.zipIdx k).map fun (v, i) => (Scalar.int ((i : Int) + 1), v)).mapM (fun p : Scalar × Value => (f p.2).map fun x => (p.1, x)) = some cs →
    ∀ pos, (∀ x, lookup pos cs = some x ↔ ∃ (i : Nat) (v : Value), pos = (i : Int) + k + 1 ∧ xs[i]? = some v ∧ f v = some x) ∧
      (lookup pos cs = none ↔ ¬ ∃ i : Nat, pos = (i : Int) + k + 1 ∧ i < xs.length) := by
  induction xs with
  | nil =>
    intro k cs h pos
    cases h
    refine ⟨fun x => ?_, ?_⟩
    · constructor
      · intro h; exact nomatch h
      · rintro ⟨i, v, _, h, _⟩; simp at h
    · constructor
      · rintro _ ⟨i, _, h⟩; simp at h
      · intro _; rfl
  | cons v xs ih =>
    intro k cs h pos
    rw [List.zipIdx_cons, List.map_cons, List.mapM_cons, Option.bind_eq_bind, Option.bind_eq_some_iff] at h
    obtain ⟨p, h1, h2⟩ := h
    rw [Option.bind_eq_bind, Option.bind_eq_some_iff] at h2
    obtain ⟨cs', h3, h4⟩ := h2
    obtain ⟨y, hy, rfl⟩ := Option.map_eq_some_iff.1 h1
    have h4 : (Scalar.int ((k : Int) + 1), y) :: cs' = cs := Option.some.inj h4
    subst h4
    obtain ⟨i1, i2⟩ := ih (k + 1) cs' h3 pos
    by_cases hp : (k : Int) + 1 = pos
    · have hl : lookup pos ((Scalar.int ((k : Int) + 1), y) :: cs') = some y := by simp [lookup, isKey, hp]
      rw [hl]
      refine ⟨fun x => ?_, ?_⟩
      · constructor
        · intro e
          cases e
          exact ⟨0, v, by simp; omega, rfl, hy⟩
        · rintro ⟨i, w, h5, h6, h7⟩
          have : i = 0 := by omega
          subst this
          simp at h6
          rw [← h6, hy] at h7
          exact h7
      · constructor
        · intro e; exact nomatch e
        · intro e; exact absurd ⟨0, by simp; omega, by simp⟩ e
    · have hl : lookup pos ((Scalar.int ((k : Int) + 1), y) :: cs') = lookup pos cs' := by simp [lookup, isKey, hp]
      rw [hl, i2]
      refine ⟨fun x => ?_, ?_⟩
      · rw [i1]
        constructor
        · rintro ⟨i, w, h5, h6, h7⟩
          exact ⟨i + 1, w, by push_cast at h5 ⊢; omega, by simpa using h6, h7⟩
        · rintro ⟨i, w, h5, h6, h7⟩
          cases i with
          | zero => exfalso; apply hp; rw [h5]; simp
          | succ i => exact ⟨i, w, by push_cast at h5 ⊢; omega, by simpa using h6, h7⟩
      · rw [not_iff_not]
        constructor
        · rintro ⟨i, h5, h6⟩
          exact ⟨i + 1, by push_cast at h5 ⊢; omega, by simpa using h6⟩
        · rintro ⟨i, h5, h6⟩
          cases i with
          | zero => exfalso; apply hp; rw [h5]; simp
          | succ i => exact ⟨i, by push_cast at h5 ⊢; omega, by simpa using h6⟩

/-- Expectations written as a list are those of the cases 1, 2, 3 and so on; the others have the general one. -/
theorem C54_list {α : Type} (all : Value) (xs : List Value) (f : Value → Option α) (a : α) (cs : List (Scalar × α))
    (h : parseExpect all (.list xs) f = some (a, cs)) (pos : Int) (x : α) :
    Applies a cs pos x ↔ (∃ (i : Nat) (v : Value), pos = (i : Int) + 1 ∧ xs[i]? = some v ∧ f v = some x) ∨
      (¬ ∃ i : Nat, pos = (i : Int) + 1 ∧ i < xs.length) ∧ f all = some x := by
  unfold parseExpect at h
  cases ha : f all with
  | none => rw [ha] at h; exact nomatch h
  | some a' =>
    rw [ha] at h
    simp only at h
    obtain ⟨cs', h1, h2⟩ := Option.map_eq_some_iff.1 h
    obtain ⟨rfl, rfl⟩ := Prod.mk.inj h2
    obtain ⟨h3, h4⟩ := list_lookup f xs 0 cs' h1 pos
    simp only [Int.natCast_zero, Int.add_zero] at h3 h4
    rw [applies_iff, ← h3 x, ← h4]
    cases lookup pos cs' <;> simp [eq_comm]

example : parseExpect (.scalar (.str "AC")) (.list [.scalar (.str "*"), .list [.str "WA", .str "TLE"]]) parseCodes =
    some (["AC"], [(.int 1, allCodes), (.int 2, ["WA", "TLE"])]) := by decide +kernel

/-- Numbers are expected as written, apart from fractions in a list: these are cut off. -/
theorem C54_points (pyInt : String → Option Int) (n : Int) (xs : List Int) :
    parsePoints pyInt (.scalar .null) = some none ∧ parsePoints pyInt (.scalar (.str "*")) = some none ∧
    parsePoints pyInt (.scalar (.int n)) = some (some [n]) ∧ parsePoints pyInt (.list (xs.map .int)) = some (some xs) := by
  refine ⟨rfl, rfl, rfl, ?_⟩
  have : (xs.map Scalar.int).mapM (toInt pyInt) = some xs := by
    induction xs with
    | nil => rfl
    | cons x xs ih =>
      rw [List.map_cons, List.mapM_cons, ih]
      rfl
  unfold parsePoints
  simp only [this]
  rfl

/-- Half points in a list are taken for none. -/
theorem C54_fraction_fails (pyInt : String → Option Int) : parsePoints pyInt (.list [.float (1 / 2)]) = some (some [0]) := by
  have : trunc (1 / 2) = 0 := by decide +kernel
  show (some [trunc (1 / 2)] : Option (List Int)).map some = _
  rw [this]
  rfl

/-- Nor is a fraction standing alone, or nothing in a list, taken for points: the test counts as failed. -/
theorem C54_points_refused (pyInt : String → Option Int) (q : Rat) (xs : List Scalar) (h : .null ∈ xs) :
    parsePoints pyInt (.scalar (.float q)) = none ∧ parsePoints pyInt (.list xs) = none := by
  refine ⟨rfl, ?_⟩
  have : xs.mapM (toInt pyInt) = none := by
    induction xs with
    | nil => exact nomatch h
    | cons x xs ih =>
      rw [List.mapM_cons]
      rcases List.mem_cons.1 h with rfl | h
      · rfl
      · rw [ih h]; cases toInt pyInt x <;> rfl
  show (xs.mapM (toInt pyInt)).map some = none
  rw [this]
  rfl

example : Scalar.null ∈ [Scalar.int 3, .null] := by decide

/-- Feedback as the documents give it: any, one, or one of several. -/
theorem C54_feedback (s : String) (xs : List Scalar) (h : s ≠ "*") :
    parseFeedback (.scalar .null) = some none ∧ parseFeedback (.scalar (.str "*")) = some none ∧
    parseFeedback (.scalar (.str s)) = some (some [.str s]) ∧ parseFeedback (.list xs) = some (some xs) := by
  refine ⟨rfl, rfl, ?_, rfl⟩
  unfold parseFeedback
  exact if_neg h

/-- What is expected where the documents say nothing: that every case is correct, with any points and any feedback. -/
theorem C54_defaults (w : World) (c : Doc) (e : Expected) (h : expected w c = some e) :
    (c.expect = none → ∀ code, code ∈ e.codesAll ↔ code = "AC") ∧ (∀ v, c.expect = some v → ∀ code, code ∈ e.codesAll ↔ PermitsCode v code) ∧
    (c.cases = none → e.codesCases = []) ∧
    (c.points = none → e.pointsAll = none) ∧ (c.pointsCases = none → e.pointsCases = []) ∧
    (c.feedback = none → e.feedbackAll = none) ∧ (c.feedbackCases = none → e.feedbackCases = []) := by
  have key : ∀ {α : Type} (all : Value) (cs : Option Cases) (f : Value → Option α) (a : α) (d : List (Scalar × α)),
      parseExpect all (cs.getD (.dict [])) f = some (a, d) → f all = some a ∧ (cs = none → d = []) := by
    intro α all cs f a d h
    unfold parseExpect at h
    cases ha : f all with
    | none => rw [ha] at h; exact nomatch h
    | some x =>
      rw [ha] at h
      dsimp only at h
      obtain ⟨y, hy, hyy⟩ := Option.map_eq_some_iff.1 h
      cases hyy
      refine ⟨rfl, ?_⟩
      rintro rfl
      have : some [] = some d := hy
      cases this
      rfl
  unfold expected at h
  split at h
  · exact nomatch h
  next a1 c1 h1 =>
  split at h
  · exact nomatch h
  next a2 c2 h2 =>
  split at h
  · exact nomatch h
  next a3 c3 h3 =>
  cases h
  obtain ⟨k1, k1'⟩ := key _ _ _ _ _ h1
  obtain ⟨k2, k2'⟩ := key _ _ _ _ _ h2
  obtain ⟨k3, k3'⟩ := key _ _ _ _ _ h3
  refine ⟨?_, ?_, k1', ?_, k2', ?_, k3'⟩
  · intro hn code
    rw [hn] at k1
    rw [((C54_codes _).1 _ k1).1 code]
    show "AC" = "*" ∧ _ ∨ "AC" ≠ "*" ∧ code = "AC" ↔ _
    constructor
    · rintro (⟨h, -⟩ | ⟨-, h⟩)
      · exact absurd h (by decide)
      · exact h
    · exact fun h => .inr ⟨by decide, h⟩
  · intro v hv code
    rw [hv] at k1
    exact ((C54_codes _).1 _ k1).1 code
  · intro hn
    rw [hn] at k2
    cases k2
    rfl
  · intro hn
    rw [hn] at k3
    cases k3
    rfl

example (w : World) : expected w {} = some ⟨["AC"], [], none, [], none, []⟩ := rfl

/-! ## The whole suite -/

/-- What a test directory needs to pass (or to be skipped). -/
def Passes (w : World) (problem : String) (docs : List (Option Doc)) : Prop :=
  ∃ ds : List Doc, docs = ds.map some ∧
    ((ds.foldl Doc.update {}) = {} ∨ (ds.foldl Doc.update {}).skip = some true ∨
      ∃ l, (ds.foldl Doc.update {}).language = some l ∧
        (l ∉ w.executors ∨
          ∃ (t : Rat) (m : Int) (ss : List String) (e : Expected),
            (ds.foldl Doc.update {}).time = some t ∧ (ds.foldl Doc.update {}).memory = some m ∧
            (ds.foldl Doc.update {}).source = some (ss.map some) ∧ expected w (ds.foldl Doc.update {}) = some e ∧
            ∀ s ∈ ss, AllMet w.contains e (w.work problem l s t m)))

private theorem mapM_id {α : Type} (l : List (Option α)) : ∀ r, l.mapM id = some r ↔ l = r.map some := by
  induction l with
  | nil => intro r; cases r <;> simp
  | cons x l ih =>
    intro r
    rw [List.mapM_cons]
    cases x with
    | none =>
      constructor
      · intro h; exact nomatch h
      · intro h; cases r <;> simp at h
    | some x =>
      simp only [id, Option.bind_eq_bind, Option.bind_some, Option.bind_eq_some_iff]
      constructor
      · rintro ⟨t, ht, h⟩
        have h : x :: t = r := Option.some.inj h
        rw [← h, (ih t).1 ht]
        rfl
      · intro h
        cases r with
        | nil => simp at h
        | cons y r =>
          simp at h
          exact ⟨r, (ih r).2 h.2, by rw [h.1]; rfl⟩

private theorem sources_zero (w : World) (p l : String) (t : Rat) (m : Int) (e : Expected) (hs : Sane e) (ss : List String) :
    gradeSources w p l t m e ss = 0 ↔ ∀ s ∈ ss, AllMet w.contains e (w.work p l s t m) := by
  induction ss with
  | nil => simp [gradeSources]
  | cons s ss ih =>
    have h1 := C54_source_partial w.contains w.trace e hs (w.work p l s t m).1 (w.work p l s t m).2
    unfold gradeSources
    simp only
    rw [Nat.add_eq_zero_iff, ih, List.forall_mem_cons]
    refine and_congr_left fun _ => ?_
    generalize grade w.contains w.trace e (w.work p l s t m).1 (w.work p l s t m).2 false = g at *
    cases g
    · simp only [Bool.toNat_false, true_iff]
      exact Classical.byContradiction fun hn => nomatch h1.2 hn
    · simp only [Bool.toNat_true, Nat.one_ne_zero, false_iff]
      exact h1.1 rfl

private theorem run_zero (w : World) (p : String) (docs : List (Option Doc))
    (hs : ∀ (ds : List Doc) (e : Expected), docs = ds.map some → expected w (ds.foldl Doc.update {}) = some e → Sane e) :
    runTestCase w p docs = some 0 ↔ Passes w p docs := by
  unfold runTestCase Passes
  cases hd : docs.mapM id with
  | none =>
    constructor
    · intro h; exact nomatch h
    · rintro ⟨ds, h, _⟩
      rw [(mapM_id docs ds).2 h] at hd
      exact nomatch hd
  | some ds =>
    have hd := (mapM_id docs ds).1 hd
    have hu : ∀ ds', docs = ds'.map some → ds' = ds := by
      intro ds' h'
      rw [hd] at h'
      exact (List.map_inj_right (fun _ _ => Option.some.inj)).1 h'.symm
    have hsane := hs ds
    simp only
    -- there is only one reading of the documents
    have one : ∀ P : List Doc → Prop, (∃ ds', docs = ds'.map some ∧ P ds') ↔ P ds := by
      intro P
      constructor
      · rintro ⟨ds', h1, h2⟩
        rw [← hu ds' h1]
        exact h2
      · intro h
        exact ⟨ds, hd, h⟩
    rw [one fun ds => (ds.foldl Doc.update {}) = {} ∨ (ds.foldl Doc.update {}).skip = some true ∨
      ∃ l, (ds.foldl Doc.update {}).language = some l ∧
        (l ∉ w.executors ∨
          ∃ (t : Rat) (m : Int) (ss : List String) (e : Expected),
            (ds.foldl Doc.update {}).time = some t ∧ (ds.foldl Doc.update {}).memory = some m ∧
            (ds.foldl Doc.update {}).source = some (ss.map some) ∧ expected w (ds.foldl Doc.update {}) = some e ∧
            ∀ s ∈ ss, AllMet w.contains e (w.work p l s t m))]
    generalize ds.foldl Doc.update {} = c at *
    by_cases h1 : c = {}
    · rw [if_pos h1]; simp [h1]
    · rw [if_neg h1]
      by_cases h2 : c.skip = some true
      · rw [if_pos h2]; simp [h2]
      · rw [if_neg h2]
        cases h3 : c.language with
        | none => simp [h1, h2]
        | some l =>
          simp only [h1, h2, false_or, Option.some.injEq, exists_eq_left']
          by_cases h4 : l ∈ w.executors
          · rw [if_neg (not_not_intro h4)]
            simp only [h4, not_true_eq_false, false_or]
            cases h5 : c.time with
            | none => simp
            | some t =>
              cases h6 : c.memory with
              | none => simp
              | some m =>
                cases h7 : c.source with
                | none => simp
                | some src =>
                  simp only [Option.some.injEq, exists_eq_left', exists_and_left]
                  cases h8 : src.mapM id with
                  | none =>
                    simp only [reduceCtorEq, false_iff]
                    rintro ⟨ss, h, _⟩
                    rw [(mapM_id src ss).2 h] at h8
                    exact nomatch h8
                  | some ss =>
                    have h9 := (mapM_id src ss).1 h8
                    simp only
                    cases h10 : expected w c with
                    | none => simp
                    | some e =>
                      simp only [Option.some.injEq, exists_eq_left']
                      rw [sources_zero w p l t m e (hsane e hd h10) ss]
                      constructor
                      · intro h; exact ⟨ss, h9, h⟩
                      · rintro ⟨ss', h, h'⟩
                        have : ss' = ss := by
                          rw [h9] at h
                          exact (List.map_inj_right (fun _ _ => Option.some.inj)).1 h.symm
                        rw [← this]; exact h'
          · rw [if_pos h4]; simp [h4]

/-- The suite exits with 0 exactly when every test directory passes or is skipped, and with 1 otherwise; unreadable
or malformed tests do not pass. What is missing: as for `C54_source_partial`. -/
theorem C54_exit_partial (w : World) (ps : List (String × List (List (Option Doc))))
    (hs : ∀ p ∈ ps, ∀ d ∈ p.2, ∀ (ds : List Doc) (e : Expected), d = ds.map some → expected w (ds.foldl Doc.update {}) = some e → Sane e) :
    (exitStatus w ps = 0 ∨ exitStatus w ps = 1) ∧ (exitStatus w ps = 0 ↔ ∀ p ∈ ps, ∀ d ∈ p.2, Passes w p.1 d) := by
  have prob : ∀ (p : String) (ds : List (List (Option Doc))),
      (∀ d ∈ ds, ∀ (ds : List Doc) (e : Expected), d = ds.map some → expected w (ds.foldl Doc.update {}) = some e → Sane e) →
      (testProblem w p ds = 0 ↔ ∀ d ∈ ds, Passes w p d) := by
    intro p ds hs
    induction ds with
    | nil => simp [testProblem]
    | cons d ds ih =>
      have h := run_zero w p d (hs d (by simp))
      unfold testProblem
      rw [Nat.add_eq_zero_iff, ih fun d hd => hs d (by simp [hd]), List.forall_mem_cons, ← h]
      refine and_congr_left fun _ => ?_
      cases runTestCase w p d <;> simp
  have all : testAll w ps = 0 ↔ ∀ p ∈ ps, ∀ d ∈ p.2, Passes w p.1 d := by
    induction ps with
    | nil => simp [testAll]
    | cons p ps ih =>
      unfold testAll
      rw [Nat.add_eq_zero_iff, prob p.1 p.2 (hs p (by simp)), ih fun q hq => hs q (by simp [hq]), List.forall_mem_cons]
  unfold exitStatus
  rw [← all]
  by_cases h : testAll w ps = 0
  · simp [h]
  · simp [h]

/-- A failure anywhere is never hidden by other tests. -/
theorem C54_exit_any (w : World) (ps : List (String × List (List (Option Doc)))) :
    exitStatus w ps = 1 ↔ ∃ p ∈ ps, ∃ d ∈ p.2, runTestCase w p.1 d ≠ some 0 := by
  have prob : ∀ (p : String) (ds : List (List (Option Doc))), (testProblem w p ds ≠ 0 ↔ ∃ d ∈ ds, runTestCase w p d ≠ some 0) := by
    intro p ds
    induction ds with
    | nil => simp [testProblem]
    | cons d ds ih =>
      unfold testProblem
      rw [List.exists_mem_cons_iff, ← ih]
      cases h : runTestCase w p d with
      | none => simp
      | some n => cases n <;> simp
  have all : testAll w ps ≠ 0 ↔ ∃ p ∈ ps, ∃ d ∈ p.2, runTestCase w p.1 d ≠ some 0 := by
    induction ps with
    | nil => simp [testAll]
    | cons p ps ih =>
      unfold testAll
      rw [List.exists_mem_cons_iff, ← ih, ← prob]
      omega
  rw [← all]
  unfold exitStatus
  by_cases h : testAll w ps = 0 <;> simp [h]

/-- What the documents of a test say together: each key has the value of the last document that has it. -/
theorem C54_last_document (ds : List Doc) :
    let c := ds.foldl Doc.update {}
    c.skip = ds.reverse.findSome? (·.skip) ∧ c.language = ds.reverse.findSome? (·.language) ∧
    c.time = ds.reverse.findSome? (·.time) ∧ c.memory = ds.reverse.findSome? (·.memory) ∧
    c.source = ds.reverse.findSome? (·.source) ∧ c.expect = ds.reverse.findSome? (·.expect) ∧
    c.cases = ds.reverse.findSome? (·.cases) ∧ c.points = ds.reverse.findSome? (·.points) ∧
    c.pointsCases = ds.reverse.findSome? (·.pointsCases) ∧ c.feedback = ds.reverse.findSome? (·.feedback) ∧
    c.feedbackCases = ds.reverse.findSome? (·.feedbackCases) ∧ c.extra = ds.reverse.findSome? (·.extra) := by
  have key : ∀ {α : Type} (f : Doc → Option α), (∀ x y, f (Doc.update x y) = (f y <|> f x)) → f {} = none →
      f (ds.foldl Doc.update {}) = ds.reverse.findSome? f := by
    intro α f hu h0
    suffices h : ∀ (ds : List Doc) (d : Doc), f (ds.foldl Doc.update d) = (ds.reverse.findSome? f <|> f d) by
      rw [h, h0]
      cases List.findSome? f ds.reverse <;> rfl
    intro ds
    induction ds with
    | nil => intro d; rfl
    | cons x xs ih =>
      intro d
      rw [List.foldl_cons, ih, hu, List.reverse_cons, List.findSome?_append]
      cases List.findSome? f xs.reverse <;> simp
  exact ⟨key _ (fun _ _ => rfl) rfl, key _ (fun _ _ => rfl) rfl, key _ (fun _ _ => rfl) rfl, key _ (fun _ _ => rfl) rfl,
    key _ (fun _ _ => rfl) rfl, key _ (fun _ _ => rfl) rfl, key _ (fun _ _ => rfl) rfl, key _ (fun _ _ => rfl) rfl,
    key _ (fun _ _ => rfl) rfl, key _ (fun _ _ => rfl) rfl, key _ (fun _ _ => rfl) rfl, key _ (fun _ _ => rfl) rfl⟩

example : ([{ skip := some true, time := some 1 }, { skip := some false }].foldl Doc.update {} : Doc) = { skip := some false, time := some 1 } := rfl

end Verif.TestSuite
