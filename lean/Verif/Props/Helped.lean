import Verif.Lemmas.Award
import Verif.Lemmas.Partial
import Verif.Props.Verdict
import Verif.Props.Message
import Verif.Props.Submission
import Verif.Spec.Helped

/-! # C95: a submission judged by code of the problem's author -/

namespace Verif.Props
open Verif Verif.Spec Worker Grading Verif.Submission Helped Helped.Spec Contrib.Spec Interactor.Spec

/-! ## Programs -/

private theorem strict_none (s : Bytes) (h : ¬ IsText s) : Message.strict s = none :=
  if_neg fun e => h ⟨_, e.symm⟩

private theorem strict_some (s : Bytes) (h : IsText s) : ∃ t, Message.strict s = some t := by
  obtain ⟨cs, rfl⟩ := h
  exact ⟨cs, Ms.strict_encode cs⟩

private theorem senseless_iff (p : Protocol) (value : Rat) (h : Helper) : Senseless p value h ↔
    h.proc.returncode ≠ 0 ∧ h.proc.returncode ≠ 1 ∧ (p ≠ .default → h.proc.returncode ≠ 2) ∧
    (p = .testlib → h.proc.returncode = 7 → ∀ n, First PointsLine h.stderr n → value < n) ∧
    (p = .coci → h.proc.returncode = 7 → ∀ n d, First FractionLine h.stderr (n, d) → d < n) := by
  constructor
  · intro hs
    refine ⟨fun e => hs _ _ (.yes e), fun e => hs _ _ (.no e), fun hp e => hs _ _ (.ill hp e), ?_, ?_⟩
    · intro hp h7 n hn
      by_contra hl
      exact hs _ _ (.points n hp h7 hn (not_lt.1 hl))
    · intro hp h7 n d hn
      by_contra hl
      exact hs _ _ (.fraction n d hp h7 hn (not_lt.1 hl))
  · rintro ⟨h0, h1, h2, h3, h4⟩ right points hs
    cases hs with
    | yes e => exact h0 e
    | no e => exact h1 e
    | ill hp e => exact h2 hp e
    | points n hp e hn hl => exact absurd (h3 hp e n hn) (not_lt.2 hl)
    | fraction n d hp e hn hl => exact absurd (h4 hp e n d hn) (not_lt.2 hl)

private theorem fall (p : Process.Proc) (h : p.returncode ≠ 0) : ∃ e, Contrib.fallthrough p = .error e := by
  unfold Contrib.fallthrough
  cases hc : Contrib.parseHelperFileError p with
  | none => exact absurd ((C52_nothing_ignored p).1 hc).2.2.2 h
  | some c => exact ⟨_, rfl⟩

private theorem parse_says (p : Protocol) (h : Helper) (value : Rat) (fb : String) (right : Bool) (points : Rat)
    (hs : Says p value h right points) : ∃ t, parseReturn p h value fb = .ok (some (.result right points t)) := by
  cases hs with
  | yes e => cases p <;> exact ⟨fb, by simp [parseReturn, Contrib.default, Contrib.testlib, Contrib.coci, e]⟩
  | no e => cases p <;> exact ⟨fb, by simp [parseReturn, Contrib.default, Contrib.testlib, Contrib.coci, e]⟩
  | ill hp e => cases p <;> first | exact absurd rfl hp | exact ⟨_, by simp [parseReturn, Contrib.testlib, Contrib.coci, e]; rfl⟩
  | points n hp e hn hl => subst hp; exact ⟨fb, (C10_partial_credit h.proc value fb h.stderr e).1 n hn hl⟩
  | fraction n d hp e hn hl => subst hp; exact ⟨fb, (C10_partial_credit h.proc value fb h.stderr e).2.2.2.1 n d hn hl⟩

private theorem parse_senseless (p : Protocol) (h : Helper) (value : Rat) (fb : String)
    (hs : Senseless p value h) : ∃ e, parseReturn p h value fb = .error e := by
  obtain ⟨h0, h1, h2, h3, h4⟩ := (senseless_iff p value h).1 hs
  have ht : p ≠ .default → h.proc.returncode ≠ 7 → ∃ e, Contrib.testlib h.proc value fb h.stderr = .error e := by
    intro hp h7
    simp only [Contrib.testlib, h0, h1, h2 hp, h7, if_false]
    split
    · exact ⟨_, rfl⟩
    · exact fall _ h0
  have hc := C10_partial_credit h.proc value fb h.stderr
  cases p with
  | default => simpa [parseReturn, Contrib.default, h0, h1] using fall _ h0
  | testlib =>
    by_cases h7 : h.proc.returncode = 7
    · by_cases hn : ∃ n, First PointsLine h.stderr n
      · obtain ⟨n, hn⟩ := hn
        exact (hc h7).2.1 n hn (h3 rfl h7 n hn)
      · exact (hc h7).2.2.1 (not_exists.1 hn)
    · exact ht (by decide) h7
  | coci =>
    by_cases h7 : h.proc.returncode = 7
    · by_cases hn : ∃ n, First FractionLine h.stderr n
      · obtain ⟨⟨n, d⟩, hn⟩ := hn
        exact (hc h7).2.2.2.2.1 n d hn (h4 rfl h7 n d hn)
      · exact (hc h7).2.2.2.2.2 (not_exists.1 hn)
    · obtain ⟨e, he⟩ := ht (by decide) h7
      exact ⟨e, by simp [parseReturn, Contrib.coci, h7, he]⟩

/-! ## One case -/

/-- C95.  One case: its result is what the author's code decides (with the flags of what the process did, if that was something
wrong), and if the author's code failed there is none. -/
theorem C95_case (value : Rat) (r : Run) (s : Side) :
    (∀ right points, Gets value r s (.graded right points) →
      Helped.gradeCase value r s = some ⟨r.proc.flags 0 ||| (if right then 0 else 1), points⟩) ∧
    (Gets value r s .broken → Helped.gradeCase value r s = none) := by
  have hclean : Clean r.proc → r.proc.flags 0 = 0 := (C42_clean_iff r.proc).2
  have hunclean : ¬ Clean r.proc → r.proc.flags 0 ≠ 0 := fun h e => h ((C42_clean_iff r.proc).1 e)
  constructor
  · intro right points h
    cases h with
    | crash p f h hc => simp [Helped.gradeCase, C09_error_not_checked _ _ _ _ hc, Result.WA]
    | unreadable p f h hc ht =>
      simp [Helped.gradeCase, checkerAns, strict_none _ ht, gradeStandard, checkResult, hclean hc, finish, toCheckerResult, Result.WA]
    | checked p f h _ _ hc ht hs =>
      obtain ⟨t, ht⟩ := strict_some _ ht
      obtain ⟨t', hs⟩ := parse_says p h value (if f then String.ofList t else "") _ _ hs
      simp [Helped.gradeCase, checkerAns, ht, hs, ofContrib, gradeStandard, checkResult, hclean hc, finish, toCheckerResult, Result.WA, Result.AC]
    | crashed p f h _ _ ht hs hc =>
      have : ∃ t, (if f then Message.strict h.stderr else some []) = some t := by
        cases f with
        | true => exact strict_some _ (ht rfl)
        | false => exact ⟨[], rfl⟩
      obtain ⟨t, ht⟩ := this
      obtain ⟨t', hs⟩ := parse_says p h value (String.ofList t) _ _ hs
      simp [Helped.gradeCase, ht, hs, gradeBridged, bridgedCheck, hunclean hc, finish, toCheckerResult, Result.WA]
    | interacted p f h _ _ ht hs hc =>
      have : ∃ t, (if f then Message.strict h.stderr else some []) = some t := by
        cases f with
        | true => exact strict_some _ (ht rfl)
        | false => exact ⟨[], rfl⟩
      obtain ⟨t, ht⟩ := this
      obtain ⟨t', hs⟩ := parse_says p h value (String.ofList t) _ _ hs
      simp [Helped.gradeCase, ht, hs, ofContrib, gradeBridged, bridgedCheck, hclean hc, finish, toCheckerResult, Result.WA, Result.AC]
    | crashes e he hc =>
      cases e <;> first
        | exact absurd rfl he
        | simp [Helped.gradeCase, gradeInteractive, interactState, interactiveCheck, hunclean hc, finish, toCheckerResult, Result.WA]
    | wrong m hc => simp [Helped.gradeCase, gradeInteractive, interactState, interactiveCheck, hclean hc, finish, toCheckerResult, Result.WA]
    | closed hc => simp [Helped.gradeCase, gradeInteractive, interactState, interactiveCheck, hclean hc, finish, toCheckerResult, Result.WA]
    | accepts hc => simp [Helped.gradeCase, gradeInteractive, interactState, interactiveCheck, hclean hc, finish, toCheckerResult, Result.AC]
    | rejects hc => simp [Helped.gradeCase, gradeInteractive, interactState, interactiveCheck, hclean hc, finish, toCheckerResult, Result.WA]
    | awards _ _ t hc =>
      simp [Helped.gradeCase, gradeInteractive, interactState, interactiveCheck, hclean hc, finish, toCheckerResult, Result.AC, Result.WA]
  · intro h
    cases h with
    | checkerFails p f h hc ht hs =>
      obtain ⟨t, ht⟩ := strict_some _ ht
      obtain ⟨e, hs⟩ := parse_senseless p h value (if f then String.ofList t else "") hs
      simp [Helped.gradeCase, checkerAns, ht, hs, gradeStandard, checkResult, hclean hc, finish, toCheckerResult]
    | garbled p h ht => simp [Helped.gradeCase, strict_none _ ht]
    | interactorFails p f h hs =>
      simp only [Helped.gradeCase]
      split
      · rfl
      · rename_i t _
        obtain ⟨e, hs⟩ := parse_senseless p h value (String.ofList t) hs
        simp [hs, gradeBridged, bridgedCheck]
    | raises => rfl
    | odd a hc h1 h2 =>
      cases a with
      | bool v => exact absurd rfl (h1 v)
      | result x y z => exact absurd rfl (h2 x y z)
      | other _ => simp [Helped.gradeCase, gradeInteractive, interactState, interactiveCheck, hclean hc]
      | unicodeError => simp [Helped.gradeCase, gradeInteractive, interactState, interactiveCheck, hclean hc]
      | raised => simp [Helped.gradeCase, gradeInteractive, interactState, interactiveCheck, hclean hc]

private theorem some_outcome (value : Rat) (r : Run) (s : Side) : ∃ o, Gets value r s o := by
  by_cases hc : Clean r.proc
  · cases s with
    | checker p f h =>
      by_cases ht : IsText h.stdout
      · by_cases hs : Senseless p value h
        · exact ⟨_, .checkerFails p f h hc ht hs⟩
        · simp only [Senseless, not_forall, not_not] at hs
          obtain ⟨x, y, hs⟩ := hs
          exact ⟨_, .checked p f h x y hc ht hs⟩
      · exact ⟨_, .unreadable p f h hc ht⟩
    | interactor p f h =>
      by_cases ht : f = true → IsText h.stderr
      · by_cases hs : Senseless p value h
        · exact ⟨_, .interactorFails p f h hs⟩
        · simp only [Senseless, not_forall, not_not] at hs
          obtain ⟨x, y, hs⟩ := hs
          exact ⟨_, .interacted p f h x y ht hs hc⟩
      · obtain ⟨rfl, ht'⟩ := Classical.not_imp.1 ht
        exact ⟨_, .garbled p h ht'⟩
    | code e =>
      cases e with
      | raised => exact ⟨_, .raises⟩
      | wrongAnswer m => exact ⟨_, .wrong m hc⟩
      | ioError => exact ⟨_, .closed hc⟩
      | ret a =>
        cases a with
        | bool v => cases v <;> first | exact ⟨_, .accepts hc⟩ | exact ⟨_, .rejects hc⟩
        | result x y t => exact ⟨_, .awards x y t hc⟩
        | other _ => exact ⟨_, .odd _ hc (by simp) (by simp)⟩
        | unicodeError => exact ⟨_, .odd _ hc (by simp) (by simp)⟩
        | raised => exact ⟨_, .odd _ hc (by simp) (by simp)⟩
  · cases s with
    | checker p f h => exact ⟨_, .crash p f h hc⟩
    | interactor p f h =>
      by_cases ht : f = true → IsText h.stderr
      · by_cases hs : Senseless p value h
        · exact ⟨_, .interactorFails p f h hs⟩
        · simp only [Senseless, not_forall, not_not] at hs
          obtain ⟨x, y, hs⟩ := hs
          exact ⟨_, .crashed p f h x y ht hs hc⟩
      · obtain ⟨rfl, ht'⟩ := Classical.not_imp.1 ht
        exact ⟨_, .garbled p h ht'⟩
    | code e =>
      by_cases he : e = .raised
      · subst he; exact ⟨_, .raises⟩
      · exact ⟨_, .crashes e he hc⟩

theorem right_of_flag (r : Run) (right : Bool) :
    (r.proc.flags 0 ||| (if right then 0 else 1)).testBit 0 = !right := by
  have h : (r.proc.flags 0).testBit 0 = false := by
    have := C42_flag_bits r.proc 0 0
    rw [Bool.eq_false_iff, Ne, this]
    simp
  rw [Nat.testBit_or, h]
  cases right <;> rfl

/-- C95.  Every case has exactly one outcome. -/
theorem C95_one (value : Rat) (r : Run) (s : Side) : ∃! o, Gets value r s o := by
  obtain ⟨o, ho⟩ := some_outcome value r s
  refine ⟨o, ho, fun o' ho' => ?_⟩
  have hc := C95_case value r s
  cases o with
  | broken =>
    cases o' with
    | broken => rfl
    | graded a x => have := (hc.1 _ _ ho').symm.trans (hc.2 ho); cases this
  | graded a x =>
    cases o' with
    | broken => have := (hc.1 _ _ ho).symm.trans (hc.2 ho'); cases this
    | graded a' x' =>
      have := (hc.1 _ _ ho').symm.trans (hc.1 _ _ ho)
      simp only [Option.some.injEq, Res.mk.injEq] at this
      have hb := congrArg (fun k => Nat.testBit k 0) this.1
      simp only [right_of_flag] at hb
      have : a' = a := by simpa using hb
      simp [*]

/-! ## All cases -/

theorem nth_case (items : List Item) (n : Nat) (h1 : 1 ≤ n) (hn : n ≤ (caseList 0 items).length) :
    ∃ bn, (caseList 0 items)[n - 1]? = some (bn, pointsOf items n) := by
  have hlt : n - 1 < (caseList 0 items).length := by omega
  have hx := List.getElem?_eq_getElem hlt
  exact ⟨_, by rw [Award.points_eq items n _ _ hx]; exact hx⟩

private theorem grade_eq {items : List Item} {run : Nat → Run} {side : Nat → Side} {right : Nat → Bool} {points : Nat → Rat}
    (h : Judged items run side right points) (n : Nat) (h1 : 1 ≤ n) (hn : n ≤ (caseList 0 items).length) :
    (Helped.world items run side).grade n = some ⟨(run n).proc.flags 0 ||| (if right n then 0 else 1), points n⟩ := by
  obtain ⟨bn, hx⟩ := nth_case items n h1 hn
  exact (C95_case _ _ _).1 _ _ (h n bn _ h1 hx)

private theorem calm {items : List Item} {run : Nat → Run} {side : Nat → Side} {right : Nat → Bool} {points : Nat → Rat}
    (h : Judged items run side right points) : Award.Calm (Helped.world items run side) items :=
  ⟨fun n h1 hn => ⟨_, grade_eq h n h1 hn⟩, fun _ => rfl⟩

/-- C95.  If the author's code judges every case, the worker reports one result per case, in order, and the end of the grading. -/
theorem C95_each (req warning pretested : Bool) (items : List Item) (run : Nat → Run) (side : Nat → Side) (right : Nat → Bool)
    (points : Nat → Rat) (h : Judged items run side right points) :
    (resultsOf (Helped.judge req warning pretested items run side)).map Prod.fst = List.range' 1 (caseList 0 items).length ∧
    (Helped.judge req warning pretested items run side).getLast? = some (.send .gradingEnd) :=
  Award.each (calm h) req warning pretested

/-- C95.  A case is run exactly if no earlier case that was run and judged wrong lets it be skipped. -/
theorem C95_run (req warning pretested : Bool) (items : List Item) (run : Nat → Run) (side : Nat → Side) (right : Nat → Bool)
    (points : Nat → Rat) (h : Judged items run side right points) (n : Nat) (h1 : 1 ≤ n) (hn : n ≤ (caseList 0 items).length) :
    Act.exec n ∈ Helped.judge req warning pretested items run side ↔
      ¬ ∃ j < n, Act.exec j ∈ Helped.judge req warning pretested items run side ∧ right j = false ∧ Cuts req (caseList 0 items) j n := by
  rw [Helped.judge, Award.is_run (calm h) req warning pretested n h1 hn]
  refine not_congr (exists_congr fun j => and_congr_right fun _ => ?_)
  rw [Failed, and_assoc]
  refine and_congr_right fun hj => and_congr_left fun _ => ?_
  have hr := Award.only hj
  rw [grade_eq h j hr.1 hr.2]
  simp only [Option.some.injEq, exists_eq_left', right_of_flag]
  cases right j <;> simp

/-- C95.  The result of each case: what the author's code decided, or that it was not run. -/
theorem C95_result (req warning pretested : Bool) (items : List Item) (run : Nat → Run) (side : Nat → Side) (right : Nat → Bool)
    (points : Nat → Rat) (h : Judged items run side right points) (n : Nat) (r : Res) (h1 : 1 ≤ n) (hn : n ≤ (caseList 0 items).length) :
    (n, r) ∈ resultsOf (Helped.judge req warning pretested items run side) ↔
      (Act.exec n ∈ Helped.judge req warning pretested items run side ∧
        r = ⟨(run n).proc.flags 0 ||| (if right n then 0 else 1), points n⟩) ∨
      (Act.exec n ∉ Helped.judge req warning pretested items run side ∧ r = ⟨1 <<< 5, 0⟩) := by
  rw [Helped.judge, Award.result (calm h) req warning pretested n r h1 hn, grade_eq h n h1 hn]
  split <;> simp_all

open Classical in
/-- C95.  The sum of the points is that of the cases that were run. -/
theorem C95_award (req warning pretested : Bool) (items : List Item) (run : Nat → Run) (side : Nat → Side) (right : Nat → Bool)
    (points : Nat → Rat) (h : Judged items run side right points) :
    awarded (Helped.judge req warning pretested items run side) = ((List.range' 1 (caseList 0 items).length).map fun n =>
      if Act.exec n ∈ Helped.judge req warning pretested items run side then points n else 0).sum := by
  apply Award.sum_eq (calm h)
  intro n r h1 hn _ hr
  rw [grade_eq h n h1 hn] at hr
  injection hr with hr
  rw [← hr]

/-- C95.  If the author's code fails on a case that is run, this is the last thing that happens: no result for this case and
no end of the grading is reported. -/
theorem C95_broken (req warning pretested : Bool) (items : List Item) (run : Nat → Run) (side : Nat → Side) (n : Nat) (bn : Option Nat)
    (p : Rat) (he : Act.exec n ∈ Helped.judge req warning pretested items run side) (hn : (caseList 0 items)[n - 1]? = some (bn, p))
    (hb : Gets p (run n) (side n) .broken) :
    (∃ a, Helped.judge req warning pretested items run side = a ++ [.exec n] ∧ ∀ m, Act.exec m ∈ a → m < n) ∧
    (∀ r, (n, r) ∉ resultsOf (Helped.judge req warning pretested items run side)) ∧
    Act.send .gradingEnd ∉ Helped.judge req warning pretested items run side := by
  have hg : (Helped.world items run side).grade n = none := by
    show Helped.gradeCase (pointsOf items n) (run n) (side n) = none
    rw [Award.points_eq items n bn p hn]
    exact (C95_case _ _ _).2 hb
  obtain ⟨h1, h2, h3⟩ := Award.broken he hg
  exact ⟨h1, h2, h3⟩

/-- C95.  And nothing else keeps the end of the grading from being reported. -/
theorem C95_ends (req warning pretested : Bool) (items : List Item) (run : Nat → Run) (side : Nat → Side) :
    (Helped.judge req warning pretested items run side).getLast? = some (.send .gradingEnd) ∨
    ∃ n bn p, Act.exec n ∈ Helped.judge req warning pretested items run side ∧ (caseList 0 items)[n - 1]? = some (bn, p) ∧
      Gets p (run n) (side n) .broken := by
  obtain ⟨acts0, c, _, _, _, _, hi, he⟩ := Worker.grade_ctl (Helped.world items run side) req warning pretested items
  cases c with
  | next s => left; rw [Helped.judge, he]; simp
  | stop a =>
    right
    obtain ⟨k, _, _, a0, _, _, hx | hx⟩ := hi
    · have hk : Act.exec k ∈ Helped.judge req warning pretested items run side := by rw [Helped.judge, he]; dsimp only; rw [hx.1]; simp
      have hr := Award.only hk
      obtain ⟨bn, hp⟩ := nth_case items k hr.1 hr.2
      refine ⟨k, bn, _, hk, hp, ?_⟩
      obtain ⟨o, ho⟩ := some_outcome (pointsOf items k) (run k) (side k)
      cases o with
      | broken => exact ho
      | graded x y =>
        have := (C95_case _ _ _).1 _ _ ho
        rw [show Helped.gradeCase (pointsOf items k) (run k) (side k) = none from hx.2] at this
        cases this
    · cases hx.2.1

/-! ## The sum -/

/-- The author's Python code does not hand out points itself. -/
def NoAward (side : Nat → Side) : Prop := ∀ n right x t, side n ≠ .code (.ret (.result right x t))

theorem gets_bounds {value : Rat} {r : Run} {s : Side} {right : Bool} {x : Rat} (hv : 0 ≤ value)
    (hs : ∀ right x t, s ≠ .code (.ret (.result right x t))) (h : Gets value r s (.graded right x)) :
    0 ≤ x ∧ x ≤ value ∧ (right = false → x = 0) := by
  have hsays : ∀ p h a y, Says p value h a y → 0 ≤ y ∧ y ≤ value ∧ (a = false → y = 0) := by
    intro p h a y hs
    cases hs with
    | yes e => exact ⟨hv, le_refl _, by simp⟩
    | no e => exact ⟨le_refl _, hv, by simp⟩
    | ill hp e => exact ⟨le_refl _, hv, by simp⟩
    | points n hp e hn hl => exact ⟨Nat.cast_nonneg n, hl, by simp⟩
    | fraction n d hp e hn hl =>
      have h0 : (0 : Rat) ≤ n / d := div_nonneg (Nat.cast_nonneg n) (Nat.cast_nonneg d)
      have h1 : (n : Rat) / d ≤ 1 := div_le_one_of_le₀ (by exact_mod_cast hl) (Nat.cast_nonneg d)
      exact ⟨mul_nonneg h0 hv, mul_le_of_le_one_left hv h1, by simp⟩
  cases h with
  | checked p f h _ _ _ _ hs => exact hsays _ _ _ _ hs
  | interacted p f h _ _ _ hs _ => exact hsays _ _ _ _ hs
  | accepts _ => exact ⟨hv, le_refl _, by simp⟩
  | awards _ _ t _ => exact absurd rfl (hs _ _ t)
  | _ => exact ⟨le_refl _, hv, by simp⟩

/-- C95.  Never less than nothing or more than the problem is worth; and everything exactly if every case is judged worth its full
points. -/
theorem C95_bounds (req warning pretested : Bool) (items : List Item) (run : Nat → Run) (side : Nat → Side) (right : Nat → Bool)
    (points : Nat → Rat) (h : Judged items run side right points) (hs : NoAward side) :
    ((∀ bn p, (bn, p) ∈ caseList 0 items → 0 ≤ p) →
      0 ≤ awarded (Helped.judge req warning pretested items run side) ∧
      awarded (Helped.judge req warning pretested items run side) ≤ worth items) ∧
    ((∀ bn p, (bn, p) ∈ caseList 0 items → 0 < p) →
      (awarded (Helped.judge req warning pretested items run side) = worth items ↔
        ∀ n bn p, 1 ≤ n → (caseList 0 items)[n - 1]? = some (bn, p) → points n = p)) := by
  classical
  have hb : (∀ bn p, (bn, p) ∈ caseList 0 items → 0 ≤ p) → ∀ n ∈ List.range' 1 (caseList 0 items).length,
      0 ≤ points n ∧ points n ≤ pointsOf items n ∧ (right n = false → points n = 0) ∧ 0 ≤ pointsOf items n := by
    intro hp n hn
    rw [List.mem_range'_1] at hn
    obtain ⟨bn, hx⟩ := nth_case items n hn.1 (by omega)
    have h0 := hp _ _ (List.mem_of_getElem? hx)
    have := gets_bounds h0 (hs n) (h n bn _ hn.1 hx)
    exact ⟨this.1, this.2.1, this.2.2, h0⟩
  rw [C95_award _ _ _ _ _ _ _ _ h, Award.worth_eq]
  refine ⟨fun hp => ⟨?_, ?_⟩, fun hp => ⟨fun he => ?_, fun he => ?_⟩⟩
  · apply List.sum_nonneg
    intro x hx
    obtain ⟨m, hm, rfl⟩ := List.mem_map.1 hx
    split
    · exact (hb hp m hm).1
    · exact le_refl _
  · apply Award.sum_le
    intro m hm
    split
    · exact (hb hp m hm).2.1
    · exact (hb hp m hm).2.2.2
  · intro n bn p h1 hx
    have hn : n ∈ List.range' 1 (caseList 0 items).length := by
      have := (List.getElem?_eq_some_iff.1 hx).1
      rw [List.mem_range'_1]; omega
    have hb := hb fun bn p hm => le_of_lt (hp bn p hm)
    rw [← Award.points_eq items n bn p hx]
    by_contra hne
    have hlt := lt_of_le_of_ne (hb n hn).2.1 hne
    refine absurd he (ne_of_lt (Award.sum_lt ?_ n hn ?_))
    · intro m hm
      split
      · exact (hb m hm).2.1
      · exact (hb m hm).2.2.2
    · split
      · exact hlt
      · exact lt_of_le_of_lt (hb n hn).1 hlt
  · congr 1
    have hb := hb fun bn p hm => le_of_lt (hp bn p hm)
    have hfull : ∀ n ∈ List.range' 1 (caseList 0 items).length, points n = pointsOf items n ∧ 0 < pointsOf items n := by
      intro n hn
      rw [List.mem_range'_1] at hn
      obtain ⟨bn, hx⟩ := nth_case items n hn.1 (by omega)
      exact ⟨he n bn _ hn.1 hx, hp _ _ (List.mem_of_getElem? hx)⟩
    apply List.map_congr_left
    intro n hn
    have hrange := hn
    rw [List.mem_range'_1] at hn
    rw [if_pos, (hfull n hrange).1]
    rw [C95_run _ _ _ _ _ _ _ _ h n hn.1 (by omega)]
    rintro ⟨j, _, hj, hr, _⟩
    have hj := Award.only hj
    have hjm : j ∈ List.range' 1 (caseList 0 items).length := by rw [List.mem_range'_1]; omega
    have := (hb j hjm).2.2.1 hr
    rw [(hfull j hjm).1] at this
    exact absurd this (ne_of_gt (hfull j hjm).2)

/-! ## Disagreements -/

private theorem no_text : ¬ IsText ([0xff] : Bytes) := by
  rintro ⟨cs, h⟩
  have := Ms.strict_encode cs
  rw [show Shown.encode cs = [0xff] from h.symm] at this
  have e : Message.strict [0xff] = none := by decide +kernel
  rw [e] at this; cases this

/-- C95.  A checker program that accepts, but whose output is not UTF-8: the answer counts as wrong, even if the output is not to be
shown. -/
theorem C95_checker_text_fails (value : Rat) : ∃ (r : Run) (h : Helper), Clean r.proc ∧ Clean h.proc ∧
    Helped.gradeCase value r (.checker .default false h) = some ⟨1, 0⟩ := by
  refine ⟨⟨okProc, [], ""⟩, ⟨okProc, [0xff], []⟩, ?_, ?_, ?_⟩
  · exact ⟨rfl, rfl, rfl, by decide, by decide, rfl⟩
  · exact ⟨rfl, rfl, rfl, by decide, by decide, rfl⟩
  · have := (C95_case value ⟨okProc, [], ""⟩ (.checker .default false ⟨okProc, [0xff], []⟩)).1 _ _
      (.unreadable _ _ _ ⟨rfl, rfl, rfl, by decide, by decide, rfl⟩ no_text)
    rw [this]
    have : okProc.flags 0 = 0 := by decide
    simp [this]

/-- C95.  An interactor that accepts, but whose text to be shown is not UTF-8: the grading ends with an internal error. -/
theorem C95_interactor_text_fails (value : Rat) : ∃ (r : Run) (h : Helper), Clean r.proc ∧ Clean h.proc ∧
    Helped.gradeCase value r (.interactor .default true h) = none :=
  ⟨⟨okProc, [], ""⟩, ⟨okProc, [], [0xff]⟩, ⟨rfl, rfl, rfl, by decide, by decide, rfl⟩,
    ⟨rfl, rfl, rfl, by decide, by decide, rfl⟩, (C95_case _ _ _).2 (.garbled _ _ no_text)⟩

/-! ## Examples -/

/-- A clean run. -/
def cleanly : Run := ⟨okProc, [], ""⟩

/-- A program that exits with a status and writes to stderr. -/
def exits (code : Int) (err : Bytes) : Helper := ⟨{ okProc with returncode := code }, b "text", err⟩

example : Gets 10 cleanly (.checker .testlib true (exits 7 (b "hm\npoints 4\n"))) (.graded true 4) := by
  refine .checked _ _ _ _ _ ⟨rfl, rfl, rfl, by decide, by decide, rfl⟩ ⟨"text".toList, by decide⟩ (.points 4 rfl rfl ?_ (by norm_num))
  exact (Contrib.searchPoints_iff _ _).1 (by decide +kernel)

example : Gets 10 ⟨crashed, [], ""⟩ (.interactor .coci false (exits 3 [])) .broken := by
  refine .interactorFails _ _ _ ?_
  rw [senseless_iff]
  refine ⟨by decide, by decide, fun _ => by decide, fun h => (by cases h), fun _ h => absurd h (by decide)⟩

/-- Two cases, the second judged by a checker that fails. -/
example : Helped.judge false false false [.one ⟨0, 0, 5⟩, .one ⟨1, 0, 5⟩, .one ⟨2, 0, 5⟩] (fun _ => cleanly)
      (fun n => .checker .default false (exits (if n = 2 then 9 else 0) [])) =
    [.send (.gradingBegin false), .exec 1, .send (.result none 1 ⟨0, 5⟩), .exec 2] := by decide +kernel

example : Judged [.one ⟨0, 0, 5⟩, .batch 1 [⟨1, 1, 6⟩]] (fun _ => cleanly)
    (fun n => .code (if n = 1 then .ret (.bool true) else .wrongAnswer "no")) (fun n => n = 1) (fun n => if n = 1 then 5 else 0) := by
  intro n bn p h1 hn
  have hc : Clean cleanly.proc := ⟨rfl, rfl, rfl, by decide, by decide, rfl⟩
  match n, h1, hn with
  | 1, _, hn => cases hn; exact .accepts hc
  | 2, _, hn => cases hn; exact .wrong _ hc

/-- Python code may hand out more than a case is worth. -/
example : Helped.gradeCase 5 cleanly (.code (.ret (.result true 7 none))) = some ⟨0, 7⟩ := by decide +kernel

end Verif.Props
