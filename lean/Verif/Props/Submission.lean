import Verif.Props.Worker
import Verif.Props.Verdict
import Verif.Props.Checkers
import Verif.Props.Data
import Verif.Spec.Submission

/-! # C93: a submission from its runs to its results -/

namespace Verif.Props
open Verif Spec Checkers Worker Verif.Submission

/-! ## The answer file -/

private theorem lf_view (c : Bytes) : SameView (13 :: c) (10 :: c) :=
  sameView_newline [13] c (by simp; decide) ⟨13, by simp, by decide⟩

private theorem view_refl (u : Bytes) : SameView u u := by
  cases h : lines u with
  | nil => exact absurd h (lines_ne_nil u)
  | cons x tl => exact ⟨x, tl, x, tl, h, h, rfl, rfl, rfl⟩

private theorem view_trans {u v w : Bytes} (h1 : SameView u v) (h2 : SameView v w) : SameView u w := by
  obtain ⟨a, ta, b, tb, e1, e2, e3, e4, e5⟩ := h1
  obtain ⟨b', tb', c, tc, f1, f2, f3, f4, f5⟩ := h2
  rw [e2] at f1
  injection f1 with g1 g2
  subst g1 g2
  exact ⟨a, ta, c, tc, e1, f2, e3.trans f3, e4.trans f4, e5.trans f5⟩

private theorem view_symm {u v : Bytes} (h : SameView u v) : SameView v u := by
  obtain ⟨a, ta, b, tb, e1, e2, e3, e4, e5⟩ := h
  exact ⟨b, tb, a, ta, e2, e1, e3.symm, e4.symm, e5.symm⟩

private theorem view_lf : ∀ s : Bytes, SameView (Problem.crToLf s) s
  | [] => view_refl _
  | c :: r => by
    have ih := view_lf r
    simp only [Problem.crToLf, List.map_cons] at ih ⊢
    split
    · rename_i h; subst h
      exact view_trans (ih.cons 10) (view_symm (lf_view r))
    · exact ih.cons c

private theorem view_crlf : ∀ s : Bytes, SameView (Problem.crlfToCr s) s
  | [] => view_refl _
  | [c] => view_refl _
  | c :: d :: r => by
    have i1 := view_crlf r
    have i2 := view_crlf (d :: r)
    rw [Problem.crlfToCr]
    split
    · rename_i h
      obtain ⟨rfl, rfl⟩ := h
      have : SameView (13 :: 10 :: r) (10 :: r) :=
        sameView_newline [13, 10] r (by decide) ⟨13, by simp, by decide⟩
      exact view_trans (view_trans (i1.cons 13) (lf_view r)) (view_symm this)
    · exact i2.cons c

/-- C93.  What the problem's data handling does to an answer file leaves its tokens and lines as the author wrote them. -/
theorem C93_answer (binary : Bool) (file : Option Bytes) :
    tokenLines (Problem.normalize binary file) = tokenLines (file.getD []) := by
  have key : ∀ s : Bytes, tokenLines (Problem.crToLf (Problem.crlfToCr s)) = tokenLines s := fun s =>
    (view_trans (view_lf _) (view_crlf s)).tokenLines_eq
  simp only [Problem.normalize]
  split
  · rfl
  · split
    · exact key _
    · rw [tokenLines_trail _ _ (by decide), key]

example : tokenLines (Problem.normalize false (some (b "1 2\r\n\r3"))) = tokenLines (b "1 2\n3\n") := by
  rw [C93_answer]; decide

/-! ## One case -/

private theorem standardAns_eq (out : Bytes) (a : Answer) :
    standardAns out a = .bool (decide (tokenLines out = tokenLines (a.file.getD []))) := by
  rw [standardAns, C01_standard_spec, C93_answer]

open Classical in
/-- C93.  One case: full points and no flag exactly if the run is right; otherwise no points, the wrong-answer flag, and the
flags of what the process did. It never fails to be graded. -/
theorem C93_case (points : Rat) (a : Answer) (r : Run) :
    gradeCase points a r = some (if Right a r then ⟨0, points⟩ else ⟨r.proc.flags 0 ||| 1, 0⟩) := by
  rw [gradeCase, standardAns_eq]
  by_cases hc : Clean r.proc
  · have hf := (C42_clean_iff r.proc).2 hc
    have hr : Right a r ↔ tokenLines r.stdout = tokenLines (a.file.getD []) := by simp [Right, hc]
    by_cases ht : tokenLines r.stdout = tokenLines (a.file.getD [])
    · simp [hr, ht, Grading.gradeStandard, Grading.checkResult, hf, Grading.finish, Grading.toCheckerResult, Result.AC]
    · simp [hr, ht, Grading.gradeStandard, Grading.checkResult, hf, Grading.finish, Grading.toCheckerResult, Result.WA]
  · have hr : ¬ Right a r := fun h => hc h.1
    rw [C09_error_not_checked _ _ _ _ hc]
    simp [hr, Result.WA]

/-! ## All cases -/

private theorem world_some (items : List Item) (answer : Nat → Answer) (run : Nat → Run) (n : Nat) :
    ∃ r, (world items answer run).grade n = some r := by
  classical exact ⟨_, C93_case _ _ _⟩

private theorem results_marks (l : List Act) : (resultsOf l).map Prod.fst = (marks l).filterMap caseNo? := by
  induction l with
  | nil => rfl
  | cons a l ih =>
    rw [marks] at ih ⊢
    cases a with
    | exec n => simpa [resultsOf, mark, List.filterMap_cons] using ih
    | send e => cases e <;> simpa [resultsOf, mark, caseNo?, List.filterMap_cons] using ih

private theorem results_mem (l : List Act) (n : Nat) (r : Res) :
    (n, r) ∈ resultsOf l ↔ ∃ bn, Act.send (.result bn n r) ∈ l := by
  induction l with
  | nil => simp [resultsOf]
  | cons a l ih =>
    cases a with
    | exec m => simp [resultsOf, ih]
    | send e => cases e <;> simp [resultsOf, ih]; grind

/-- C93.  The worker reports one result per case, in order, and the end of the grading. -/
theorem C93_each (req warning pretested : Bool) (items : List Item) (answer : Nat → Answer) (run : Nat → Run) :
    (resultsOf (judge req warning pretested items answer run)).map Prod.fst = List.range' 1 (caseList 0 items).length ∧
    (judge req warning pretested items answer run).getLast? = some (.send .gradingEnd) := by
  have hm := C11_complete (world items answer run) req warning pretested items (world_some _ _ _) (fun _ => rfl)
  refine ⟨?_, ?_⟩
  · rw [results_marks, judge, hm, fullStream]
    simp [caseNo?, C11_numbers, List.filterMap_cons]
  · obtain ⟨acts0, c, _, _, _, _, hi, he⟩ := Worker.grade_ctl (world items answer run) req warning pretested items
    rw [judge, he]
    cases c with
    | next s => simp
    | stop a =>
      obtain ⟨k', _, _, a0, _, _, h | h⟩ := hi
      · obtain ⟨r, hr⟩ := world_some items answer run k'; rw [h.2] at hr; cases hr
      · simp [world] at h

/-- C93.  Only cases of the problem are run. -/
theorem C93_only {w : World} {req warning pretested : Bool} {items : List Item} {n : Nat}
    (h : Act.exec n ∈ gradeCases w req (.ok warning pretested items)) : 1 ≤ n ∧ n ≤ (caseList 0 items).length := by
  obtain ⟨k, hk, hinv⟩ := final_inv w req warning pretested items
  have := hinv.range n h
  rw [← flatten_caseList, List.length_map]
  omega

private theorem points_eq (items : List Item) (n : Nat) (bn : Option Nat) (p : Rat)
    (h : (caseList 0 items)[n - 1]? = some (bn, p)) : pointsOf items n = p := by
  rw [← flatten_caseList, List.getElem?_map] at h
  rw [pointsOf]
  cases hx : (flatten 0 items)[n - 1]? with
  | none => simp [hx] at h
  | some x => simp [hx] at h; simp [h.2]

private theorem failed_iff (req warning pretested : Bool) (items : List Item) (answer : Nat → Answer) (run : Nat → Run) (j : Nat) :
    Failed (world items answer run) (judge req warning pretested items answer run) j ↔
      Act.exec j ∈ judge req warning pretested items answer run ∧ ¬ Right (answer j) (run j) := by
  classical
  simp only [Failed, world, C93_case, Option.some.injEq, exists_eq_left']
  refine and_congr_right fun _ => ?_
  split <;> simp_all

/-- C93.  A case is run exactly if no earlier case that was run and was not right lets it be skipped: one of the same batch, one
worth nothing, or any if short-circuiting was requested. -/
theorem C93_run (req warning pretested : Bool) (items : List Item) (answer : Nat → Answer) (run : Nat → Run) (n : Nat)
    (h1 : 1 ≤ n) (hn : n ≤ (caseList 0 items).length) :
    Act.exec n ∈ judge req warning pretested items answer run ↔
      ¬ ∃ j < n, Act.exec j ∈ judge req warning pretested items answer run ∧ ¬ Right (answer j) (run j) ∧
        Cuts req (caseList 0 items) j n := by
  have hr : ∃ r, (n, r) ∈ resultsOf (judge req warning pretested items answer run) := by
    have := (C93_each req warning pretested items answer run).1
    have hm : n ∈ (resultsOf (judge req warning pretested items answer run)).map Prod.fst := by
      rw [this, List.mem_range'_1]; omega
    obtain ⟨⟨m, r⟩, hm', rfl⟩ := List.mem_map.1 hm
    exact ⟨r, hm'⟩
  obtain ⟨r, hr⟩ := hr
  obtain ⟨bn, hr⟩ := (results_mem _ _ _).1 hr
  have := C12_skip_iff (world items answer run) req warning pretested items n (Or.inr ⟨bn, r, hr⟩)
  rw [judge, this]
  have hf := failed_iff req warning pretested items answer run
  simp only [judge] at hf
  simp only [hf, and_assoc]

open Classical in
/-- C93.  The result of each case: of its run, or of not having been run. -/
theorem C93_result (req warning pretested : Bool) (items : List Item) (answer : Nat → Answer) (run : Nat → Run) (n : Nat) (r : Res)
    (bn : Option Nat) (p : Rat) (h1 : 1 ≤ n) (hn : (caseList 0 items)[n - 1]? = some (bn, p)) :
    (n, r) ∈ resultsOf (judge req warning pretested items answer run) ↔
      r = if Act.exec n ∈ judge req warning pretested items answer run then
            if Right (answer n) (run n) then ⟨0, p⟩ else ⟨(run n).proc.flags 0 ||| 1, 0⟩
          else ⟨1 <<< 5, 0⟩ := by
  have hp := points_eq items n bn p hn
  have key : ∀ r, (n, r) ∈ resultsOf (judge req warning pretested items answer run) →
      r = if Act.exec n ∈ judge req warning pretested items answer run then
            if Right (answer n) (run n) then ⟨0, p⟩ else ⟨(run n).proc.flags 0 ||| 1, 0⟩
          else ⟨1 <<< 5, 0⟩ := by
    intro r h
    obtain ⟨bn', h⟩ := (results_mem _ _ _).1 h
    obtain ⟨_, _, h | h⟩ := C12_results (world items answer run) req warning pretested items bn' n r h
    · rw [judge, if_pos h.1]
      have := h.2
      simp only [world, C93_case, hp, Option.some.injEq] at this
      exact this.symm
    · rw [judge, if_neg h.1]; exact h.2
  refine ⟨key r, ?_⟩
  rintro rfl
  have := (C93_each req warning pretested items answer run).1
  have hm : n ∈ (resultsOf (judge req warning pretested items answer run)).map Prod.fst := by
    rw [this, List.mem_range'_1]
    have := (List.getElem?_eq_some_iff.1 hn).1
    omega
  obtain ⟨⟨m, r⟩, hm', rfl⟩ := List.mem_map.1 hm
  rw [← key r hm']; exact hm'

private theorem results_list (req warning pretested : Bool) (items : List Item) (answer : Nat → Answer) (run : Nat → Run) 
    (f : Nat → Rat) (hf : ∀ n r, (n, r) ∈ resultsOf (judge req warning pretested items answer run) → r.points = f n) :
    awarded (judge req warning pretested items answer run) = ((List.range' 1 (caseList 0 items).length).map f).sum := by
  rw [awarded, ← (C93_each req warning pretested items answer run).1, List.map_map]
  congr 1
  exact List.map_congr_left fun x hx => hf x.1 x.2 hx

private theorem worth_eq (items : List Item) :
    worth items = ((List.range' 1 (caseList 0 items).length).map (fun n => pointsOf items n)).sum := by
  rw [worth]
  congr 1
  apply List.ext_getElem
  · simp
  · intro i h1 h2
    simp at h1
    simp only [List.getElem_map, List.getElem_range']
    symm
    apply points_eq items (1 + 1 * i) ((caseList 0 items)[i]'h1).1
    simp [List.getElem?_eq_getElem h1]

open Classical in
private theorem award_eq (req warning pretested : Bool) (items : List Item) (answer : Nat → Answer) (run : Nat → Run) :
    awarded (judge req warning pretested items answer run) = ((List.range' 1 (caseList 0 items).length).map (fun n =>
      if Act.exec n ∈ judge req warning pretested items answer run ∧ Right (answer n) (run n) then pointsOf items n else 0)).sum := by
  apply results_list
  intro n r h
  have hm : n ∈ (resultsOf (judge req warning pretested items answer run)).map Prod.fst := List.mem_map.2 ⟨_, h, rfl⟩
  rw [(C93_each req warning pretested items answer run).1, List.mem_range'_1] at hm
  have hlt : n - 1 < (caseList 0 items).length := by omega
  have hx := List.getElem?_eq_getElem hlt
  have hp := points_eq items n _ _ hx
  rw [(C93_result req warning pretested items answer run n r _ _ hm.1 hx).1 h]
  by_cases h1 : Act.exec n ∈ judge req warning pretested items answer run
  · by_cases h2 : Right (answer n) (run n)
    · simp [h1, h2, hp]
    · simp [h1, h2]
  · simp [h1]

/-- C93.  A program that is right on every case gets every point: each case is run and reported without a flag. -/
theorem C93_full (req warning pretested : Bool) (items : List Item) (answer : Nat → Answer) (run : Nat → Run)
    (h : ∀ n, 1 ≤ n → n ≤ (caseList 0 items).length → Right (answer n) (run n)) :
    awarded (judge req warning pretested items answer run) = worth items ∧
    ∀ n bn p, 1 ≤ n → (caseList 0 items)[n - 1]? = some (bn, p) →
      Act.exec n ∈ judge req warning pretested items answer run ∧
      (n, (⟨0, p⟩ : Res)) ∈ resultsOf (judge req warning pretested items answer run) := by
  classical
  have he : ∀ n, 1 ≤ n → n ≤ (caseList 0 items).length → Act.exec n ∈ judge req warning pretested items answer run := by
    intro n h1 h2
    rw [C93_run _ _ _ _ _ _ n h1 h2]
    rintro ⟨j, hj, hx, hw, _⟩
    have := C93_only hx
    exact hw (h j this.1 this.2)
  refine ⟨?_, ?_⟩
  · rw [award_eq, worth_eq]
    congr 1
    apply List.map_congr_left
    intro n hn
    rw [List.mem_range'_1] at hn
    rw [if_pos ⟨he n hn.1 (by omega), h n hn.1 (by omega)⟩]
  · intro n bn p h1 h2
    have hl := (List.getElem?_eq_some_iff.1 h2).1
    have hx := he n h1 (by omega)
    refine ⟨hx, ?_⟩
    rw [C93_result _ _ _ _ _ _ n _ bn p h1 h2, if_pos hx, if_pos (h n h1 (by omega))]

private theorem sum_le {l : List Nat} {f g : Nat → Rat} (h : ∀ n ∈ l, f n ≤ g n) : (l.map f).sum ≤ (l.map g).sum := by
  induction l with
  | nil => simp
  | cons a l ih =>
    simp only [List.map_cons, List.sum_cons]
    exact add_le_add (h a (by simp)) (ih fun n hn => h n (by simp [hn]))

private theorem sum_lt {l : List Nat} {f g : Nat → Rat} (h : ∀ n ∈ l, f n ≤ g n) (m : Nat) (hm : m ∈ l) (hlt : f m < g m) :
    (l.map f).sum < (l.map g).sum := by
  induction l with
  | nil => simp at hm
  | cons a l ih =>
    simp only [List.map_cons, List.sum_cons]
    rcases List.mem_cons.1 hm with rfl | hm
    · exact add_lt_add_of_lt_of_le hlt (sum_le fun n hn => h n (by simp [hn]))
    · exact add_lt_add_of_le_of_lt (h a (by simp)) (ih (fun n hn => h n (by simp [hn])) hm)

private theorem points_mem (items : List Item) (n : Nat) (h1 : 1 ≤ n) (h : n ≤ (caseList 0 items).length) :
    ∃ bn, (bn, pointsOf items n) ∈ caseList 0 items := by
  have hlt : n - 1 < (caseList 0 items).length := by omega
  have hx := List.getElem?_eq_getElem hlt
  refine ⟨((caseList 0 items)[n - 1]).1, ?_⟩
  rw [points_eq items n _ _ hx]
  exact List.getElem_mem hlt

/-- C93.  And only such a program does, if every case is worth something. -/
theorem C93_full_iff (req warning pretested : Bool) (items : List Item) (answer : Nat → Answer) (run : Nat → Run)
    (hp : ∀ bn p, (bn, p) ∈ caseList 0 items → 0 < p) :
    awarded (judge req warning pretested items answer run) = worth items ↔
      ∀ n, 1 ≤ n → n ≤ (caseList 0 items).length → Right (answer n) (run n) := by
  classical
  refine ⟨?_, fun h => (C93_full req warning pretested items answer run h).1⟩
  intro h n h1 h2
  by_contra hw
  have hpos : ∀ m ∈ List.range' 1 (caseList 0 items).length, 0 < pointsOf items m := by
    intro m hm
    rw [List.mem_range'_1] at hm
    obtain ⟨bn, hb⟩ := points_mem items m hm.1 (by omega)
    exact hp _ _ hb
  have hn : n ∈ List.range' 1 (caseList 0 items).length := by rw [List.mem_range'_1]; omega
  have : awarded (judge req warning pretested items answer run) < worth items := by
    rw [award_eq, worth_eq]
    apply sum_lt ?_ n hn
    · rw [if_neg (fun x => hw x.2)]; exact hpos n hn
    · intro m hm
      split
      · exact le_refl _
      · exact le_of_lt (hpos m hm)
  rw [h] at this
  exact lt_irrefl _ this

/-- C93.  Never less than nothing or more than the problem is worth, if no case is worth less than nothing; and nothing for a
program that is right on no case. -/
theorem C93_bounds (req warning pretested : Bool) (items : List Item) (answer : Nat → Answer) (run : Nat → Run) :
    ((∀ bn p, (bn, p) ∈ caseList 0 items → 0 ≤ p) →
      0 ≤ awarded (judge req warning pretested items answer run) ∧
      awarded (judge req warning pretested items answer run) ≤ worth items) ∧
    ((∀ n, ¬ Right (answer n) (run n)) → awarded (judge req warning pretested items answer run) = 0) := by
  classical
  refine ⟨fun hp => ?_, fun h => ?_⟩
  · have hpos : ∀ m ∈ List.range' 1 (caseList 0 items).length, 0 ≤ pointsOf items m := by
      intro m hm
      rw [List.mem_range'_1] at hm
      obtain ⟨bn, hb⟩ := points_mem items m hm.1 (by omega)
      exact hp _ _ hb
    rw [award_eq, worth_eq]
    constructor
    · apply List.sum_nonneg
      intro x hx
      obtain ⟨m, hm, rfl⟩ := List.mem_map.1 hx
      split
      · exact hpos m hm
      · exact le_refl _
    · apply sum_le
      intro m hm
      split
      · exact le_refl _
      · exact hpos m hm
  · rw [award_eq]
    apply List.sum_eq_zero
    intro x hx
    obtain ⟨m, hm, rfl⟩ := List.mem_map.1 hx
    rw [if_neg fun y => h m y.2]

open Classical in
/-- C93.  A problem without batches and without free cases, short-circuiting not requested: every case is run, and the points are
those of the cases on which the program is right. -/
theorem C93_plain (warning pretested : Bool) (items : List Item) (answer : Nat → Answer) (run : Nat → Run)
    (hp : ∀ bn p, (bn, p) ∈ caseList 0 items → bn = none ∧ p ≠ 0) :
    (∀ n, 1 ≤ n → n ≤ (caseList 0 items).length → Act.exec n ∈ judge false warning pretested items answer run) ∧
    awarded (judge false warning pretested items answer run) =
      ((caseList 0 items).zipIdx.map (fun x => if Right (answer (x.2 + 1)) (run (x.2 + 1)) then x.1.2 else 0)).sum := by
  have he : ∀ n, 1 ≤ n → n ≤ (caseList 0 items).length → Act.exec n ∈ judge false warning pretested items answer run := by
    intro n h1 h2
    rw [C93_run _ _ _ _ _ _ n h1 h2]
    rintro ⟨j, hj, hx, hw, h | ⟨b, h⟩ | ⟨b, p, q, h, _⟩⟩
    · cases h
    · exact (hp _ _ (List.mem_of_getElem? h)).2 rfl
    · have := (hp _ _ (List.mem_of_getElem? h)).1; cases this
  refine ⟨he, ?_⟩
  rw [award_eq]
  congr 1
  apply List.ext_getElem
  · simp
  · intro i h1 h2
    simp at h2
    have hx : (caseList 0 items)[i + 1 - 1]? = some ((caseList 0 items)[i]) := by simp [List.getElem?_eq_getElem h2]
    simp [List.getElem_range', Nat.add_comm 1 i, he (i + 1) (by omega) (by omega), points_eq items (i + 1) _ _ hx]

/-- C93.  If short-circuiting was requested, a case is run exactly if the program is right on all cases before it. -/
theorem C93_short (warning pretested : Bool) (items : List Item) (answer : Nat → Answer) (run : Nat → Run) (n : Nat)
    (h1 : 1 ≤ n) (hn : n ≤ (caseList 0 items).length) :
    Act.exec n ∈ judge true warning pretested items answer run ↔ ∀ j, 1 ≤ j → j < n → Right (answer j) (run j) := by
  rw [C93_run _ _ _ _ _ _ n h1 hn]
  constructor
  · intro h j
    induction j using Nat.strongRecOn with
    | _ j ih =>
      intro j1 jn
      by_contra hw
      apply h
      refine ⟨j, jn, ?_, hw, Or.inl rfl⟩
      rw [C93_run _ _ _ _ _ _ j j1 (by omega)]
      rintro ⟨i, hi, hx, hw', _⟩
      exact hw' (ih i hi (C93_only hx).1 (by omega))
  · rintro h ⟨j, hj, hx, hw, _⟩
    exact hw (h j (C93_only hx).1 hj)

/-- C93.  Two programs, the second right wherever the first is: then it gets no fewer points, provided that no case of a batch is
free or that short-circuiting was requested.  Missing: batches with free cases, see `C93_better_fails`. -/
theorem C93_better_partial (req warning pretested : Bool) (items : List Item) (answer : Nat → Answer) (run run' : Nat → Run)
    (hp : ∀ bn p, (bn, p) ∈ caseList 0 items → 0 ≤ p) (hf : NoFreeInBatch items ∨ req = true)
    (h : ∀ n, Right (answer n) (run n) → Right (answer n) (run' n)) :
    (∀ n, Act.exec n ∈ judge req warning pretested items answer run → Act.exec n ∈ judge req warning pretested items answer run') ∧
    awarded (judge req warning pretested items answer run) ≤ awarded (judge req warning pretested items answer run') := by
  classical
  have he : ∀ n, Act.exec n ∈ judge req warning pretested items answer run →
      Act.exec n ∈ judge req warning pretested items answer run' := by
    intro n hx
    obtain ⟨n1, n2⟩ := C93_only hx
    rw [C93_run _ _ _ _ _ _ n n1 n2]
    rintro ⟨j, hj, jx, jw, jc⟩
    obtain ⟨j1, j2⟩ := C93_only jx
    have jw' : ¬ Right (answer j) (run j) := fun x => jw (h j x)
    rw [C93_run _ _ _ _ _ _ n n1 n2] at hx
    by_cases jx' : Act.exec j ∈ judge req warning pretested items answer run
    · exact hx ⟨j, hj, jx', jw', jc⟩
    · rw [C93_run _ _ _ _ _ _ j j1 j2, not_not] at jx'
      obtain ⟨i, hi, ix, iw, ic⟩ := jx'
      apply hx
      refine ⟨i, by omega, ix, iw, ?_⟩
      rcases ic with ic | ic | ⟨c, p, q, c1, c2⟩
      · exact Or.inl ic
      · exact Or.inr (Or.inl ic)
      · rcases jc with jc | ⟨c', jc⟩ | ⟨c', p', q', jc1, jc2⟩
        · exact Or.inl jc
        · rw [c2] at jc
          rcases hf with hf | hf
          · injection jc with jc
            injection jc with _ jc
            subst jc
            exact absurd rfl (hf c 0 (List.mem_of_getElem? c2))
          · exact Or.inl hf
        · rw [c2] at jc1
          injection jc1 with jc1
          injection jc1 with e1 _
          injection e1 with e1
          subst e1
          exact Or.inr (Or.inr ⟨c, p, q', c1, jc2⟩)
  refine ⟨he, ?_⟩
  rw [award_eq, award_eq]
  apply sum_le
  intro m hm
  rw [List.mem_range'_1] at hm
  obtain ⟨bn, hb⟩ := points_mem items m hm.1 (by omega)
  by_cases hx : Act.exec m ∈ judge req warning pretested items answer run ∧ Right (answer m) (run m)
  · rw [if_pos hx, if_pos ⟨he m hx.1, h m hx.2⟩]
  · rw [if_neg hx]
    split
    · exact hp _ _ hb
    · exact le_refl _

/-- A clean run. -/
def cleanRun (out : Bytes) : Run := ⟨⟨0, 0, 0, 0, 0, false, false, false, false⟩, out, ""⟩

/-- Three cases: a batch of one worth 5 and a free one, then one worth 10. -/
def freeInBatch : List Item := [.batch 1 [⟨0, 1, 5⟩, ⟨1, 1, 0⟩], .one ⟨2, 0, 10⟩]

/-- The answer to each is `1`. -/
def ones (_ : Nat) : Answer := ⟨false, some (b "1\n")⟩

/-- C93.  A free case in a batch: a program that is wrong on the first case and on the free one gets 10 points. The same program
corrected on the first case gets 5: now the free case is run, and its failure ends the grading. -/
theorem C93_better_fails :
    ∃ (items : List Item) (answer : Nat → Answer) (run run' : Nat → Run),
      (∀ bn p, (bn, p) ∈ caseList 0 items → 0 ≤ p) ∧ (∀ n, Right (answer n) (run n) → Right (answer n) (run' n)) ∧
      awarded (judge false false false items answer run) = 10 ∧ awarded (judge false false false items answer run') = 5 := by
  refine ⟨freeInBatch, ones, fun n => cleanRun (if n = 3 then b "1" else b "2"),
    fun n => cleanRun (if n = 2 then b "2" else b "1"), ?_, ?_, ?_, ?_⟩
  · intro bn p h
    simp [freeInBatch, caseList] at h
    rcases h with h | h | h <;> rw [h.2] <;> decide
  · intro n hn
    dsimp only at hn ⊢
    by_cases h3 : n = 3
    · subst h3; exact hn
    · rw [if_neg h3] at hn
      exact absurd hn.2 (by show tokenLines (b "2") ≠ tokenLines (b "1\n"); decide +kernel)
  · decide +kernel
  · decide +kernel

/-- A program that prints `1` (and spaces) is right, one that prints `2` or crashes is not. -/
example : Right (ones 1) (cleanRun (b " 1 ")) ∧ ¬ Right (ones 1) (cleanRun (b "2")) ∧
    ¬ Right (ones 1) { cleanRun (b "1") with proc := ⟨-11, 0, 0, 0, 0, false, false, false, false⟩ } := by
  refine ⟨⟨⟨rfl, rfl, rfl, Or.inl rfl, Or.inl rfl, rfl⟩, by decide +kernel⟩, fun h => absurd h.2 (by decide +kernel), fun h => ?_⟩
  have := h.1.exit; simp at this

example : judge false true false freeInBatch ones (fun n => cleanRun (if n = 1 then b "2" else b "1")) =
    [.send .compileMessage, .send (.gradingBegin false), .send (.batchBegin 1), .exec 1, .send (.result (some 1) 1 ⟨1, 0⟩),
     .send (.result (some 1) 2 ⟨32, 0⟩), .send (.batchEnd 1), .exec 3, .send (.result none 3 ⟨0, 10⟩), .send .gradingEnd] := by
  decide +kernel

example : NoFreeInBatch [.batch 1 [⟨0, 1, 5⟩], .one ⟨1, 0, 0⟩] := by
  intro b p h; simp [caseList] at h; simp [h]

end Verif.Props
