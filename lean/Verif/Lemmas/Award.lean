import Verif.Props.Worker
import Verif.Props.Verdict
import Verif.Spec.Submission

/-! # Any grading that is not aborted: its results and their sum -/

namespace Verif.Award
open Verif Spec Worker Props Verif.Submission

theorem results_marks (l : List Act) : (resultsOf l).map Prod.fst = (marks l).filterMap caseNo? := by
  induction l with
  | nil => rfl
  | cons a l ih =>
    rw [marks] at ih ⊢
    cases a with
    | exec n => simpa [resultsOf, mark, List.filterMap_cons] using ih
    | send e => cases e <;> simpa [resultsOf, mark, caseNo?, List.filterMap_cons] using ih

theorem results_mem (l : List Act) (n : Nat) (r : Res) :
    (n, r) ∈ resultsOf l ↔ ∃ bn, Act.send (.result bn n r) ∈ l := by
  induction l with
  | nil => simp [resultsOf]
  | cons a l ih =>
    cases a with
    | exec m => simp [resultsOf, ih]
    | send e => cases e <;> simp [resultsOf, ih]; grind

theorem length_eq (items : List Item) : (flatten 0 items).length = (caseList 0 items).length := by
  rw [← flatten_caseList, List.length_map]

theorem only {w : World} {req warning pretested : Bool} {items : List Item} {n : Nat}
    (h : Act.exec n ∈ gradeCases w req (.ok warning pretested items)) : 1 ≤ n ∧ n ≤ (caseList 0 items).length := by
  obtain ⟨k, hk, hinv⟩ := final_inv w req warning pretested items
  have := hinv.range n h
  have := length_eq items
  omega

theorem points_eq (items : List Item) (n : Nat) (bn : Option Nat) (p : Rat)
    (h : (caseList 0 items)[n - 1]? = some (bn, p)) : pointsOf items n = p := by
  rw [← flatten_caseList, List.getElem?_map] at h
  rw [pointsOf]
  cases hx : (flatten 0 items)[n - 1]? with
  | none => simp [hx] at h
  | some x => simp [hx] at h; simp [h.2]

theorem points_mem (items : List Item) (n : Nat) (h1 : 1 ≤ n) (h : n ≤ (caseList 0 items).length) :
    ∃ bn, (bn, pointsOf items n) ∈ caseList 0 items := by
  have hlt : n - 1 < (caseList 0 items).length := by omega
  have hx := List.getElem?_eq_getElem hlt
  refine ⟨((caseList 0 items)[n - 1]).1, ?_⟩
  rw [points_eq items n _ _ hx]
  exact List.getElem_mem hlt

theorem worth_eq (items : List Item) :
    worth items = ((List.range' 1 (caseList 0 items).length).map (fun n => pointsOf items n)).sum := by
  rw [worth]
  congr 1
  apply List.ext_getElem
  · simp
  · intro i h1 h2
    simp at h1
    simp only [List.getElem_map, List.getElem_range']
    symm
    apply points_eq items (1 + 1 * i) ((caseList 0 items)[i]'h1).1
    simp [List.getElem?_eq_getElem h1]

theorem sum_le {l : List Nat} {f g : Nat → Rat} (h : ∀ n ∈ l, f n ≤ g n) : (l.map f).sum ≤ (l.map g).sum := by
  induction l with
  | nil => simp
  | cons a l ih =>
    simp only [List.map_cons, List.sum_cons]
    exact add_le_add (h a (by simp)) (ih fun n hn => h n (by simp [hn]))

theorem sum_lt {l : List Nat} {f g : Nat → Rat} (h : ∀ n ∈ l, f n ≤ g n) (m : Nat) (hm : m ∈ l) (hlt : f m < g m) :
    (l.map f).sum < (l.map g).sum := by
  induction l with
  | nil => simp at hm
  | cons a l ih =>
    simp only [List.map_cons, List.sum_cons]
    rcases List.mem_cons.1 hm with rfl | hm
    · exact add_lt_add_of_lt_of_le hlt (sum_le fun n hn => h n (by simp [hn]))
    · exact add_lt_add_of_le_of_lt (h a (by simp)) (ih (fun n hn => h n (by simp [hn])) hm)

/-- The cases that can be asked for give results, and nobody aborts. -/
structure Calm (w : World) (items : List Item) : Prop where
  some : ∀ n, 1 ≤ n → n ≤ (caseList 0 items).length → ∃ r, w.grade n = some r
  on : ∀ n, w.aborted n = false

theorem each {w : World} {items : List Item} (h : Calm w items) (req warning pretested : Bool) :
    (resultsOf (gradeCases w req (.ok warning pretested items))).map Prod.fst = List.range' 1 (caseList 0 items).length ∧
    (gradeCases w req (.ok warning pretested items)).getLast? = some (.send .gradingEnd) := by
  obtain ⟨acts0, c, _, hm, _, hc, hi, he⟩ := Worker.grade_ctl w req warning pretested items
  cases c with
  | next s =>
    rw [he]
    dsimp only
    refine ⟨?_, by simp⟩
    rw [results_marks, marks_append, hc.1, hm]
    simp [marks, mark, caseNo?, C11_numbers, List.filterMap_cons, List.filterMap_append]
  | stop a =>
    obtain ⟨k', hk, hinv, a0, _, _, hx⟩ := hi
    have hmem : Act.exec k' ∈ a := by rcases hx with hx | hx <;> rw [hx.1] <;> simp
    have hr := hinv.range k' hmem
    obtain ⟨r, hr⟩ := h.some k' hr.1 (by have := length_eq items; omega)
    rcases hx with hx | hx
    · rw [hx.2] at hr; cases hr
    · rw [h.on] at hx; cases hx.2.1

theorem is_run {w : World} {items : List Item} (h : Calm w items) (req warning pretested : Bool) (n : Nat)
    (h1 : 1 ≤ n) (hn : n ≤ (caseList 0 items).length) :
    Act.exec n ∈ gradeCases w req (.ok warning pretested items) ↔
      ¬ ∃ j < n, Failed w (gradeCases w req (.ok warning pretested items)) j ∧ Cuts req (caseList 0 items) j n := by
  have hm : n ∈ (resultsOf (gradeCases w req (.ok warning pretested items))).map Prod.fst := by
    rw [(each h req warning pretested).1, List.mem_range'_1]; omega
  obtain ⟨⟨m, r⟩, hm', rfl⟩ := List.mem_map.1 hm
  obtain ⟨bn, hr⟩ := (results_mem _ _ _).1 hm'
  exact C12_skip_iff w req warning pretested items m (Or.inr ⟨bn, r, hr⟩)

open Classical in
theorem result {w : World} {items : List Item} (h : Calm w items) (req warning pretested : Bool) (n : Nat) (r : Res)
    (h1 : 1 ≤ n) (hn : n ≤ (caseList 0 items).length) :
    (n, r) ∈ resultsOf (gradeCases w req (.ok warning pretested items)) ↔
      some r = if Act.exec n ∈ gradeCases w req (.ok warning pretested items) then w.grade n else some ⟨1 <<< 5, 0⟩ := by
  have key : ∀ r, (n, r) ∈ resultsOf (gradeCases w req (.ok warning pretested items)) →
      some r = if Act.exec n ∈ gradeCases w req (.ok warning pretested items) then w.grade n else some ⟨1 <<< 5, 0⟩ := by
    intro r h
    obtain ⟨bn', h⟩ := (results_mem _ _ _).1 h
    obtain ⟨_, _, h | h⟩ := C12_results w req warning pretested items bn' n r h
    · rw [if_pos h.1]; exact h.2.symm
    · rw [if_neg h.1, h.2]; rfl
  refine ⟨key r, fun hr => ?_⟩
  have hm : n ∈ (resultsOf (gradeCases w req (.ok warning pretested items))).map Prod.fst := by
    rw [(each h req warning pretested).1, List.mem_range'_1]; omega
  obtain ⟨⟨m, r'⟩, hm', rfl⟩ := List.mem_map.1 hm
  have := (key r' hm').trans hr.symm
  injection this with this
  rw [← this]; exact hm'

open Classical in
theorem sum_eq {w : World} {items : List Item} (h : Calm w items) (req warning pretested : Bool) (f : Nat → Rat)
    (hf : ∀ n r, 1 ≤ n → n ≤ (caseList 0 items).length → Act.exec n ∈ gradeCases w req (.ok warning pretested items) → w.grade n = some r → r.points = f n) :
    awarded (gradeCases w req (.ok warning pretested items)) = ((List.range' 1 (caseList 0 items).length).map fun n =>
      if Act.exec n ∈ gradeCases w req (.ok warning pretested items) then f n else 0).sum := by
  rw [awarded, ← (each h req warning pretested).1, List.map_map]
  congr 1
  apply List.map_congr_left
  rintro ⟨n, r⟩ hx
  have hm : n ∈ (resultsOf (gradeCases w req (.ok warning pretested items))).map Prod.fst := List.mem_map.2 ⟨_, hx, rfl⟩
  rw [(each h req warning pretested).1, List.mem_range'_1] at hm
  have hr := (result h req warning pretested n r hm.1 (by omega)).1 hx
  dsimp only [Function.comp]
  by_cases he : Act.exec n ∈ gradeCases w req (.ok warning pretested items)
  · rw [if_pos he] at hr ⊢
    exact hf n r hm.1 (by omega) he hr.symm
  · rw [if_neg he] at hr ⊢
    injection hr with hr
    rw [hr]

theorem no_finish (n i : Nat) (items : List Item) : Mark.finish ∉ layout n i items := by
  induction items generalizing n i with
  | nil => simp [layout]
  | cons x r ih =>
    cases x with
    | one c => simp [layout, ih]
    | batch d cs =>
      rw [layout, List.mem_append]
      rintro (h | h)
      · split at h <;> simp [caseMarks] at h
      · exact ih _ _ h

/-- An exception ends everything. -/
theorem broken {w : World} {req warning pretested : Bool} {items : List Item} {n : Nat}
    (hn : Act.exec n ∈ gradeCases w req (.ok warning pretested items)) (hg : w.grade n = none) :
    (∃ a, gradeCases w req (.ok warning pretested items) = a ++ [.exec n] ∧ ∀ m, Act.exec m ∈ a → m < n) ∧
    (∀ r, (n, r) ∉ resultsOf (gradeCases w req (.ok warning pretested items))) ∧
    Act.send .gradingEnd ∉ gradeCases w req (.ok warning pretested items) := by
  obtain ⟨acts0, c, _, hm, _, hc, hi, he⟩ := Worker.grade_ctl w req warning pretested items
  have hres : ∀ r, (n, r) ∉ resultsOf (gradeCases w req (.ok warning pretested items)) := by
    intro r hr
    obtain ⟨bn, hr⟩ := (results_mem _ _ _).1 hr
    obtain ⟨_, _, h | h⟩ := C12_results w req warning pretested items bn n r hr
    · rw [hg] at h; cases h.2
    · exact h.1 hn
  cases c with
  | next s =>
    obtain ⟨_, _, _, hq⟩ := hi
    rw [he] at hn
    have hn : Act.exec n ∈ s.acts := by simpa using hn
    obtain ⟨_, r, hr⟩ := hq.1 n hn
    rw [hg] at hr; cases hr
  | stop a =>
    obtain ⟨k', hk, hinv, a0, hq, hlt, hx⟩ := hi
    have hkn : n = k' := by
      rw [he] at hn
      by_contra hne
      have hn0 : Act.exec n ∈ a0 := by
        rcases hx with hx | hx <;> rw [hx.1] at hn <;> simp [hne] at hn <;> exact hn
      obtain ⟨_, r, hr⟩ := hq.1 n hn0
      rw [hg] at hr; cases hr
    subst hkn
    rcases hx with hx | ⟨_, _, r, hr⟩
    · refine ⟨⟨a0, by rw [he]; exact hx.1, hlt⟩, hres, ?_⟩
      intro hend
      rw [he] at hend
      have hend : Act.send .gradingEnd ∈ a := hend
      obtain ⟨p, hp, _, hor⟩ := hc
      have hmk : Mark.finish ∈ marks a := List.mem_filterMap.2 ⟨_, hend, rfl⟩
      have hno : Mark.finish ∉ layout 0 0 items := no_finish 0 0 items
      rcases hor with hor | hor <;> rw [hor, hm] at hmk <;> simp at hmk <;> exact hno (hp.subset hmk)
    · rw [hg] at hr; cases hr

end Verif.Award
