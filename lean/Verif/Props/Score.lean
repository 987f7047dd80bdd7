import Verif.Props.Helped
import Verif.Props.Site
import Verif.Spec.Score

/-! # C96: the points the site adds up -/

namespace Verif.Props
open Verif Verif.Spec Worker Verif.Submission Helped Helped.Spec Score Score.Spec Judge Site

/-! ## One case -/

/-- The process of a case. -/
private def procOf : Job → Process.Proc
  | .standard _ r => r.proc
  | .own r _ => r.proc

private theorem right_clear {a : Answer} {r : Run} (h : Right a r) : r.proc.flags 0 = 0 := (C42_clean_iff r.proc).2 h.1

private theorem job_case (value : Rat) (j : Job) :
    (∀ right points, Decides value j (.graded right points) →
      j.grade value = some ⟨(procOf j).flags 0 ||| (if right then 0 else 1), points⟩) ∧
    (Decides value j .broken → j.grade value = none) := by
  classical
  constructor
  · intro right points h
    cases h with
    | right a r h => simp [Job.grade, C93_case, h, procOf, right_clear h]
    | wrong a r h => simp [Job.grade, C93_case, h, procOf]
    | own r s _ h => exact (C95_case value r s).1 _ _ h
  · intro h
    cases h with
    | own r s _ h => exact (C95_case value r s).2 h

private theorem job_some (value : Rat) (j : Job) : ∃ o, Decides value j o := by
  cases j with
  | standard a r =>
    by_cases h : Right a r
    · exact ⟨_, .right a r h⟩
    · exact ⟨_, .wrong a r h⟩
  | own r s =>
    obtain ⟨o, ho, _⟩ := C95_one value r s
    exact ⟨o, .own r s o ho⟩

private theorem job_back {value : Rat} {j : Job} {r : Res} (h : j.grade value = some r) :
    ∃ right, Decides value j (.graded right r.points) := by
  obtain ⟨o, ho⟩ := job_some value j
  cases o with
  | broken => rw [(job_case value j).2 ho] at h; cases h
  | graded right x =>
    rw [(job_case value j).1 _ _ ho] at h
    injection h with h
    subst h
    exact ⟨right, ho⟩

private theorem job_bounds {value : Rat} {j : Job} {right : Bool} {x : Rat} (hv : 0 ≤ value)
    (hs : ∀ r right x t, j ≠ .own r (.code (.ret (.result right x t)))) (h : Decides value j (.graded right x)) :
    0 ≤ x ∧ x ≤ value ∧ (right = false → x = 0) := by
  cases h with
  | right a r h => exact ⟨hv, le_refl _, by simp⟩
  | wrong a r h => exact ⟨le_refl _, hv, by simp⟩
  | own r s _ h => exact gets_bounds hv (fun right x t e => hs r right x t (by rw [e])) h

/-! ## Reports -/

private theorem numbers_append (x y : List Site.Item) : numbers (x ++ y) = numbers x ++ numbers y := by
  induction x with
  | nil => rfl
  | cons a x ih => cases a <;> simp [numbers, ih]

private theorem numbers_prefix {x y : List Site.Item} (h : x <+: y) : numbers x <+: numbers y := by
  obtain ⟨z, rfl⟩ := h
  rw [numbers_append]
  exact List.prefix_append _ _

private theorem numbers_sends (sid : Nat) (l : List Act) : numbers (told sid (sends l)) = (resultsOf l).map Prod.fst := by
  induction l with
  | nil => rfl
  | cons a l ih =>
    cases a with
    | exec n => simpa [sends, resultsOf] using ih
    | send e =>
      rw [sends, ← List.singleton_append, told_append, told_one, numbers_append, ih]
      cases e <;> simp [toMsg, tell, numbers, resultsOf]

private theorem numbers_work (sid : Nat) (t : Task) :
    numbers (told sid (workerMsgs t.work)) = (resultsOf t.acts).map Prod.fst := by
  rw [Task.work, workerMsgs, List.cons_append, ← List.singleton_append, told_append, told_append, numbers_append, numbers_append,
    numbers_sends]
  have h1 : numbers (told sid [.hello]) = [] := rfl
  have h2 : ∀ b : Bool, numbers (told sid (if b then [.unhandled] else [])) = [] := by intro b; cases b <;> rfl
  rw [h1, h2]
  simp [Task.acts]

private theorem told_prefix {sid : Nat} {p q : List Msg} (h : p <+: q) : told sid p <+: told sid q := by
  obtain ⟨z, rfl⟩ := h
  rw [told_append]
  exact List.prefix_append _ _

private theorem about_told (sid : Nat) (p : List Msg) : ∀ i ∈ told sid p, about i = sid := by
  intro i hi
  simp only [told, List.mem_flatMap] at hi
  obtain ⟨m, _, hi⟩ := hi
  cases m <;> simp [tell] at hi <;> subst hi <;> rfl

private theorem end_told {sid : Nat} {p : List Msg} (h : Site.Item.packet .gradingEnd sid ∈ told sid p) : Msg.gradingEnd ∈ p := by
  simp only [told, List.mem_flatMap] at h
  obtain ⟨m, hm, hi⟩ := h
  cases m <;> simp [tell] at hi
  exact hm

private theorem end_sends {l : List Act} (h : Msg.gradingEnd ∈ sends l) : Act.send .gradingEnd ∈ l := by
  induction l with
  | nil => simp [sends] at h
  | cons a l ih =>
    cases a with
    | exec n => simp [sends] at h; simp [ih h]
    | send e =>
      simp only [sends, List.mem_cons] at h
      rcases h with h | h
      · cases e <;> simp [toMsg] at h
        simp
      · simp [ih h]

/-- The end of the grading is announced only after everything else. -/
private theorem ends_all (t : Task) (h : Act.send .gradingEnd ∈ t.acts) :
    ∃ a, t.acts = a ++ [.send .gradingEnd] ∧ Act.send .gradingEnd ∉ a ∧
      (resultsOf t.acts).map Prod.fst = List.range' 1 (caseList 0 t.items).length := by
  obtain ⟨acts0, c, _, hm, _, hc, hi, he⟩ := Worker.grade_ctl t.world t.shortCircuit t.warning t.pretested t.items
  have hno : Mark.finish ∉ layout 0 0 t.items := Award.no_finish 0 0 t.items
  rw [Task.acts] at h ⊢
  rw [he] at h ⊢
  cases c with
  | next s =>
    dsimp only
    refine ⟨s.acts, rfl, ?_, ?_⟩
    · intro hend
      have hmk : Mark.finish ∈ marks s.acts := List.mem_filterMap.2 ⟨_, hend, rfl⟩
      rw [hc.1, hm] at hmk
      simp at hmk
      exact hno hmk
    · rw [Award.results_marks, marks_append, hc.1, hm]
      simp [marks, mark, caseNo?, C11_numbers, List.filterMap_cons, List.filterMap_append]
  | stop a =>
    exfalso
    have hmk : Mark.finish ∈ marks a := List.mem_filterMap.2 ⟨_, h, rfl⟩
    obtain ⟨p, hp, _, hor⟩ := hc
    rcases hor with hor | hor <;> rw [hor, hm] at hmk <;> simp at hmk <;> exact hno (hp.subset hmk)

private theorem sends_append (a c : List Act) : sends (a ++ c) = sends a ++ sends c := by
  induction a with
  | nil => rfl
  | cons x a ih => cases x <;> simp [sends, ih]

private theorem whole {α : Type} {p q z : List α} {x : α} (h : p <+: q ++ x :: z) (hq : x ∉ q) (hp : x ∈ p) :
    ∃ z', p = q ++ x :: z' ∧ z' <+: z := by
  induction q generalizing p with
  | nil =>
    rcases List.prefix_cons_iff.1 h with rfl | ⟨y, rfl, hy⟩
    · simp at hp
    · exact ⟨y, rfl, hy⟩
  | cons a q ih =>
    rcases List.prefix_cons_iff.1 h with rfl | ⟨y, rfl, hy⟩
    · simp at hp
    · simp only [List.mem_cons, not_or] at hq hp
      obtain ⟨z', rfl, hz⟩ := ih hy hq.2 (hp.resolve_left hq.1)
      exact ⟨z', rfl, hz⟩

private theorem end_sent {t : Task} {p : List Msg} (hp : p <+: workerMsgs t.work) (h : Msg.gradingEnd ∈ p) :
    ∃ a, p = (.hello :: sends a) ++ [.gradingEnd] ∧ t.acts = a ++ [.send .gradingEnd] ∧ Msg.gradingEnd ∉ .hello :: sends a := by
  have hm : Msg.gradingEnd ∈ workerMsgs t.work := hp.subset h
  have ha : Act.send .gradingEnd ∈ t.acts := by
    apply end_sends
    rw [Task.work, workerMsgs] at hm
    simp only [List.cons_append, List.mem_cons, List.mem_append, reduceCtorEq, false_or] at hm
    rcases hm with hm | hm
    · exact hm
    · split at hm <;> simp at hm
  obtain ⟨a, ea, hna, _⟩ := ends_all t ha
  have e : workerMsgs t.work = (.hello :: sends a) ++ [.gradingEnd] := by
    rw [Task.work, workerMsgs]
    have : gradeCases t.world t.shortCircuit (.ok t.warning t.pretested t.items) = a ++ [.send .gradingEnd] := ea
    rw [this]
    simp [raised, sends_append, sends, toMsg]
  have hno : Msg.gradingEnd ∉ .hello :: sends a := by
    intro hx
    simp only [List.mem_cons, reduceCtorEq, false_or] at hx
    exact hna (end_sends hx)
  rw [e] at hp
  obtain ⟨z, rfl, hz⟩ := whole hp hno h
  rw [List.prefix_nil.1 hz]
  exact ⟨a, rfl, ea, hno⟩

private theorem pointsIn_mem {l : List (Nat × Res)} {n : Nat} (h : n ∈ l.map Prod.fst) : ∃ r, (n, r) ∈ l ∧ pointsIn l n = r.points := by
  unfold pointsIn
  cases hf : l.find? (fun x => x.1 = n) with
  | none =>
    obtain ⟨x, hx, rfl⟩ := List.mem_map.1 h
    have := List.find?_eq_none.1 hf x hx
    simp at this
  | some x =>
    have h1 := List.find?_some hf
    have h2 := List.mem_of_find?_eq_some hf
    simp at h1
    subst h1
    exact ⟨x.2, h2, rfl⟩

private theorem acts_prefix (t : Task) : (resultsOf t.acts).map Prod.fst <+: List.range' 1 (caseList 0 t.items).length := by
  rw [Award.results_marks]
  have hn := C11_numbers 0 0 t.items
  have hf : (fullStream t.items).filterMap caseNo? = List.range' 1 (caseList 0 t.items).length := by
    rw [← hn]; rfl
  have h0 : [Mark.finish].filterMap caseNo? = [] := rfl
  have h1 : [Mark.abort].filterMap caseNo? = [] := rfl
  rcases C11_stream t.world t.shortCircuit t.warning t.pretested t.items with h | ⟨p, hp, _, h | h⟩
  · rw [Task.acts, h, List.filterMap_append, hf, h0, List.append_nil]
  · rw [Task.acts, h, ← hf]; exact hp.filterMap _
  · rw [Task.acts, h, List.filterMap_append, ← hf, h1, List.append_nil]; exact hp.filterMap caseNo?

private theorem partly_prefix {sid : Nat} {t : Task} {y : List Site.Item} (h : Partly sid t.work y) :
    numbers y <+: (resultsOf t.acts).map Prod.fst := by
  obtain ⟨p, hp, hy⟩ := h
  have h1 := numbers_prefix hy
  have hn : numbers (told sid p ++ [.packet .internalError sid]) = numbers (told sid p) := by simp [numbers_append, numbers]
  rw [hn] at h1
  have h2 := numbers_prefix (told_prefix (sid := sid) hp)
  rw [numbers_work] at h2
  exact h1.trans h2

private theorem partly_end {sid : Nat} {t : Task} {y : List Site.Item} (h : Partly sid t.work y)
    (he : Site.Item.packet .gradingEnd sid ∈ y) : numbers y = (resultsOf t.acts).map Prod.fst ∧ Act.send .gradingEnd ∈ t.acts := by
  obtain ⟨p, hp, hy⟩ := h
  have hp' : Msg.gradingEnd ∈ p := by
    rcases List.mem_append.1 (hy.subset he) with h | h
    · exact end_told h
    · simp at h
  obtain ⟨a, rfl, ha, hno⟩ := end_sent hp hp'
  have e1 : told sid (Msg.hello :: sends a ++ [.gradingEnd]) ++ [.packet .internalError sid] =
      told sid (Msg.hello :: sends a) ++ .packet .gradingEnd sid :: [.packet .internalError sid] := by
    rw [told_append, told_one]; simp [tell]
  rw [e1] at hy
  obtain ⟨z, rfl, hz⟩ := whole hy (fun hx => hno (end_told hx)) he
  have hz0 : numbers z = [] := by
    have := numbers_prefix hz
    exact List.prefix_nil.1 this
  refine ⟨?_, by rw [ha]; simp⟩
  have e2 : told sid (Msg.hello :: sends a) = told sid (sends a) := rfl
  rw [numbers_append, numbers, hz0, e2, numbers_sends, ha, Award.results_marks, Award.results_marks, marks_append,
    List.filterMap_append]
  rfl

/-! ## The properties -/

/-- C96.  Whatever the site has of a report: it is about the submission, its results are those of the first cases, in order; and if
it says that the grading is over, they are those of all cases. -/
theorem C96_told (sid : Nat) (t : Task) (y : List Site.Item) (h : Partly sid t.work y) :
    (∀ i ∈ y, about i = sid) ∧ numbers y <+: List.range' 1 (caseList 0 t.items).length ∧
    (.packet .gradingEnd sid ∈ y → numbers y = List.range' 1 (caseList 0 t.items).length) := by
  refine ⟨fun i hi => ?_, (partly_prefix h).trans (acts_prefix t), fun he => ?_⟩
  · obtain ⟨p, hp, hy⟩ := h
    rcases List.mem_append.1 (hy.subset hi) with h | h
    · exact about_told sid p i h
    · simp at h; subst h; rfl
  · obtain ⟨e, hx⟩ := partly_end h he
    obtain ⟨_, _, _, e2⟩ := ends_all t hx
    rw [e, e2]

/-- C96.  The points of each result the site has: what comes of the case by the rules of C93 and C95 if the case was run, and nothing
if it was not. -/
theorem C96_each (sid : Nat) (t : Task) (y : List Site.Item) (h : Partly sid t.work y) (n : Nat) (hn : n ∈ numbers y) :
    ∃ bn p, 1 ≤ n ∧ (caseList 0 t.items)[n - 1]? = some (bn, p) ∧
      ((Act.exec n ∈ t.acts ∧ ∃ right, Decides p (t.job n) (.graded right (pointsIn (resultsOf t.acts) n))) ∨
       (Act.exec n ∉ t.acts ∧ pointsIn (resultsOf t.acts) n = 0)) := by
  obtain ⟨r, hr, e⟩ := pointsIn_mem ((partly_prefix h).subset hn)
  obtain ⟨bn, hr⟩ := (Award.results_mem _ _ _).1 hr
  obtain ⟨h1, ⟨p, hp⟩, hx⟩ := C12_results _ _ _ _ _ bn n r hr
  refine ⟨bn, p, h1, hp, ?_⟩
  rw [e]
  rcases hx with ⟨hx, hg⟩ | ⟨hx, rfl⟩
  · left
    refine ⟨hx, ?_⟩
    have hg : (t.job n).grade (pointsOf t.items n) = some r := hg
    rw [Award.points_eq _ _ _ _ hp] at hg
    exact job_back hg
  · exact Or.inr ⟨hx, rfl⟩

private theorem each_le {sid : Nat} {t : Task} {y : List Site.Item} (h : Partly sid t.work y) (hs : Score.Spec.NoAward t)
    (hp : ∀ bn p, (bn, p) ∈ caseList 0 t.items → 0 ≤ p) (n : Nat) (hn : n ∈ numbers y) :
    0 ≤ pointsIn (resultsOf t.acts) n ∧ pointsIn (resultsOf t.acts) n ≤ pointsOf t.items n := by
  obtain ⟨bn, p, h1, hx, hd⟩ := C96_each sid t y h n hn
  have h0 := hp _ _ (List.mem_of_getElem? hx)
  rw [Award.points_eq _ _ _ _ hx]
  rcases hd with ⟨_, right, hd⟩ | ⟨_, e⟩
  · have := job_bounds h0 (hs n) hd
    exact ⟨this.1, this.2.1⟩
  · rw [e]; exact ⟨le_refl _, h0⟩

/-- C96.  At no time does the site add up less than nothing or more than the problem is worth. -/
theorem C96_bounds (sid : Nat) (t : Task) (y : List Site.Item) (h : Partly sid t.work y) (hs : Score.Spec.NoAward t)
    (hp : ∀ bn p, (bn, p) ∈ caseList 0 t.items → 0 ≤ p) : 0 ≤ score t.acts y ∧ score t.acts y ≤ worth t.items := by
  have hb := each_le h hs hp
  constructor
  · apply List.sum_nonneg
    intro x hx
    obtain ⟨m, hm, rfl⟩ := List.mem_map.1 hx
    exact (hb m hm).1
  · refine le_trans (Award.sum_le fun n hn => (hb n hn).2) ?_
    rw [Award.worth_eq]
    obtain ⟨z, hz⟩ := (C96_told sid t y h).2.1
    rw [← hz, List.map_append, List.sum_append]
    refine le_add_of_nonneg_right (List.sum_nonneg ?_)
    intro x hx
    obtain ⟨m, hm, rfl⟩ := List.mem_map.1 hx
    have hm : m ∈ List.range' 1 (caseList 0 t.items).length := by rw [← hz]; exact List.mem_append_right _ hm
    rw [List.mem_range'_1] at hm
    obtain ⟨bn, hx⟩ := nth_case t.items m hm.1 (by omega)
    exact hp _ _ (List.mem_of_getElem? hx)

/-- C96.  If it adds up all the points of the problem, every case was decided to be worth its full points. -/
theorem C96_sound (sid : Nat) (t : Task) (y : List Site.Item) (h : Partly sid t.work y) (hs : Score.Spec.NoAward t)
    (hp : ∀ bn p, (bn, p) ∈ caseList 0 t.items → 0 < p) (he : score t.acts y = worth t.items) : Full t := by
  have hb := each_le h hs fun bn p hm => le_of_lt (hp bn p hm)
  have hpos : ∀ m ∈ List.range' 1 (caseList 0 t.items).length, 0 < pointsOf t.items m := by
    intro m hm
    rw [List.mem_range'_1] at hm
    obtain ⟨bn, hx⟩ := nth_case t.items m hm.1 (by omega)
    exact hp _ _ (List.mem_of_getElem? hx)
  obtain ⟨z, hz⟩ := (C96_told sid t y h).2.1
  rw [Award.worth_eq, ← hz, List.map_append, List.sum_append] at he
  have h1 := Award.sum_le fun n hn => (hb n hn).2
  have hz0 : z = [] := by
    cases z with
    | nil => rfl
    | cons m z =>
      exfalso
      have hmem : ∀ k ∈ m :: z, 0 < pointsOf t.items k := fun k hk => hpos k (by rw [← hz]; exact List.mem_append_right _ hk)
      have h2 : 0 < ((m :: z).map fun n => pointsOf t.items n).sum := by
        rw [List.map_cons, List.sum_cons]
        refine add_pos_of_pos_of_nonneg (hmem m (by simp)) (List.sum_nonneg ?_)
        intro x hx
        obtain ⟨k, hk, rfl⟩ := List.mem_map.1 hx
        exact le_of_lt (hmem k (by simp [hk]))
      rw [score] at he
      exact absurd he (ne_of_lt (lt_of_le_of_lt h1 (lt_add_of_pos_right _ h2)))
  subst hz0
  rw [List.append_nil] at hz
  simp only [List.map_nil, List.sum_nil, add_zero] at he
  intro n bn p hn1 hx
  have hmem : n ∈ numbers y := by
    rw [hz, List.mem_range'_1]
    have := (List.getElem?_eq_some_iff.1 hx).1
    omega
  have heq : pointsIn (resultsOf t.acts) n = p := by
    rw [← Award.points_eq _ _ _ _ hx]
    by_contra hne
    exact absurd he (ne_of_lt (Award.sum_lt (fun k hk => (hb k hk).2) n hmem (lt_of_le_of_ne (hb n hmem).2 hne)))
  obtain ⟨bn', p', _, hx', hd⟩ := C96_each sid t y h n hmem
  rw [hx] at hx'
  cases hx'
  rw [heq] at hd
  rcases hd with ⟨_, right, hd⟩ | ⟨_, e⟩
  · exact ⟨right, hd⟩
  · exact absurd e (ne_of_gt (hp _ _ (List.mem_of_getElem? hx)))

/-- C96.  If every case is decided to be worth its full points and the site is told that the grading is over, it adds up all the points
of the problem. -/
theorem C96_complete (sid : Nat) (t : Task) (y : List Site.Item) (h : Partly sid t.work y) (hs : Score.Spec.NoAward t)
    (hp : ∀ bn p, (bn, p) ∈ caseList 0 t.items → 0 < p) (hf : Full t) (he : .packet .gradingEnd sid ∈ y) :
    score t.acts y = worth t.items := by
  have hfull : ∀ n, 1 ≤ n → n ≤ (caseList 0 t.items).length → Decides (pointsOf t.items n) (t.job n) (.graded true (pointsOf t.items n)) := by
    intro n h1 hn
    obtain ⟨bn, hx⟩ := nth_case t.items n h1 hn
    obtain ⟨right, hd⟩ := hf n bn _ h1 hx
    cases right with
    | true => exact hd
    | false =>
      have h0 := hp _ _ (List.mem_of_getElem? hx)
      have := (job_bounds (le_of_lt h0) (hs n) hd).2.2 rfl
      exact absurd this (ne_of_gt h0)
  rw [score, Award.worth_eq, (C96_told sid t y h).2.2 he]
  congr 1
  apply List.map_congr_left
  intro n hn
  have hmem : n ∈ numbers y := by rw [(C96_told sid t y h).2.2 he]; exact hn
  rw [List.mem_range'_1] at hn
  obtain ⟨r, hr, e⟩ := pointsIn_mem ((partly_prefix h).subset hmem)
  obtain ⟨bn, hr⟩ := (Award.results_mem _ _ _).1 hr
  have hrun : Act.exec n ∈ t.acts := by
    rw [Task.acts, C12_skip_iff t.world t.shortCircuit t.warning t.pretested t.items n (Or.inr ⟨bn, r, hr⟩)]
    rintro ⟨j, _, ⟨hj, r', hr', hw⟩, _⟩
    have hj := Award.only hj
    have hg : t.world.grade j = _ := (job_case _ _).1 _ _ (hfull j hj.1 hj.2)
    rw [hg] at hr'
    cases hr'
    rw [right_of_flag ⟨procOf (t.job j), [], ""⟩ true] at hw
    cases hw
  obtain ⟨_, _, hx⟩ := C12_results _ _ _ _ _ bn n r hr
  rcases hx with ⟨_, hg⟩ | ⟨hx, _⟩
  · have hg' : t.world.grade n = _ := (job_case _ _).1 _ _ (hfull n hn.1 (by omega))
    rw [hg'] at hg
    rw [e]
    cases hg
    rfl
  · exact absurd hrun hx

/-! ## The whole judge -/

private theorem report_partly {sid : Nat} {r : WorkerRun} {y : List Site.Item} (h : Report sid r y) : Partly sid r y := by
  rcases h with rfl | ⟨p, hp, rfl⟩
  · exact ⟨_, List.prefix_refl _, List.prefix_append _ _⟩
  · exact ⟨p, hp, List.prefix_refl _⟩

private theorem split_reports {run : Nat → WorkerRun} : ∀ (sids : List Nat) (k : Nat) (x : List Site.Item), Reports run k sids x →
    ∃ ys : List (List Site.Item), x = ys.flatten ∧ ys.length = sids.length ∧
      ∀ i sid y, sids[i]? = some sid → ys[i]? = some y → Report sid (run (k + i)) y
  | [], k, x, h => ⟨[], by rw [Reports] at h; simp [h], rfl, by simp⟩
  | sid :: r, k, x, h => by
    obtain ⟨y, z, rfl, hy, hz⟩ := h
    obtain ⟨ys, rfl, hl, hi⟩ := split_reports r (k + 1) z hz
    refine ⟨y :: ys, by simp, by simp [hl], ?_⟩
    intro i sid' y' h1 h2
    cases i with
    | zero => simp at h1 h2; subst h1 h2; exact hy
    | succ i =>
      simp at h1 h2
      have := hi i sid' y' h1 h2
      rwa [show k + 1 + i = k + (i + 1) by omega] at this

/-- C96.  At every instant what the site has been told falls into parts, one for each of the first submissions it asked for, and each
part is all or the beginning of a report on that submission. -/
theorem C96_now (run : Nat → WorkerRun) (s : S) (h : Reachable (fun _ => false) SaidAll s) (hw : Keeps run s) :
    ∃ ys : List (List Site.Item), received s.sh.hist = ys.flatten ∧ ys.length ≤ (requested s.sh.hist).length ∧
      ∀ i y, ys[i]? = some y → ∃ sid, (requested s.sh.hist)[i]? = some sid ∧ Partly sid (run i) y := by
  obtain ⟨done, base, x, hd, hr, e, hx⟩ := C82_now run s h hw
  obtain ⟨ys, rfl, hl, hi⟩ := split_reports done 0 base hr
  have hfirst : ∀ i y, ys[i]? = some y → ∃ sid, (requested s.sh.hist)[i]? = some sid ∧ Partly sid (run i) y := by
    intro i y hy
    have hlt : i < done.length := by rw [← hl]; exact (List.getElem?_eq_some_iff.1 hy).1
    have hs := List.getElem?_eq_getElem hlt
    refine ⟨done[i], ?_, ?_⟩
    · obtain ⟨z, hz⟩ := hd
      rw [← hz, List.getElem?_append_left hlt, hs]
    · have := hi i _ y hs hy
      rw [Nat.zero_add] at this
      exact report_partly this
  rcases hx with rfl | ⟨sid, p, hsid, hp, hxp⟩
  · exact ⟨ys, by rw [e, List.append_nil], by rw [hl]; exact hd.length_le, hfirst⟩
  · refine ⟨ys ++ [x], by simp [e], by rw [List.length_append, hl]; simpa using hsid.length_le, ?_⟩
    intro i y hy
    rcases Nat.lt_or_ge i ys.length with hlt | hge
    · rw [List.getElem?_append_left hlt] at hy
      exact hfirst i y hy
    · rw [List.getElem?_append_right hge] at hy
      have hi0 : i = ys.length := by
        by_contra hne
        rw [List.getElem?_eq_none (by simp; omega)] at hy
        cases hy
      subst hi0
      simp at hy
      subst hy
      refine ⟨sid, ?_, by rw [hl]; exact ⟨p, hp, hxp⟩⟩
      obtain ⟨z, hz⟩ := hsid
      rw [← hz, hl]
      simp

/-- C96.  Whenever no submission is being graded, there is one part for each submission asked for, and it is a whole report. -/
theorem C96_rest (run : Nat → WorkerRun) (s : S) (h : Reachable (fun _ => false) SaidAll s) (hw : Keeps run s) (hd : s.grs = [])
    (hn : s.net = .idle ∨ s.net = .wait) :
    ∃ ys : List (List Site.Item), received s.sh.hist = ys.flatten ∧ ys.length = (requested s.sh.hist).length ∧
      ∀ i sid y, (requested s.sh.hist)[i]? = some sid → ys[i]? = some y → Report sid (run i) y := by
  obtain ⟨ys, h1, h2, h3⟩ := split_reports _ 0 _ (C82_reports run s h hw hd hn)
  refine ⟨ys, h1, h2, ?_⟩
  intro i sid y hs hy
  have := h3 i sid y hs hy
  rwa [Nat.zero_add] at this

/-- C96.  So at every instant, for every submission that compiled: the site adds up between nothing and what the problem is worth, all
of it only if every case is decided to be worth its full points, and all of it if this is so and it has been told that the grading is
over. -/
theorem C96_points (run : Nat → WorkerRun) (s : S) (h : Reachable (fun _ => false) SaidAll s) (hw : Keeps run s) :
    ∃ ys : List (List Site.Item), received s.sh.hist = ys.flatten ∧ ys.length ≤ (requested s.sh.hist).length ∧
      ∀ i y (t : Task), ys[i]? = some y → run i = t.work → Score.Spec.NoAward t →
        (∀ bn p, (bn, p) ∈ caseList 0 t.items → 0 < p) →
        ∃ sid, (requested s.sh.hist)[i]? = some sid ∧ (∀ it ∈ y, about it = sid) ∧
          0 ≤ score t.acts y ∧ score t.acts y ≤ worth t.items ∧ (score t.acts y = worth t.items → Full t) ∧
          (Full t → .packet .gradingEnd sid ∈ y → score t.acts y = worth t.items) := by
  obtain ⟨ys, h1, h2, h3⟩ := C96_now run s h hw
  refine ⟨ys, h1, h2, fun i y t hy ht hs hp => ?_⟩
  obtain ⟨sid, hsid, hpart⟩ := h3 i y hy
  rw [ht] at hpart
  have hb := C96_bounds sid t y hpart hs fun bn p hm => le_of_lt (hp bn p hm)
  exact ⟨sid, hsid, (C96_told sid t y hpart).1, hb.1, hb.2, C96_sound sid t y hpart hs hp, fun hf he => C96_complete sid t y hpart hs hp hf he⟩

/-- C96.  And at rest, a submission that nobody aborts, on which no code of the author fails, and of which the site has not been told of
an internal error: the site is told that its grading is over, and adds up what the worker awarded. -/
theorem C96_over (sid : Nat) (t : Task) (y : List Site.Item) (h : Report sid t.work y) (ha : ∀ n, t.aborted n = false)
    (hb : ∀ n bn p, Act.exec n ∈ t.acts → (caseList 0 t.items)[n - 1]? = some (bn, p) → ¬ Decides p (t.job n) .broken)
    (hi : .packet .internalError sid ∉ y) : .packet .gradingEnd sid ∈ y ∧ score t.acts y = awarded t.acts := by
  have hy : y = told sid (workerMsgs t.work) := by
    rcases h with h | ⟨p, _, rfl⟩
    · exact h
    · simp at hi
  have hend : Act.send .gradingEnd ∈ t.acts := by
    obtain ⟨acts0, c, _, _, _, _, hx, he⟩ := Worker.grade_ctl t.world t.shortCircuit t.warning t.pretested t.items
    have he : t.acts = _ := he
    cases c with
    | next s => rw [he]; simp
    | stop a =>
      exfalso
      obtain ⟨k, _, _, a0, _, _, hx | hx⟩ := hx
      · have hk : Act.exec k ∈ t.acts := by rw [he]; dsimp only; rw [hx.1]; simp
        have hr := Award.only hk
        obtain ⟨bn, hp⟩ := nth_case t.items k hr.1 hr.2
        refine hb k bn _ hk hp ?_
        obtain ⟨o, ho⟩ := job_some (pointsOf t.items k) (t.job k)
        cases o with
        | broken => exact ho
        | graded x z =>
          have := (job_case _ _).1 _ _ ho
          rw [show (t.job k).grade (pointsOf t.items k) = none from hx.2] at this
          cases this
      · have := ha k
        rw [show t.aborted k = true from hx.2.1] at this
        cases this
  constructor
  · rw [hy]
    have : Msg.gradingEnd ∈ workerMsgs t.work := by
      rw [Task.work, workerMsgs]
      refine List.mem_append_left _ (List.mem_cons_of_mem _ ?_)
      exact mem_sends _ .gradingEnd hend
    simp only [told, List.mem_flatMap]
    exact ⟨_, this, by simp [tell]⟩
  · obtain ⟨_, _, _, hr⟩ := ends_all t hend
    rw [score, hy, numbers_work, awarded, List.map_map]
    congr 1
    apply List.map_congr_left
    rintro ⟨n, r⟩ hm
    have hnd : ((resultsOf t.acts).map Prod.fst).Nodup := by rw [hr]; exact List.nodup_range'
    dsimp only [Function.comp]
    obtain ⟨r', hr', e⟩ := pointsIn_mem (l := resultsOf t.acts) (n := n) (List.mem_map.2 ⟨_, hm, rfl⟩)
    rw [e]
    have := List.inj_on_of_nodup_map hnd hm hr' rfl
    cases this
    rfl

/-! ## Examples -/

/-- One case worth 5, compared with a file that holds `1`; the program writes `1`. -/
def oneTask : Task := ⟨false, false, false, [.one ⟨0, 0, 5⟩], fun _ => .standard (ones 1) (cleanRun (b " 1 ")), fun _ => false⟩

theorem oneTask_msgs : workerMsgs oneTask.work = [.hello, .gradingBegin, .result 1, .gradingEnd] := by decide +kernel

private theorem oneTask_full : Full oneTask := by
  intro n bn p _ h
  refine ⟨true, .right _ _ ?_⟩
  exact ⟨⟨rfl, rfl, rfl, Or.inl rfl, Or.inl rfl, rfl⟩, by decide +kernel⟩

/-- A state of the whole judge that meets the hypotheses of `C96_points` and `C96_rest`, where the site adds up 5 points. -/
example : ∃ s, Reachable (fun _ => false) SaidAll s ∧ Keeps (fun _ => oneTask.work) s ∧ s.grs = [] ∧ s.net = .idle ∧
    requested s.sh.hist = [7, 8] ∧ Score.Spec.NoAward oneTask ∧ (∀ bn p, (bn, p) ∈ caseList 0 oneTask.items → 0 < p) ∧ Full oneTask ∧
    received s.sh.hist = [[.packet .gradingBegin 7, .result 7 1, .packet .gradingEnd 7], [.packet .internalError 8]].flatten ∧
    score oneTask.acts [.packet .gradingBegin 7, .result 7 1, .packet .gradingEnd 7] = 5 := by
  obtain ⟨s, h1, h2, h3, h4, h5, h6, _⟩ := demo82
  refine ⟨s, h1, ?_, h2, h3, h5, ?_, ?_, oneTask_full, h6, by decide +kernel⟩
  · intro g hg
    have := h4 g hg
    rw [demoRun_msgs] at this
    rw [oneTask_msgs]
    exact this
  · intro n r right x t e; cases e
  · intro bn p h
    simp [oneTask, caseList] at h
    rw [h.2]; norm_num

/-- Three cases: the first right, the second half right for the author's checker, and an abort is seen after the third. -/
def cutTask : Task := ⟨false, true, false, [.one ⟨0, 0, 5⟩, .batch 1 [⟨1, 1, 4⟩, ⟨2, 1, 4⟩]],
  fun n => if n = 2 then .own (cleanRun []) (.checker .testlib false (exits 7 (b "points 2"))) else .standard (ones 1) (cleanRun (b "1")),
  fun n => n = 3⟩

/-- The site is told of two results and of the abort, and adds up 7 points of 13. -/
example : told 3 (workerMsgs cutTask.work) = [.packet .compileMessage 3, .packet .gradingBegin 3, .result 3 1, .packet .batchBegin 3,
      .result 3 2, .packet .gradingAborted 3] ∧ score cutTask.acts (told 3 (workerMsgs cutTask.work)) = 7 ∧ worth cutTask.items = 13 ∧
    Partly 3 cutTask.work [.packet .compileMessage 3, .packet .gradingBegin 3, .result 3 1, .packet .internalError 3] := by
  have e : told 3 (workerMsgs cutTask.work) = [.packet .compileMessage 3, .packet .gradingBegin 3, .result 3 1, .packet .batchBegin 3,
      .result 3 2, .packet .gradingAborted 3] := by decide +kernel
  refine ⟨e, by decide +kernel, by decide +kernel, (workerMsgs cutTask.work).take 4, List.take_prefix _ _, ?_⟩
  have : told 3 ((workerMsgs cutTask.work).take 4) = [.packet .compileMessage 3, .packet .gradingBegin 3, .result 3 1] := by decide +kernel
  rw [this]
  exact List.prefix_refl _

/-- A report that meets the hypotheses of `C96_over`. -/
example : Report 7 oneTask.work (told 7 (workerMsgs oneTask.work)) ∧ (∀ n, oneTask.aborted n = false) ∧
    (∀ n bn p, Act.exec n ∈ oneTask.acts → (caseList 0 oneTask.items)[n - 1]? = some (bn, p) → ¬ Decides p (oneTask.job n) .broken) ∧
    .packet .internalError 7 ∉ told 7 (workerMsgs oneTask.work) := by
  refine ⟨Or.inl rfl, fun _ => rfl, fun n bn p _ _ h => ?_, by decide +kernel⟩
  cases h

end Verif.Props
