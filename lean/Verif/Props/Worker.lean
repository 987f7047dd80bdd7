import Verif.Lemmas.Worker

/-! # C11, C12, C13, C14, C15: the grading stream -/

namespace Verif.Props
open Verif Spec Worker Verif.Result

/-! ## C11 -/

/-- The stream of an unaborted, successful grading of `items`. -/
def fullStream (items : List Item) : List Mark := .begin :: layout 0 0 items

/-- C11.  Whatever the grader does, the stream of a compiled submission is the complete stream of
the problem followed by the end, or a proper prefix of it (grading raised), or a proper prefix
followed by the abort event. -/
theorem C11_stream (w : World) (req warning pretested : Bool) (items : List Item) :
    marks (gradeCases w req (.ok warning pretested items)) = fullStream items ++ [.finish] ∨
    ∃ p, .begin :: p <+: fullStream items ∧ .begin :: p ≠ fullStream items ∧
      (marks (gradeCases w req (.ok warning pretested items)) = .begin :: p ∨
       marks (gradeCases w req (.ok warning pretested items)) = .begin :: p ++ [.abort]) := by
  obtain ⟨acts0, c, _, hm, _, hc, _, he⟩ := grade_ctl w req warning pretested items
  rw [he]
  cases c with
  | next s =>
    left
    dsimp only
    rw [marks_append, hc.1, hm]; rfl
  | stop a =>
    right
    obtain ⟨p, hp, hne, hor⟩ := hc
    refine ⟨p, ?_, ?_, ?_⟩
    · rw [fullStream, List.cons_prefix_cons]; exact ⟨rfl, hp⟩
    · rw [fullStream]; simpa using hne
    · rw [hm] at hor; simpa using hor

/-- C11.  If no case raises and no abort is seen the complete stream is produced. -/
theorem C11_complete (w : World) (req warning pretested : Bool) (items : List Item)
    (hg : ∀ n, ∃ r, w.grade n = some r) (ha : ∀ n, w.aborted n = false) :
    marks (gradeCases w req (.ok warning pretested items)) = fullStream items ++ [.finish] := by
  obtain ⟨acts0, c, _, hm, _, hc, hi, he⟩ := grade_ctl w req warning pretested items
  rw [he]
  cases c with
  | next s => dsimp only; rw [marks_append, hc.1, hm]; rfl
  | stop a =>
    obtain ⟨k', _, _, a0, _, _, h | h⟩ := hi
    · obtain ⟨r, hr⟩ := hg k'; rw [h.2] at hr; cases hr
    · rw [ha] at h; simp at h

/-- C11.  A compile error is the only event of its stream. -/
theorem C11_compile_error (w : World) (req : Bool) :
    marks (gradeCases w req .compileError) = [.compileError] := rfl

/-- The number of a case mark. -/
def caseNo? : Mark → Option Nat
  | .case _ n => some n
  | _ => none

private theorem caseMarks_nos (bn : Option Nat) (i k : Nat) :
    (caseMarks bn i k).filterMap caseNo? = List.range' (i + 1) k := by
  induction k generalizing i with
  | zero => rfl
  | succ k ih => rw [caseMarks_succ, List.range'_succ]; simp [caseNo?, ih]

/-- C11.  In the complete stream the cases are numbered 1, 2, ..., each once and in order. -/
theorem C11_numbers (n i : Nat) (items : List Item) :
    (layout n i items).filterMap caseNo? = List.range' (i + 1) (caseList n items).length := by
  induction items generalizing n i with
  | nil => rfl
  | cons it items ih =>
    cases it with
    | one c => simp [layout, caseList, caseNo?, ih, List.range'_succ]
    | batch m cs =>
      rw [layout, caseList, List.filterMap_append, ih, List.length_append, List.length_map,
        ← List.range'_append_1]
      congr 1
      · by_cases h : cs = []
        · simp [h]
        · rw [if_neg h, List.filterMap_cons, List.filterMap_append, caseMarks_nos]
          simp [caseNo?]
      · congr 1; omega

/-- Batch 1 with two cases, a plain case, an empty batch, batch 3 with one case. -/
def demoItems : List Item :=
  [.batch 1 [⟨0, 1, 5⟩, ⟨1, 1, 5⟩], .one ⟨2, 0, 1⟩, .batch 2 [], .batch 3 [⟨3, 3, 0⟩]]

/-- Case 1 is wrong, everything else right. -/
def demoWorld : World := ⟨fun n => some ⟨if n = 1 then WA else AC, 0⟩, fun _ => false⟩

example : marks (gradeCases demoWorld false (.ok true false demoItems)) =
    [.begin, .batchBegin 1, .case (some 1) 1, .case (some 1) 2, .batchEnd 1, .case none 3,
     .batchBegin 3, .case (some 3) 4, .batchEnd 3, .finish] := by decide +kernel
example : (∀ n, ∃ r, demoWorld.grade n = some r) ∧ ∀ n, demoWorld.aborted n = false :=
  ⟨fun _ => ⟨_, rfl⟩, fun _ => rfl⟩

/-! ## C12 -/

private theorem cuts_iff (req : Bool) (items : List Item) (i j : Nat) (x) 
    (hx : (flatten 0 items)[i - 1]? = some x) :
    CutsBatch req (flatten 0 items) j x.1 ↔ Cuts req (caseList 0 items) j i := by
  unfold CutsBatch Cuts
  rw [← flatten_caseList]
  simp only [List.getElem?_map, hx, Option.map_some, Option.some.injEq]
  apply or_congr Iff.rfl
  apply or_congr
  · constructor
    · rintro ⟨y, hy, hp⟩; exact ⟨y.1, by rw [hy]; simp [hp]⟩
    · rintro ⟨b, hb⟩
      rw [Option.map_eq_some_iff] at hb
      obtain ⟨y, hy, he⟩ := hb
      exact ⟨y, hy, by simp at he; exact he.2⟩
  · constructor
    · rintro ⟨y, hy, he, hne⟩
      obtain ⟨b, hb⟩ := Option.ne_none_iff_exists'.1 hne
      refine ⟨b, y.2.points, x.2.points, ?_, ?_⟩
      · rw [hy]; simp [he, hb]
      · simp [hb]
    · rintro ⟨b, p, q, h1, h2⟩
      rw [Option.map_eq_some_iff] at h1
      obtain ⟨y, hy, he⟩ := h1
      simp only [Prod.mk.injEq] at he h2
      exact ⟨y, hy, by rw [he.1, h2.1], by rw [h2.1]; simp⟩

theorem final_inv (w : World) (req warning pretested : Bool) (items : List Item) :
    ∃ k, k ≤ (flatten 0 items).length ∧
      Inv w req (flatten 0 items) k (gradeCases w req (.ok warning pretested items)) := by
  obtain ⟨acts0, c, _, _, _, _, hi, he⟩ := grade_ctl w req warning pretested items
  rw [he]
  cases c with
  | next s =>
    obtain ⟨h1, h2, _⟩ := hi
    refine ⟨_, le_refl _, ?_⟩
    have hm : ∀ m, Act.exec m ∈ s.acts ++ [.send .gradingEnd] ↔ Act.exec m ∈ s.acts := by intro m; simp
    dsimp only
    refine ⟨?_, ?_, ?_⟩
    · intro m; rw [hm]; exact h2.range m
    · intro m; simp only [hm]; exact h2.skip m
    · intro bn m r hr; rw [hm]; exact h2.results bn m r (by simpa using hr)
  | stop a =>
    obtain ⟨k', hk, h, _⟩ := hi
    exact ⟨k', hk, h⟩

/-- C12.  Every reported result belongs to a case of the problem, under its batch number, and is
either what grading that case returned or, for a case that was never executed, exactly the
short-circuit verdict with 0 points. -/
theorem C12_results (w : World) (req warning pretested : Bool) (items : List Item) (bn : Option Nat)
    (n : Nat) (r : Res)
    (h : Act.send (.result bn n r) ∈ gradeCases w req (.ok warning pretested items)) :
    1 ≤ n ∧ (∃ p, (caseList 0 items)[n - 1]? = some (bn, p)) ∧
    ((Act.exec n ∈ gradeCases w req (.ok warning pretested items) ∧ w.grade n = some r) ∨
     (Act.exec n ∉ gradeCases w req (.ok warning pretested items) ∧ r = ⟨SC, 0⟩)) := by
  obtain ⟨k, _, hinv⟩ := final_inv w req warning pretested items
  obtain ⟨h1, _, ⟨x, hx, hb⟩, h2⟩ := hinv.results bn n r h
  refine ⟨h1, ⟨x.2.points, ?_⟩, ?_⟩
  · rw [← flatten_caseList, List.getElem?_map, hx]; simp [hb]
  · rcases h2 with h2 | h2
    · exact Or.inl ⟨h2.1, h2.2.1⟩
    · exact Or.inr h2

/-- C12.  A case that is reached (reported or executed) is executed exactly if no earlier executed
case failed that is in the same batch, or is worth nothing, or at all if short-circuiting was
requested. -/
theorem C12_skip_iff (w : World) (req warning pretested : Bool) (items : List Item) (n : Nat)
    (h : Act.exec n ∈ gradeCases w req (.ok warning pretested items) ∨
      ∃ bn r, Act.send (.result bn n r) ∈ gradeCases w req (.ok warning pretested items)) :
    Act.exec n ∈ gradeCases w req (.ok warning pretested items) ↔
      ¬ ∃ j < n, Failed w (gradeCases w req (.ok warning pretested items)) j ∧
        Cuts req (caseList 0 items) j n := by
  obtain ⟨k, hk, hinv⟩ := final_inv w req warning pretested items
  have hr : 1 ≤ n ∧ n ≤ k := by
    rcases h with h | ⟨bn, r, h⟩
    · exact hinv.range n h
    · have := hinv.results bn n r h; exact ⟨this.1, this.2.1⟩
  have hx : ∃ x, (flatten 0 items)[n - 1]? = some x := by
    have : n - 1 < (flatten 0 items).length := by omega
    exact ⟨_, List.getElem?_eq_getElem this⟩
  obtain ⟨x, hx⟩ := hx
  rw [hinv.skip n x hr.1 hr.2 hx]
  apply not_congr
  simp only [cuts_iff req items n _ x hx, Failed, WrongAt, and_assoc]

example : gradeCases demoWorld false (.ok false false demoItems) =
    [.send (.gradingBegin false), .send (.batchBegin 1), .exec 1, .send (.result (some 1) 1 ⟨WA, 0⟩),
     .send (.result (some 1) 2 ⟨SC, 0⟩), .send (.batchEnd 1), .exec 3, .send (.result none 3 ⟨AC, 0⟩),
     .send (.batchBegin 3), .exec 4, .send (.result (some 3) 4 ⟨AC, 0⟩), .send (.batchEnd 3),
     .send .gradingEnd] := by decide +kernel

/-! ## C13 -/

/-- C13.  If an executed case is found aborted, that execution is the last, the stream ends there
with the abort event, and no result of the case is reported. -/
theorem C13_abort (w : World) (req warning pretested : Bool) (items : List Item) (n : Nat)
    (hn : Act.exec n ∈ gradeCases w req (.ok warning pretested items)) (ha : w.aborted n = true)
    (hg : ∃ r, w.grade n = some r) :
    (∃ a, gradeCases w req (.ok warning pretested items) = a ++ [.exec n, .send .gradingAborted] ∧
      ∀ m, Act.exec m ∈ a → m < n) ∧
    ∀ bn r, Act.send (.result bn n r) ∉ gradeCases w req (.ok warning pretested items) := by
  refine ⟨?_, ?_⟩
  · obtain ⟨acts0, c, _, _, _, _, hi, he⟩ := grade_ctl w req warning pretested items
    rw [he] at hn ⊢
    cases c with
    | next s =>
      obtain ⟨_, _, _, hex⟩ := hi
      have := hex.1 n (by simpa using hn)
      rw [ha] at this; simp at this
    | stop a =>
      obtain ⟨k', _, _, a0, h0, hlt, h | h⟩ := hi
      · dsimp only at hn; rw [h.1] at hn
        simp only [List.mem_append, List.mem_cons, Act.exec.injEq, List.not_mem_nil, or_false] at hn
        rcases hn with hn | rfl
        · have := h0.1 n hn; rw [ha] at this; simp at this
        · obtain ⟨r, hr⟩ := hg; rw [h.2] at hr; cases hr
      · dsimp only at hn ⊢; rw [h.1] at hn ⊢
        simp only [List.mem_append, List.mem_cons, Act.exec.injEq, List.not_mem_nil, or_false,
          reduceCtorEq] at hn
        rcases hn with hn | rfl
        · have := h0.1 n hn; rw [ha] at this; simp at this
        · exact ⟨a0, rfl, hlt⟩
  · intro bn r hr
    obtain ⟨k, _, hinv⟩ := final_inv w req warning pretested items
    obtain ⟨_, _, _, h | h⟩ := hinv.results bn n r hr
    · rw [ha] at h; simp at h
    · exact h.1 hn

/-- C13.  The abort event is sent only if an executed case was found aborted. -/
theorem C13_abort_only (w : World) (req warning pretested : Bool) (items : List Item)
    (h : Act.send .gradingAborted ∈ gradeCases w req (.ok warning pretested items)) :
    ∃ n, Act.exec n ∈ gradeCases w req (.ok warning pretested items) ∧ w.aborted n = true := by
  obtain ⟨acts0, c, _, _, _, _, hi, he⟩ := grade_ctl w req warning pretested items
  rw [he] at h ⊢
  cases c with
  | next s =>
    obtain ⟨_, _, _, hq⟩ := hi
    exact absurd (by simpa using h) hq.2
  | stop a =>
    obtain ⟨k', _, _, a0, h0, _, h1 | h1⟩ := hi
    · dsimp only at h
      rw [h1.1] at h
      exact absurd (by simpa using h) h0.2
    · exact ⟨k', by dsimp only; rw [h1.1]; simp, h1.2.1⟩

/-- C13 (part).  An abort requested before or during case `t` ends the stream with the abort event
provided some case from `t` on is executed (and returns); exactly one such case is executed.
Missing: the same without that proviso, which fails, see below. -/
theorem C13_request_partial (w : World) (req warning pretested : Bool) (items : List Item) (t n : Nat)
    (hw : ∀ i, w.aborted i = decide (t ≤ i)) (hg : ∀ i, ∃ r, w.grade i = some r) (ht : t ≤ n)
    (hn : Act.exec n ∈ gradeCases w req (.ok warning pretested items)) :
    ∃ a, gradeCases w req (.ok warning pretested items) = a ++ [.exec n, .send .gradingAborted] ∧
      ∀ m, Act.exec m ∈ a → m < t := by
  obtain ⟨⟨a, ha, hlt⟩, _⟩ := C13_abort w req warning pretested items n hn (by simp [hw, ht]) (hg n)
  refine ⟨a, ha, ?_⟩
  intro m hm
  by_contra hge
  have hm' : Act.exec m ∈ gradeCases w req (.ok warning pretested items) := by rw [ha]; simp [hm]
  obtain ⟨⟨a', ha', hlt'⟩, _⟩ := C13_abort w req warning pretested items m hm'
    (by simp [hw]; omega) (hg m)
  rw [ha] at ha'
  have := (List.append_inj' ha' rfl).2
  simp at this
  have := hlt m hm
  omega

/-- C13.  An abort requested while the remaining cases are short-circuited is ignored: the grading
ends normally. -/
theorem C13_ignored_fails :
    ∃ (w : World) (items : List Item) (t : Nat), (∀ i, w.aborted i = decide (t ≤ i)) ∧
      t ≤ (caseList 0 items).length ∧
      (gradeCases w true (.ok false false items)).getLast? = some (.send .gradingEnd) :=
  ⟨⟨fun _ => some ⟨WA, 0⟩, fun i => decide (2 ≤ i)⟩, [.one ⟨0, 0, 1⟩, .one ⟨1, 0, 1⟩], 2,
    fun _ => rfl, by decide, by decide +kernel⟩

/-- The abort of the second case of a batch. -/
example : gradeCases ⟨fun _ => some ⟨AC, 1⟩, fun i => decide (2 ≤ i)⟩ false
    (.ok false false [.batch 1 [⟨0, 1, 1⟩, ⟨1, 1, 1⟩, ⟨2, 1, 1⟩]]) =
    [.send (.gradingBegin false), .send (.batchBegin 1), .exec 1, .send (.result (some 1) 1 ⟨AC, 1⟩),
     .exec 2, .send .gradingAborted] := by decide +kernel

/-! ## C14 -/

private theorem resolve_cases (k : Nat) (s : Counters) (es : List Cfg)
    (h : ∀ e ∈ es, ∃ p, e = Cfg.case p) :
    ∃ cs : List TestCase, resolve k s es = .ok (cs.map Item.one, ⟨s.batches, s.cases + es.length⟩) ∧
      cs = es.zipIdx.filterMap (placed s.cases k) := by
  induction es generalizing s with
  | nil => exact ⟨[], by simp [resolve], rfl⟩
  | cons e es ih =>
    obtain ⟨p, rfl⟩ := h e (by simp)
    obtain ⟨cs, h1, h2⟩ := ih { s with cases := s.cases + 1 } (fun e he => h e (by simp [he]))
    refine ⟨⟨s.cases, k, p⟩ :: cs, ?_, ?_⟩
    · simp only [resolve, resolveOne, h1, List.map_cons, List.length_cons]
      simp only [Except.ok.injEq, Prod.mk.injEq, true_and, Counters.mk.injEq]
      omega
    · rw [List.zipIdx_cons, List.filterMap_cons]
      simp only [placed, Nat.add_zero, Nat.zero_add]
      congr 1
      rw [h2, List.zipIdx_succ, List.filterMap_map]
      congr 1
      funext x
      obtain ⟨a, i⟩ := x
      cases a <;> simp [placed]; omega

private theorem batchMembers_ones (cs : List TestCase) : batchMembers (cs.map Item.one) = .ok cs := by
  induction cs with
  | nil => rfl
  | cons c cs ih => simp [batchMembers, ih]

private theorem resolve_flat (s : Counters) (cfg : List Cfg) (h : Flat cfg) :
    ∃ s', resolve 0 s cfg = .ok (expectItems s.batches s.cases cfg, s') := by
  induction cfg generalizing s with
  | nil => exact ⟨s, rfl⟩
  | cons c cfg ih =>
    have ih := fun s => ih s (fun es he => h es (List.mem_cons_of_mem _ he))
    cases c with
    | case p =>
      obtain ⟨s', hs'⟩ := ih { s with cases := s.cases + 1 }
      exact ⟨s', by simp [resolve, resolveOne, hs', expectItems]⟩
    | batch es =>
      obtain ⟨cs, h1, h2⟩ := resolve_cases (s.batches + 1) { s with batches := s.batches + 1 } es
        (h es (by simp))
      obtain ⟨s', hs'⟩ := ih ⟨s.batches + 1, s.cases + es.length⟩
      refine ⟨s', ?_⟩
      simp only [resolve, resolveOne, h1, batchMembers_ones, hs', expectItems, h2]

private theorem resolve_batch_item (k : Nat) (s s' : Counters) (es : List Cfg) (items : List Item)
    (h : resolve k s es = .ok (items, s')) (e : List Cfg) (he : Cfg.batch e ∈ es) :
    ∃ m l, Item.batch m l ∈ items := by
  induction es generalizing s items with
  | nil => simp at he
  | cons c es ih =>
    rw [resolve] at h
    cases h1 : resolveOne k s c with
    | error x => rw [h1] at h; cases h
    | ok q =>
      obtain ⟨i, s1⟩ := q
      rw [h1] at h
      dsimp only at h
      cases h2 : resolve k s1 es with
      | error x => rw [h2] at h; cases h
      | ok q =>
        obtain ⟨is, s2⟩ := q
        rw [h2] at h
        simp only [Except.ok.injEq, Prod.mk.injEq] at h
        obtain ⟨rfl, rfl⟩ := h
        rcases List.mem_cons.1 he with rfl | he
        · rw [resolveOne] at h1
          split at h1
          · cases h1
          · split at h1
            · cases h1
            · simp only [Except.ok.injEq, Prod.mk.injEq] at h1
              exact ⟨_, _, by rw [← h1.1]; exact List.mem_cons_self⟩
        · obtain ⟨m, l, hm⟩ := ih s1 is h2 he
          exact ⟨m, l, List.mem_cons_of_mem _ hm⟩

private theorem batchMembers_batch (items : List Item) (m l) (h : Item.batch m l ∈ items) :
    batchMembers items = .error .nestedBatches := by
  induction items with
  | nil => simp at h
  | cons i items ih =>
    cases i with
    | one c =>
      have : Item.batch m l ∈ items := by simpa using h
      rw [batchMembers, ih this]
    | batch m' l' => rfl

/-- C14.  A configuration without nested batches resolves to exactly its cases, in order, at
positions 0, 1, 2, ..., the cases of the k-th batch carrying batch number k and the others 0. -/
theorem C14_positions (cfg : List Cfg) (h : Flat cfg) :
    ∃ s, resolve 0 ⟨0, 0⟩ cfg = .ok (expectItems 0 0 cfg, s) := resolve_flat ⟨0, 0⟩ cfg h

/-- C14.  A configuration with a nested batch is rejected. -/
theorem C14_nested_rejected (cfg : List Cfg) (h : ¬ Flat cfg) (k : Nat) (s : Counters) :
    resolve k s cfg = .error .nestedBatches := by
  induction cfg generalizing s with
  | nil => exact absurd (fun es he => by simp at he) h
  | cons c cfg ih =>
    rw [resolve]
    cases h1 : resolveOne k s c with
    | error e => cases e; rfl
    | ok q =>
      obtain ⟨i, s1⟩ := q
      dsimp only
      have hrest : ¬ Flat cfg := by
        intro hf
        apply h
        intro es he e hee
        rcases List.mem_cons.1 he with rfl | he
        · cases e with
          | case p => exact ⟨p, rfl⟩
          | batch es' =>
            exfalso
            rw [resolveOne] at h1
            cases h2 : resolve (s.batches + 1) { s with batches := s.batches + 1 } es with
            | error x => rw [h2] at h1; cases h1
            | ok q =>
              obtain ⟨items, s2⟩ := q
              obtain ⟨m, l, hm⟩ := resolve_batch_item _ _ _ _ _ h2 es' hee
              rw [h2] at h1
              dsimp only at h1
              rw [batchMembers_batch items m l hm] at h1
              cases h1
        · exact hf es he e hee
      rw [ih hrest]

private theorem zipIdx_filterMap_pos (es : List Cfg) (i m j : Nat) (h : ∀ e ∈ es, ∃ p, e = Cfg.case p) :
    ((es.zipIdx j).filterMap (placed i m)).map TestCase.position = List.range' (i + j) es.length := by
  induction es generalizing j with
  | nil => rfl
  | cons e es ih =>
    obtain ⟨p, rfl⟩ := h e (by simp)
    rw [List.zipIdx_cons, List.filterMap_cons]
    simp only [placed]
    rw [List.map_cons, ih (j + 1) (fun e he => h e (by simp [he]))]
    rfl

private theorem expect_positions (n i : Nat) (cfg : List Cfg) (h : Flat cfg) :
    (flatten n (expectItems n i cfg)).map (fun x => x.2.position) =
      List.range' i (flatten n (expectItems n i cfg)).length := by
  induction cfg generalizing n i with
  | nil => rfl
  | cons c cfg ih =>
    have ih := fun n i => ih n i (fun es he => h es (List.mem_cons_of_mem _ he))
    cases c with
    | case p => simp [expectItems, flatten, ih, List.range'_succ]
    | batch es =>
      have hlen := congrArg List.length (zipIdx_filterMap_pos es i (n + 1) 0 (h es (by simp)))
      simp only [List.length_map, List.length_range'] at hlen
      rw [expectItems, flatten, List.map_append, List.length_append, List.length_map, hlen, ih,
        ← List.range'_append_1]
      congr 1
      rw [List.map_map]
      exact zipIdx_filterMap_pos es i (n + 1) 0 (h es (by simp))

/-- C14.  So the positions of the cases, in the order they are graded, are 0, 1, 2, ... -/
theorem C14_positions_range (cfg : List Cfg) (h : Flat cfg) :
    (flatten 0 (expectItems 0 0 cfg)).map (fun x => x.2.position) =
      List.range (flatten 0 (expectItems 0 0 cfg)).length := by
  rw [expect_positions 0 0 cfg h, List.range_eq_range']

/-- C14.  The batch number a case carries is the one it is reported under (0 for none). -/
theorem C14_batch_agrees (n i : Nat) (cfg : List Cfg) (x)
    (hx : x ∈ flatten n (expectItems n i cfg)) : x.2.batch = x.1.getD 0 := by
  induction cfg generalizing n i with
  | nil => simp [expectItems, flatten] at hx
  | cons c cfg ih =>
    cases c with
    | case p =>
      simp only [expectItems, flatten, List.mem_cons] at hx
      rcases hx with rfl | hx
      · rfl
      · exact ih _ _ hx
    | batch es =>
      simp only [expectItems, flatten, List.mem_append, List.mem_map, List.mem_filterMap] at hx
      rcases hx with ⟨c, ⟨y, _, hy⟩, rfl⟩ | hx
      · obtain ⟨e, j⟩ := y
        cases e with
        | case p => simp only [placed, Option.some.injEq] at hy; rw [← hy]; rfl
        | batch _ => cases hy
      · exact ih _ _ hx

example : Flat [.batch [.case 5, .case 5], .case 1] := by
  intro es he e hee
  simp at he
  subst he
  simp at hee
  exact ⟨5, hee⟩
example : ¬ Flat [.batch [.batch [.case 5]]] := by
  intro h
  obtain ⟨p, hp⟩ := h [.batch [.case 5]] (by simp) (.batch [.case 5]) (by simp)
  cases hp

/-! ## C15 -/

/-- C15.  The pretest cases are graded exactly if only pretests are requested and the problem has
them; otherwise all test cases are. -/
theorem C15_pretests (pretestsOnly : Bool) (pretest : Option (List Cfg)) (test : List Cfg) :
    (isPretested pretestsOnly pretest = true ↔ pretestsOnly = true ∧ ∃ p, pretest = some p) ∧
    (∀ p, pretestsOnly = true → pretest = some p → Flat p →
      cases pretestsOnly pretest test = .ok (expectItems 0 0 p)) ∧
    (pretestsOnly = false ∨ pretest = none → Flat test →
      cases pretestsOnly pretest test = .ok (expectItems 0 0 test)) := by
  refine ⟨?_, ?_, ?_⟩
  · cases pretest <;> simp [isPretested]
  · rintro p rfl rfl hf
    obtain ⟨s, hs⟩ := C14_positions p hf
    simp [cases, isPretested, hs]
  · intro h hf
    obtain ⟨s, hs⟩ := C14_positions test hf
    have : isPretested pretestsOnly pretest = false := by
      rcases h with rfl | rfl <;> simp [isPretested]
    simp [cases, this, hs]

end Verif.Props
