import Verif.Lemmas.Cases
import Batteries.Data.List.Perm
import Mathlib.Tactic.ByContra

/-!
# Test case discovery from an archive (C26)

`records` lists the archive members that match the input or the output pattern, with the batch and
case id the pattern extracts.  `EntryFor` says what the configuration entry of an id must be.
-/

namespace Verif.Problem

variable {P : Type} {int : String → Option Int} {files : List String} {inPat outPat : Pattern}
  {points : Nat → Option P}

/-- The result in terms of groups; holds for all inputs. -/
theorem match_groups {es : List (Entry P)} (h : matchTestCases int files inPat outPat points = .ok es) :
    ∃ ids : List Id, ids.Pairwise Before ∧
      (∀ id, id ∈ ids ↔ ∃ r ∈ records int files inPat outPat, r.key = id) ∧ es.length = ids.length ∧
      ∀ k (h : k < ids.length) (h' : k < es.length), ∃ p, points k = some p ∧
        (((∃ r ∈ records int files inPat outPat, r.batch = some ids[k]) ∧
          ∃ cs : List Id, cs.Pairwise Before ∧
            (∀ c, c ∈ cs ↔ ∃ r ∈ records int files inPat outPat, r.key = ids[k] ∧ r.case = c) ∧
            es[k] = .batched (cs.map (cell (records int files inPat outPat) ids[k])) p) ∨
         ((¬ ∃ r ∈ records int files inPat outPat, r.batch = some ids[k]) ∧
            es[k] = .single (cell (records int files inPat outPat) ids[k] ids[k]) p)) := by
  have hin : ∀ f ∈ files, ∀ b, parsePosition int inPat f ≠ some (b, none) := by
    intro f hf b hb
    rw [matchTestCases, pass_err _ _ _ ⟨f, hf, b, hb⟩] at h
    cases h
  have hout : ∀ f ∈ files, ∀ b, parsePosition int outPat f ≠ some (b, none) := by
    intro f hf b hb
    rw [matchTestCases, pass_ok _ _ _ hin] at h
    simp only [pass_err _ _ _ ⟨f, hf, b, hb⟩] at h
    cases h
  have G := GInv_all (records int files inPat outPat)
  rw [matchTestCases, pass_ok _ _ _ hin] at h
  simp only [pass_ok _ _ _ hout, ← List.foldl_append] at h
  change (match sortItems ((records int files inPat outPat).foldl addRec ([], [])).1 with
    | .error e => Except.error e
    | .ok gs => emit points ((records int files inPat outPat).foldl addRec ([], [])).2 0 gs) = _ at h
  generalize (records int files inPat outPat).foldl addRec ([], []) = s at h G
  generalize records int files inPat outPat = rs at G ⊢
  obtain ⟨h1, h2, h3, h4, h5⟩ := G
  split at h
  · cases h
  rename_i gs hgs
  obtain ⟨hm, hs, hl⟩ := sortItems_ok h1 hgs
  obtain ⟨he, hk⟩ := emit_ok _ _ _ _ _ h
  refine ⟨gs.map (·.1), hs, ?_, by simpa using he, ?_⟩
  · intro id
    rw [← h3 id, List.mem_map, List.mem_map]
    simp only [hm]
  · intro k hk1 hk2
    have hk1' : k < gs.length := by simpa using hk1
    obtain ⟨p, hp, hE⟩ := hk k hk1' hk2
    refine ⟨p, by simpa using hp, ?_⟩
    have hg : (gs[k].1, gs[k].2) ∈ s.1 := (hm _).1 (List.getElem_mem hk1')
    have hid : (gs.map (·.1))[k] = gs[k].1 := by simp
    rw [hid]
    rcases hE with ⟨hb, cs, hcs, heq⟩ | ⟨hb, c, f, hcf, heq⟩
    · obtain ⟨hcm, hcsort, -⟩ := sortItems_ok (h2 _ _ hg) hcs
      refine .inl ⟨(h5 _).1 hb, cs.map (·.1), hcsort, ?_, ?_⟩
      · intro c
        rw [List.mem_map]
        constructor
        · rintro ⟨⟨c', f⟩, hcf, rfl⟩
          exact ((h4 _ _ hg _ _).1 ((hcm _).1 hcf)).1
        · intro hr
          exact ⟨(c, _), (hcm _).2 ((h4 _ _ hg _ _).2 ⟨hr, rfl⟩), rfl⟩
      · rw [heq, List.map_map]
        congr 1
        apply List.map_congr_left
        rintro ⟨c, f⟩ hcf
        exact ((h4 _ _ hg _ _).1 ((hcm _).1 hcf)).2
    · have hb' : ¬ ∃ r ∈ rs, r.batch = some gs[k].1 := fun h => hb ((h5 _).2 h)
      refine .inr ⟨hb', ?_⟩
      have hcf' := (h4 _ _ hg c f).1 (by rw [hcf]; exact List.mem_singleton.2 rfl)
      obtain ⟨⟨r, hr, hrk, hrc⟩, hf⟩ := hcf'
      have := plain_group hb' hr hrk
      rw [heq, hf, ← hrc, this]

/-- Patterns are unambiguous for this archive: batch ids are not 0 or the empty string, and no
unbatched case shares its id with a batch. -/
def Unambiguous (rs : List Rec) : Prop :=
  (∀ r ∈ rs, ∀ b, r.batch = some b → b ≠ .int 0 ∧ b ≠ .str "") ∧
  ∀ r ∈ rs, r.batch = none → ∀ r' ∈ rs, r'.batch ≠ some r.case

theorem key_batch {rs : List Rec} (hu : Unambiguous rs) {id : Id} (hb : ∃ r ∈ rs, r.batch = some id) {r : Rec}
    (hr : r ∈ rs) : r.key = id ↔ r.batch = some id := by
  unfold Rec.key groupKey
  cases hrb : r.batch with
  | none =>
    obtain ⟨r', hr', hb'⟩ := hb
    simp only [reduceCtorEq, iff_false]
    rintro rfl
    exact hu.2 r hr hrb r' hr' hb'
  | some b =>
    have hbt : b.truthy = true := by
      have := hu.1 r hr b hrb
      cases b <;> simp_all [Id.truthy]
    simp [hbt]

theorem key_plain {rs : List Rec} (hu : Unambiguous rs) {id : Id} (hb : ¬ ∃ r ∈ rs, r.batch = some id) {r : Rec}
    (hr : r ∈ rs) : r.key = id ↔ r.batch = none ∧ r.case = id := by
  unfold Rec.key groupKey
  cases hrb : r.batch with
  | none => simp
  | some b =>
    have hbt : b.truthy = true := by
      have := hu.1 r hr b hrb
      cases b <;> simp_all [Id.truthy]
    simp only [hbt, if_true, reduceCtorEq, false_and, iff_false]
    rintro rfl
    exact hb ⟨r, hr, hrb⟩

theorem lastFile_congr {rs : List Rec} {t : FileType} {p q : Rec → Bool} (h : ∀ r ∈ rs, p r = q r) :
    lastFile rs t p = lastFile rs t q := by
  unfold lastFile
  congr 2
  apply List.filter_congr
  intro r hr
  rw [h r hr]

/-- **C26 (partial)**: for an archive whose ids are unambiguous, the entries are the batches and
plain cases in increasing order of id, each exactly once; a batch contains exactly its cases in
increasing order; every case has exactly its own input and output file; and points are assigned in
that order.  Missing for the full claim: files with batch id 0, and plain cases numbered like a batch
(`C26_batch_zero_fails`, `C26_merge_fails`). -/
theorem C26_entries_partial {es : List (Entry P)}
    (hu : Unambiguous (records int files inPat outPat))
    (h : matchTestCases int files inPat outPat points = .ok es) :
    ∃ ids : List Id, ids.Pairwise Before ∧
      (∀ id, id ∈ ids ↔ ∃ r ∈ records int files inPat outPat,
        r.batch = some id ∨ (r.batch = none ∧ r.case = id)) ∧
      es.length = ids.length ∧
      ∀ k (h : k < ids.length) (h' : k < es.length), ∃ p, points k = some p ∧
        EntryFor (records int files inPat outPat) ids[k] es[k] p := by
  obtain ⟨ids, h1, h2, h3, h4⟩ := match_groups h
  generalize records int files inPat outPat = rs at *
  refine ⟨ids, h1, ?_, h3, ?_⟩
  · intro id
    rw [h2]
    constructor
    · rintro ⟨r, hr, hk⟩
      by_cases hb : ∃ r ∈ rs, r.batch = some id
      · exact ⟨r, hr, .inl ((key_batch hu hb hr).1 hk)⟩
      · exact ⟨r, hr, .inr ((key_plain hu hb hr).1 hk)⟩
    · rintro ⟨r, hr, hk | hk⟩
      · exact ⟨r, hr, (key_batch hu ⟨r, hr, hk⟩ hr).2 hk⟩
      · refine ⟨r, hr, (key_plain hu ?_ hr).2 hk⟩
        rintro ⟨r', hr', hb'⟩
        exact hu.2 r hr hk.1 r' hr' (by rw [hb', hk.2])
  · intro k hk hk'
    obtain ⟨p, hp, ⟨hb, cs, hs, hm, he⟩ | ⟨hb, he⟩⟩ := h4 k hk hk'
    · refine ⟨p, hp, .inl ⟨hb, cs, hs, ?_, ?_⟩⟩
      · intro c
        rw [hm]
        constructor
        · rintro ⟨r, hr, h1, h2⟩; exact ⟨r, hr, (key_batch hu hb hr).1 h1, h2⟩
        · rintro ⟨r, hr, h1, h2⟩; exact ⟨r, hr, (key_batch hu hb hr).2 h1, h2⟩
      · rw [he]
        congr 1
        apply List.map_congr_left
        intro c _
        have : ∀ r ∈ rs, (decide (r.key = ids[k]) && decide (r.case = c)) =
            (decide (r.batch = some ids[k]) && decide (r.case = c)) := by
          intro r hr
          simp only [key_batch hu hb hr]
        simp only [cell, filesOf, lastFile_congr this]
    · refine ⟨p, hp, .inr ⟨?_, ?_⟩⟩
      · obtain ⟨r, hr, hk⟩ := (h2 ids[k]).1 (List.getElem_mem hk)
        exact ⟨r, hr, (key_plain hu hb hr).1 hk⟩
      · rw [he]
        congr 1
        have : ∀ r ∈ rs, (decide (r.key = ids[k]) && decide (r.case = ids[k])) =
            (decide (r.batch = none) && decide (r.case = ids[k])) := by
          intro r hr
          simp only [key_plain hu hb hr]
          by_cases h1 : r.batch = none <;> by_cases h2 : r.case = ids[k] <;> simp [h1, h2]
        simp only [cell, filesOf, lastFile_congr this]

/-- **C26**: a file that matches a pattern without a case id is rejected, and nothing else is
rejected with that message. -/
theorem C26_no_case : matchTestCases int files inPat outPat points = .error .noCase ↔
    ∃ f ∈ files, ∃ b, parsePosition int inPat f = some (b, none) ∨ parsePosition int outPat f = some (b, none) := by
  constructor
  · intro h
    by_contra hn
    have hin : ∀ f ∈ files, ∀ b, parsePosition int inPat f ≠ some (b, none) :=
      fun f hf b hb => hn ⟨f, hf, b, .inl hb⟩
    have hout : ∀ f ∈ files, ∀ b, parsePosition int outPat f ≠ some (b, none) :=
      fun f hf b hb => hn ⟨f, hf, b, .inr hb⟩
    rw [matchTestCases, pass_ok _ _ _ hin] at h
    simp only [pass_ok _ _ _ hout] at h
    split at h
    · rename_i e he
      cases h
      exact absurd (sortItems_err he).1 (by simp)
    · rcases emit_err _ _ _ _ _ h with ⟨h1, -⟩ | ⟨g, -, -, h1⟩ | ⟨h1, -⟩
      · cases h1
      · exact absurd (sortItems_err h1).1 (by simp)
      · cases h1
  · rintro ⟨f, hf, b, hb | hb⟩
    · rw [matchTestCases, pass_err _ _ _ ⟨f, hf, b, hb⟩]
    · by_cases hin : ∀ f ∈ files, ∀ b, parsePosition int inPat f ≠ some (b, none)
      · rw [matchTestCases, pass_ok _ _ _ hin]
        simp only [pass_err _ _ _ ⟨f, hf, b, hb⟩]
      · push Not at hin
        rw [matchTestCases, pass_err _ _ _ hin]

theorem Before_irrefl (a : Id) : ¬ Before a a := by
  cases a <;> simp [Before]

theorem sameType_of_hom {rs : List Rec} (hh : Homogeneous rs) {r r' : Rec} (hr : r ∈ rs) (hr' : r' ∈ rs) :
    r.case.sameType r'.case = true ∧ r.key.sameType r'.key = true := by
  have key : ∀ r : Rec, r.key = r.case ∨ r.batch = some r.key := by
    intro r
    unfold Rec.key groupKey
    split
    · exact .inl rfl
    · rename_i b hb
      split
      · exact .inr hb
      · exact .inl rfl
  rcases hh with hh | hh
  · have kint : ∀ r ∈ rs, ∃ n, r.key = .int n := by
      intro r hr
      rcases key r with h | h
      · obtain ⟨n, hn⟩ := (hh r hr).1; exact ⟨n, h.trans hn⟩
      · exact (hh r hr).2 _ h
    obtain ⟨a, ha⟩ := (hh r hr).1
    obtain ⟨c, hc⟩ := (hh r' hr').1
    obtain ⟨a', ha'⟩ := kint r hr
    obtain ⟨c', hc'⟩ := kint r' hr'
    simp [ha, hc, ha', hc', Id.sameType]
  · have kstr : ∀ r ∈ rs, ∃ n, r.key = .str n := by
      intro r hr
      rcases key r with h | h
      · obtain ⟨n, hn⟩ := (hh r hr).1; exact ⟨n, h.trans hn⟩
      · exact (hh r hr).2 _ h
    obtain ⟨a, ha⟩ := (hh r hr).1
    obtain ⟨c, hc⟩ := (hh r' hr').1
    obtain ⟨a', ha'⟩ := kstr r hr
    obtain ⟨c', hc'⟩ := kstr r' hr'
    simp [ha, hc, ha', hc', Id.sameType]

/-- What the loop does once both passes have succeeded. -/
theorem match_err_cases {e : MatchErr} (h : matchTestCases int files inPat outPat points = .error e) :
    e = .noCase ∨
    (e = .typeError ∧ ¬ Homogeneous (records int files inPat outPat)) ∨
    (e = .stopIteration ∧ ∃ k < (records int files inPat outPat).length, points k = none) := by
  by_cases hc : e = .noCase
  · exact .inl hc
  have hn : ¬ ∃ f ∈ files, ∃ b, parsePosition int inPat f = some (b, none) ∨ parsePosition int outPat f = some (b, none) := by
    intro hx
    have := (C26_no_case (points := points)).2 hx
    rw [this] at h
    cases h
    exact hc rfl
  have hin : ∀ f ∈ files, ∀ b, parsePosition int inPat f ≠ some (b, none) :=
    fun f hf b hb => hn ⟨f, hf, b, .inl hb⟩
  have hout : ∀ f ∈ files, ∀ b, parsePosition int outPat f ≠ some (b, none) :=
    fun f hf b hb => hn ⟨f, hf, b, .inr hb⟩
  have G := GInv_all (records int files inPat outPat)
  have hlen : ((records int files inPat outPat).foldl addRec ([], [])).1.length ≤ (records int files inPat outPat).length := by
    have hsub : ∀ id ∈ ((records int files inPat outPat).foldl addRec ([], [])).1.map (·.1),
        id ∈ (records int files inPat outPat).map Rec.key := by
      intro id hid
      obtain ⟨r, hr, hk⟩ := (G.keys id).1 hid
      exact List.mem_map.2 ⟨r, hr, hk⟩
    simpa using (List.subperm_of_subset G.nodup hsub).length_le
  rw [matchTestCases, pass_ok _ _ _ hin] at h
  simp only [pass_ok _ _ _ hout, ← List.foldl_append] at h
  change (match sortItems ((records int files inPat outPat).foldl addRec ([], [])).1 with
    | .error e => Except.error e
    | .ok gs => emit points ((records int files inPat outPat).foldl addRec ([], [])).2 0 gs) = _ at h
  generalize (records int files inPat outPat).foldl addRec ([], []) = s at h G hlen
  generalize records int files inPat outPat = rs at G hlen ⊢
  obtain ⟨h1, h2, h3, h4, h5⟩ := G
  split at h
  · rename_i e' he'
    cases h
    obtain ⟨rfl, x, hx, y, hy, hxy⟩ := sortItems_err he'
    refine .inr (.inl ⟨rfl, fun hh => ?_⟩)
    obtain ⟨r, hr, hrk⟩ := (h3 x.1).1 (List.mem_map.2 ⟨x, hx, rfl⟩)
    obtain ⟨r', hr', hrk'⟩ := (h3 y.1).1 (List.mem_map.2 ⟨y, hy, rfl⟩)
    have := (sameType_of_hom hh hr hr').2
    rw [hrk, hrk', hxy] at this
    cases this
  · rename_i gs hgs
    obtain ⟨hm, hs, hl⟩ := sortItems_ok h1 hgs
    rcases emit_err _ _ _ _ _ h with ⟨rfl, k, hk, hp⟩ | ⟨g, hg, hb, h1⟩ | ⟨rfl, g, hg, hb, hne⟩
    · exact .inr (.inr ⟨rfl, k, by omega, by simpa using hp⟩)
    · obtain ⟨rfl, x, hx, y, hy, hxy⟩ := sortItems_err h1
      refine .inr (.inl ⟨rfl, fun hh => ?_⟩)
      obtain ⟨⟨r, hr, -, hrk⟩, -⟩ := (h4 g.1 g.2 ((hm _).1 hg) x.1 x.2).1 hx
      obtain ⟨⟨r', hr', -, hrk'⟩, -⟩ := (h4 g.1 g.2 ((hm _).1 hg) y.1 y.2).1 hy
      have := (sameType_of_hom hh hr hr').1
      rw [hrk, hrk', hxy] at this
      cases this
    · exfalso
      have hg' : (g.1, g.2) ∈ s.1 := (hm _).1 hg
      have hb' : ¬ ∃ r ∈ rs, r.batch = some g.1 := fun h => hb ((h5 _).2 h)
      have hall : ∀ x ∈ g.2, x.1 = g.1 := by
        rintro ⟨c, f⟩ hx
        obtain ⟨⟨r, hr, hk, hrc⟩, -⟩ := (h4 _ _ hg' c f).1 hx
        rw [← hrc]; exact plain_group hb' hr hk
      have hnd := h2 _ _ hg'
      obtain ⟨r, hr, hk⟩ := (h3 g.1).1 (List.mem_map.2 ⟨g, hg', rfl⟩)
      have hmem := (h4 _ _ hg' r.case _).2 ⟨⟨r, hr, hk, rfl⟩, rfl⟩
      generalize g.2 = l at *
      match l with
      | [] => cases hmem
      | [(c, f)] => exact hne c f rfl
      | (c, f) :: (c', f') :: l =>
        have e1 := hall (c, f) (by simp)
        have e2 := hall (c', f') (by simp)
        simp only at e1 e2
        simp [e1, e2] at hnd

/-- **C26**: an archive in which every matching file has a case id, ids are all numbers or all
strings, and there are enough points, is accepted. -/
theorem C26_accepted
    (hc : ∀ f ∈ files, ∀ b, parsePosition int inPat f ≠ some (b, none) ∧ parsePosition int outPat f ≠ some (b, none))
    (hh : Homogeneous (records int files inPat outPat))
    (hp : ∀ k < (records int files inPat outPat).length, points k ≠ none) :
    ∃ es, matchTestCases int files inPat outPat points = .ok es := by
  cases h : matchTestCases int files inPat outPat points with
  | ok es => exact ⟨es, rfl⟩
  | error e =>
    rcases match_err_cases h with rfl | ⟨-, hn⟩ | ⟨-, k, hk, hpk⟩
    · obtain ⟨f, hf, b, hb | hb⟩ := C26_no_case.1 h
      · exact absurd hb (hc f hf b).1
      · exact absurd hb (hc f hf b).2
    · exact absurd hh hn
    · exact absurd hpk (hp k hk)

/-- **C26**: the check for conflicting test cases never fires, whatever the archive. -/
theorem C26_no_conflict : matchTestCases int files inPat outPat points ≠ .error .conflict := by
  intro h
  rcases match_err_cases h with h | ⟨h, -⟩ | ⟨h, -⟩ <;> cases h

/-! ## Concrete archives -/

/-- A toy reading of numbers. -/
def digit (s : String) : Option Int :=
  if s = "0" then some 0 else if s = "1" then some 1 else if s = "2" then some 2 else if s = "5" then some 5 else none

/-- An archive given by what the two patterns say. -/
def table (l : List (String × Option String × Option String)) : Pattern := fun f => l.lookup f

/-- A batch with two cases, listed out of order, and a plain case; the names of the second output
file is missing. -/
example : matchTestCases digit ["2.in", "1.2.in", "1.1.in", "2.out", "1.1.out"]
    (table [("2.in", none, some "2"), ("1.2.in", some "1", some "2"), ("1.1.in", some "1", some "1")])
    (table [("2.out", none, some "2"), ("1.1.out", some "1", some "1")])
    (fun i => if i < 2 then some (10 * i) else none) =
    .ok [.batched [⟨some "1.1.in", some "1.1.out"⟩, ⟨some "1.2.in", none⟩] 0,
      .single ⟨some "2.in", some "2.out"⟩ 10] := by rfl

/-- The hypotheses of `C26_entries_partial` and `C26_accepted` hold for that archive. -/
example : Unambiguous (records digit ["2.in", "1.1.in"]
      (table [("2.in", none, some "2"), ("1.1.in", some "1", some "1")]) (table [])) ∧
    Homogeneous (records digit ["2.in", "1.1.in"]
      (table [("2.in", none, some "2"), ("1.1.in", some "1", some "1")]) (table [])) := by
  have : records digit ["2.in", "1.1.in"]
      (table [("2.in", none, some "2"), ("1.1.in", some "1", some "1")]) (table []) =
      [⟨.input, "2.in", none, .int 2⟩, ⟨.input, "1.1.in", some (.int 1), .int 1⟩] := by rfl
  rw [this]
  refine ⟨⟨by simp, by simp⟩, .inl (by simp)⟩

/-- A file without case id is rejected. -/
example : matchTestCases digit ["x"] (table [("x", some "1", none)]) (table []) (fun _ => some 1) =
    .error .noCase := by rfl

/-- **C26 fails** for batch 0: two files of batch 0 do not become one batch but two plain cases. -/
theorem C26_batch_zero_fails : ∃ (int : String → Option Int) (files : List String) (inPat outPat : Pattern)
    (es : List (Entry Nat)),
    (∀ r ∈ records int files inPat outPat, r.batch = some (.int 0)) ∧ (records int files inPat outPat).length = 2 ∧
    matchTestCases int files inPat outPat (fun _ => some 1) = .ok es ∧
    es = [.single ⟨some "0.1", none⟩ 1, .single ⟨some "0.2", none⟩ 1] :=
  ⟨digit, ["0.1", "0.2"], table [("0.1", some "0", some "1"), ("0.2", some "0", some "2")], table [], _,
    by
      have : records digit ["0.1", "0.2"] (table [("0.1", some "0", some "1"), ("0.2", some "0", some "2")]) (table []) =
        [⟨.input, "0.1", some (.int 0), .int 1⟩, ⟨.input, "0.2", some (.int 0), .int 2⟩] := by rfl
      rw [this]; simp, by rfl, by rfl, rfl⟩

/-- **C26 fails** when a plain case is numbered like a batch: its file becomes part of the batch. -/
theorem C26_merge_fails : ∃ (int : String → Option Int) (files : List String) (inPat outPat : Pattern)
    (es : List (Entry Nat)),
    ⟨.input, "1", none, .int 1⟩ ∈ records int files inPat outPat ∧
    matchTestCases int files inPat outPat (fun _ => some 1) = .ok es ∧
    es = [.batched [⟨some "1", none⟩, ⟨some "1.5", none⟩] 1] :=
  ⟨digit, ["1", "1.5"], table [("1", none, some "1"), ("1.5", some "1", some "5")], table [], _,
    by
      have : records digit ["1", "1.5"] (table [("1", none, some "1"), ("1.5", some "1", some "5")]) (table []) =
        [⟨.input, "1", none, .int 1⟩, ⟨.input, "1.5", some (.int 1), .int 5⟩] := by rfl
      rw [this]; simp, by rfl, rfl⟩

/-- **C26 fails** when two input files have the same ids: the earlier one is dropped silently. -/
theorem C26_duplicate_fails : ∃ (int : String → Option Int) (files : List String) (inPat outPat : Pattern)
    (es : List (Entry Nat)),
    ⟨.input, "a1", none, .int 1⟩ ∈ records int files inPat outPat ∧
    matchTestCases int files inPat outPat (fun _ => some 1) = .ok es ∧ es = [.single ⟨some "b1", none⟩ 1] :=
  ⟨digit, ["a1", "b1"], table [("a1", none, some "1"), ("b1", none, some "1")], table [], _,
    by
      have : records digit ["a1", "b1"] (table [("a1", none, some "1"), ("b1", none, some "1")]) (table []) =
        [⟨.input, "a1", none, .int 1⟩, ⟨.input, "b1", none, .int 1⟩] := by rfl
      rw [this]; simp, by rfl, rfl⟩

end Verif.Problem
