import Verif.Model.Commands
import Mathlib.Tactic.SplitIfs

/-!
# C49 Local submission lookup
-/

namespace Verif.Commands

deriving instance DecidableEq for Except

/-- An id resolves exactly to the submission which the (unlimited) list of submissions shows with that id; every
other number is refused, zero and negative ones too. -/
theorem C49_lookup (j : Judge) (id : Int) :
    (∀ s, getSubmission j id = .ok s ↔ ∃ i : Nat, id = (i : Int) + 1 ∧ j.graded[i]? = some s) ∧
    ((¬ ∃ i : Nat, id = (i : Int) + 1 ∧ i < j.graded.length) → getSubmission j id = .error .invalidSubmission) := by
  unfold getSubmission
  by_cases h : id > 0
  · rw [if_pos h]
    obtain ⟨i, rfl⟩ : ∃ i : Nat, id = (i : Int) + 1 := ⟨(id - 1).toNat, by omega⟩
    have e : ((i : Int) + 1 - 1).toNat = i := by omega
    rw [e]
    refine ⟨fun s => ?_, fun hn => ?_⟩
    · cases hg : j.graded[i]? with
      | none =>
        constructor
        · intro h; exact nomatch h
        rintro ⟨k, hk, hs⟩
        have : k = i := by omega
        rw [this, hg] at hs
        exact nomatch hs
      | some t =>
        constructor
        · intro h
          cases h
          exact ⟨i, rfl, hg⟩
        · rintro ⟨k, hk, hs⟩
          have : k = i := by omega
          rw [this, hg] at hs
          cases hs
          rfl
    · have : j.graded[i]? = none := by
        rw [List.getElem?_eq_none_iff]
        exact Nat.le_of_not_lt fun hlt => hn ⟨i, rfl, hlt⟩
      rw [this]
  · rw [if_neg h]
    refine ⟨fun s => ?_, fun _ => rfl⟩
    constructor
    · intro h; exact nomatch h
    · rintro ⟨i, rfl, _⟩
      omega

/-- The list of submissions shows every submission once, with the id it is found by. -/
theorem C49_listed (j : Judge) : ∃ rows, submissions j none = .ok rows ∧ rows.map (·.1) = List.range' 1 j.graded.length ∧
    ∀ id p l, (id, p, l) ∈ rows ↔ ∃ s, getSubmission j (id : Int) = .ok s ∧ s.problem = p ∧ s.language = l := by
  refine ⟨_, rfl, ?_, ?_⟩
  · apply List.ext_getElem?
    intro i
    simp only [List.getElem?_map, List.getElem?_zipIdx]
    by_cases h : i < j.graded.length
    · simp [h, Nat.add_comm]
    · simp [h]
  · intro id p l
    have := (C49_lookup j id).1
    simp only [this]
    simp only [List.mem_map, Prod.exists, List.mem_zipIdx_iff_getElem?]
    constructor
    · rintro ⟨s, i, h1, h2⟩
      obtain ⟨rfl, h3⟩ := Prod.mk.inj h2
      obtain ⟨rfl, rfl⟩ := Prod.mk.inj h3
      exact ⟨s, ⟨i, by omega, h1⟩, rfl, rfl⟩
    · rintro ⟨s, ⟨i, h1, h2⟩, rfl, rfl⟩
      have : id = i + 1 := by omega
      exact ⟨s, i, h2, by rw [this]⟩

private theorem submit_cases (w : World) (j : Judge) (p : Name) (l f : Option Name) (t : Rat) (m : Int) :
    (∃ e, submit w j p l f t m = (j, .error e)) ∨
    ∃ s, submit w j p l f t m = (⟨j.counter + 1, j.graded ++ [s]⟩, .ok ⟨j.counter + 1, s⟩) ∧ s.problem = p ∧ s.time = t ∧ s.memory = m := by
  unfold submit
  split
  · exact .inl ⟨_, rfl⟩
  · split
    · exact .inl ⟨_, rfl⟩
    · exact .inr ⟨_, rfl, rfl, rfl, rfl⟩

/-- Resubmitting is refused always: the check for the problem looks at something that is never a problem's name. -/
theorem C49_resubmit_fails (w : World) (j : Judge) (id : Int) (p l : Option Name) (t : Option Rat) (m : Option Int) :
    ∃ e, resubmit w j id p l t m = (j, .error e) := by
  unfold resubmit
  split
  · exact ⟨_, rfl⟩
  · rw [if_pos (by simp [builtinId])]
    exact ⟨_, rfl⟩

private theorem step_cases (j : Judge) (c : Cmd) : (step j c).1 = j ∨
    ∃ s, step j c = (⟨j.counter + 1, j.graded ++ [s]⟩, .ok ⟨j.counter + 1, s⟩) := by
  cases c with
  | submit w p l f t m =>
    rcases submit_cases w j p l f t m with ⟨e, h⟩ | ⟨s, h, _⟩
    · exact .inl (congrArg Prod.fst h)
    · exact .inr ⟨s, h⟩
  | resubmit w id p l t m =>
    obtain ⟨e, h⟩ := C49_resubmit_fails w j id p l t m
    exact .inl (congrArg Prod.fst h)
  | rejudge id =>
    left
    show (rejudge j id).1 = j
    unfold rejudge
    split <;> rfl

/-- In any session: the history only grows, so an id means the same submission for ever. -/
theorem C49_stable (j : Judge) (cs : List Cmd) (id : Int) (s : Sub) (h : getSubmission j id = .ok s) :
    getSubmission (run j cs).1 id = .ok s := by
  have pre : ∀ (cs : List Cmd) (j : Judge), j.graded <+: (run j cs).1.graded := by
    intro cs
    induction cs with
    | nil => intro j; exact List.prefix_refl _
    | cons c cs ih =>
      intro j
      refine List.IsPrefix.trans ?_ (ih (step j c).1)
      rcases step_cases j c with h | ⟨s, h⟩
      · rw [h]; exact List.prefix_refl _
      · rw [h]
        exact List.prefix_append _ _
  obtain ⟨i, h1, h2⟩ := ((C49_lookup j id).1 s).1 h
  refine ((C49_lookup _ id).1 s).2 ⟨i, h1, ?_⟩
  obtain ⟨t, ht⟩ := pre cs j
  rw [← ht, List.getElem?_append_left (List.getElem?_eq_some_iff.1 h2).1]
  exact h2

private theorem counter_run (cs : List Cmd) : ∀ j : Judge, j.counter = j.graded.length → (run j cs).1.counter = (run j cs).1.graded.length := by
  induction cs with
  | nil => intro j h; exact h
  | cons c cs ih =>
    intro j h
    refine ih _ ?_
    rcases step_cases j c with h' | ⟨s, h'⟩
    · rw [h']; exact h
    · rw [h']; simp [h]

/-- A submission accepted at any point of a session is graded under the id by which it is found at once, and which
no earlier submission has. -/
theorem C49_submit_id (cs : List Cmd) (w : World) (p : Name) (l f : Option Name) (t : Rat) (m : Int) (b : Begun)
    (h : (submit w (run Judge.start cs).1 p l f t m).2 = .ok b) :
    getSubmission (submit w (run Judge.start cs).1 p l f t m).1 (b.id : Int) = .ok b.sub ∧
    getSubmission (run Judge.start cs).1 (b.id : Int) = .error .invalidSubmission ∧ b.sub.problem = p ∧ b.sub.time = t ∧ b.sub.memory = m := by
  have hc := counter_run cs Judge.start rfl
  rcases submit_cases w (run Judge.start cs).1 p l f t m with ⟨e, h'⟩ | ⟨s, h', h1, h2, h3⟩
  · rw [h'] at h; exact nomatch h
  · rw [h'] at h ⊢
    cases h
    refine ⟨((C49_lookup _ _).1 s).2 ⟨(run Judge.start cs).1.counter, by simp, ?_⟩, (C49_lookup _ _).2 ?_, h1, h2, h3⟩
    · rw [hc]; simp
    · rintro ⟨i, h4, h5⟩
      rw [← hc] at h5
      push_cast at h4
      omega

/-- A refused command leaves the history as it was. -/
theorem C49_refused (j : Judge) (c : Cmd) (e : Err) (h : (step j c).2 = .error e) : (step j c).1 = j := by
  rcases step_cases j c with h' | ⟨s, h'⟩
  · exact h'
  · rw [h'] at h; exact nomatch h

/-- Judging again takes the submission of the typed id. -/
theorem C49_rejudge (j : Judge) (id : Int) :
    (rejudge j id).1 = j ∧ ∀ b, (rejudge j id).2 = .ok b → getSubmission j id = .ok b.sub := by
  unfold rejudge
  split
  · exact ⟨rfl, fun b h => nomatch h⟩
  · rename_i s hs
    refine ⟨rfl, fun b h => ?_⟩
    cases h
    exact hs

/-- But it is graded under the id of the latest submission. -/
theorem C49_rejudge_id_fails : ∃ (cs : List Cmd) (id : Int) (b : Begun),
    (rejudge (run Judge.start cs).1 id).2 = .ok b ∧ (b.id : Int) ≠ id ∧
    ∃ s, getSubmission (run Judge.start cs).1 b.id = .ok s ∧ s ≠ b.sub := by
  let w : World := ⟨["p".toList, "q".toList], ["PY2".toList], fun f => some f, fun _ _ => none, id, fun _ => none⟩
  exact ⟨[.submit w "p".toList (some "PY2".toList) (some "a".toList) 1 1, .submit w "q".toList (some "PY2".toList) (some "a".toList) 1 1], 1,
    ⟨2, "p".toList, "PY2".toList, "a".toList, 1, 1⟩, by decide +kernel, by decide +kernel,
    ⟨"q".toList, "PY2".toList, "a".toList, 1, 1⟩, by decide +kernel, by decide +kernel⟩

/-- A submission with the language given is recorded only if the problem and the language are known and the limits
are positive. What is missing: when the language is guessed from the file name (`C49_guessed_fails`). -/
theorem C49_checked_partial (w : World) (j : Judge) (p : Name) (l : Name) (f : Option Name) (t : Rat) (m : Int)
    (hl : l ∈ w.executors) (hne : l ≠ []) :
    (∃ b, (submit w j p (some l) f t m).2 = .ok b) ↔
      p ∈ w.problems ∧ 0 < t ∧ 0 < m ∧ (if f = none ∨ f = some [] then w.editor l [] else f.bind w.file) ≠ none := by
  have hff : (f = none ∨ f = some []) ↔ falsy f = true := by
    cases f with
    | none => simp [falsy]
    | some n => cases n <;> simp [falsy]
  simp only [hff]
  have hf : falsy (some l) = false := by
    cases l with
    | nil => exact absurd rfl hne
    | cons _ _ => rfl
  unfold submit submitChecks
  simp only [if_pos hl, hf, Bool.false_eq_true, if_false]
  by_cases h1 : p ∈ w.problems
  · rw [if_neg (not_not_intro h1), if_neg (not_not_intro hl)]
    by_cases h2 : t ≤ 0
    · rw [if_pos h2]
      constructor
      · rintro ⟨b, h⟩; exact nomatch h
      · rintro ⟨_, h, _⟩; exact absurd h2 (Rat.not_le.2 h)
    · rw [if_neg h2]
      by_cases h3 : m ≤ 0
      · rw [if_pos h3]
        constructor
        · rintro ⟨b, h⟩; exact nomatch h
        · rintro ⟨_, _, h, _⟩; omega
      · rw [if_neg h3]
        simp only
        cases hs : (if falsy f then w.editor l [] else f.bind w.file) with
        | none =>
          constructor
          · rintro ⟨b, h⟩; exact nomatch h
          · rintro ⟨_, _, _, h⟩; exact absurd rfl h
        | some src =>
          constructor
          · intro _; exact ⟨h1, Rat.not_le.1 h2, by omega, by simp⟩
          · intro _; exact ⟨_, rfl⟩
  · rw [if_pos h1]
    constructor
    · rintro ⟨b, h⟩; exact nomatch h
    · rintro ⟨h, _⟩; exact absurd h h1

example : ∃ (w : World) (b : Begun), (submit w Judge.start "p".toList (some "PY2".toList) (some "a".toList) 1 1).2 = .ok b :=
  ⟨⟨["p".toList], ["PY2".toList], fun f => some f, fun _ _ => none, id, fun _ => none⟩, ⟨1, "p".toList, "PY2".toList, "a".toList, 1, 1⟩, by decide +kernel⟩

/-- Without a language the one that goes with the name of the file is taken: what follows its first dot, in capital letters, except for three
extensions. -/
theorem C49_language (w : World) (j : Judge) (p base ext src : Name) (f : Option Name) (t : Rat) (m : Int) (hb : '.' ∉ base) (he : ext ≠ [])
    (hp : p ∈ w.problems) (hn : base ++ '.' :: ext ∉ w.executors) (hs : w.file (base ++ '.' :: ext) = some src) :
    ∃ b, (submit w j p (some (base ++ '.' :: ext)) f t m).2 = .ok b ∧ b.sub.source = src ∧
      (w.upper ext = "PY".toList → b.sub.language = "PY2".toList) ∧ (w.upper ext = "CPP".toList → b.sub.language = "CPP11".toList) ∧
      (w.upper ext = "JAVA".toList → b.sub.language = "JAVA8".toList) ∧
      (w.upper ext ∉ ["PY".toList, "CPP".toList, "JAVA".toList] → b.sub.language = w.upper ext) := by
  have hx : extension (base ++ '.' :: ext) = ext := by
    unfold extension
    rw [List.dropWhile_append_of_pos (by intro a ha; simp; exact fun e => hb (e ▸ ha))]
    simp
  have h1 : (base ++ '.' :: ext).isEmpty = false := by cases base <;> rfl
  have h2 : ext.isEmpty = false := by cases ext with | nil => exact absurd rfl he | cons _ _ => rfl
  refine ⟨⟨j.counter + 1, p, guess (w.upper ext), src, t, m⟩, ?_, rfl, ?_, ?_, ?_, ?_⟩
  · simp [submit, submitChecks, hn, hp, falsy, h1, hx, h2, hs, record]
  all_goals intro h; simp only [guess]
  · rw [if_pos h]
  · rw [h, if_neg (by decide), if_pos rfl]
  · rw [h, if_neg (by decide), if_neg (by decide), if_pos rfl]
  · simp only [List.mem_cons, List.not_mem_nil, or_false, not_or] at h
    rw [if_neg h.1, if_neg h.2.1, if_neg h.2.2]

/-- With the language guessed from the file name, an unknown language and negative limits are accepted. -/
theorem C49_guessed_fails : ∃ (w : World) (p f : Name) (b : Begun),
    (submit w Judge.start p (some f) none (-1) (-1)).2 = .ok b ∧ b.sub.language ∉ w.executors ∧ b.sub.time < 0 ∧ b.sub.memory < 0 :=
  ⟨⟨["p".toList], ["PY2".toList], fun f => some f, fun _ _ => none, id, fun _ => none⟩, "p".toList, "a.XY".toList,
    ⟨1, "p".toList, "XY".toList, "a.XY".toList, -1, -1⟩, by decide +kernel, by decide +kernel, by decide +kernel, by decide +kernel⟩

/-- A limited list shows a part of the full one, as long as asked for if there are so many submissions. -/
theorem C49_limit (j : Judge) (n : Int) (h : 0 < n) (all : List (Nat × Name × Name)) (ha : submissions j none = .ok all) :
    ∃ rows, submissions j (some n) = .ok rows ∧ rows <:+: all ∧ rows.length = min n.toNat j.graded.length := by
  cases ha
  refine ⟨_, if_neg (by omega), ?_, by simp⟩
  apply List.IsPrefix.isInfix
  rw [show ((j.graded.take n.toNat).zipIdx) = (j.graded.zipIdx).take n.toNat from by
    apply List.ext_getElem?
    intro i
    simp only [List.getElem?_zipIdx, List.getElem?_take]
    split_ifs <;> rfl]
  exact (List.take_prefix _ _).map _

/-- The limit is documented as giving the most recent ones, but gives the oldest. -/
theorem C49_limit_fails : ∃ (j : Judge) (latest : Nat × Name × Name) (all rows : List (Nat × Name × Name)),
    submissions j none = .ok all ∧ all.getLast? = some latest ∧ submissions j (some 1) = .ok rows ∧ latest ∉ rows :=
  ⟨⟨2, [⟨"p".toList, "PY2".toList, [], 1, 1⟩, ⟨"q".toList, "PY2".toList, [], 1, 1⟩]⟩, (2, "q".toList, "PY2".toList),
    [(1, "p".toList, "PY2".toList), (2, "q".toList, "PY2".toList)], [(1, "p".toList, "PY2".toList)],
    by decide +kernel, by decide +kernel, by decide +kernel, by decide +kernel⟩

/-- `show` and `diff` take a number for an id and everything else for a file. -/
theorem C49_source (w : World) (j : Judge) (arg : Name) (src : Name) :
    sourceOf w j arg = .ok src ↔
      (∃ id s, w.int arg = some id ∧ getSubmission j id = .ok s ∧ s.source = src) ∨ w.int arg = none ∧ w.file arg = some src := by
  unfold sourceOf
  cases hi : w.int arg with
  | some id =>
    simp only
    cases hg : getSubmission j id with
    | error e => simp [hg]
    | ok s => simp [hg]
  | none =>
    cases hf : w.file arg <;> simp

/-- `problems` lists problems that match, in order, all of them unless limited, and at least one. -/
theorem C49_problems (w : World) (keep : Name → Bool) (limit : Option Int) (ps : List Name)
    (h : problems w (some keep) limit = .ok ps) :
    ps ≠ [] ∧ ps <+: w.problems.filter keep ∧ (limit = none → ps = w.problems.filter keep) ∧
      ∀ n, limit = some n → 0 < n ∧ ps.length = min n.toNat (w.problems.filter keep).length := by
  unfold problems at h
  split at h
  · rename_i l
    by_cases h1 : l ≤ 0
    · rw [if_pos h1] at h; exact nomatch h
    rw [if_neg h1] at h
    simp only at h
    split_ifs at h with h2
    cases h
    refine ⟨h2, List.take_prefix _ _, fun e => (nomatch e), fun n e => ?_⟩
    cases e
    exact ⟨by omega, List.length_take⟩
  · simp only at h
    split_ifs at h with h2
    cases h
    exact ⟨h2, List.prefix_refl _, fun _ => rfl, fun n e => (nomatch e)⟩

end Verif.Commands
