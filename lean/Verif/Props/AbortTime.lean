import Verif.Spec.AbortTime

/-! # C118: aborting a submission, in time -/

namespace Verif.Props

open Verif.AbortTime Verif.Spec.AbortTime

namespace Ab

theorem last_cons {x : Nat × Ev} {l : List (Nat × Ev)} (h : l ≠ []) : last (x :: l) = last l := by
  cases l with
  | nil => exact absurd rfl h
  | cons y l => simp [last, List.getLast?_cons_cons]

theorem grade_ne (a : Option Nat) (i now : Nat) (cs : List Case) : grade a i now cs ≠ [] := by
  cases cs with
  | nil => simp [grade]
  | cons c cs =>
    rw [grade]
    cases a with
    | none => simp only; split <;> simp
    | some t => simp only; split; (split; · simp); (split <;> simp); simp

/-- The three ways a graded case goes. -/
theorem grade_cases (a : Option Nat) (i now : Nat) (c : Case) (cs : List Case) :
    (c.graded = false ∧ grade a i now (c :: cs) = (now, .result i) :: grade a (i + 1) now cs) ∨
    (c.graded = true ∧ ∃ t, a = some t ∧ now + c.data ≤ t ∧ t < now + c.data + c.run ∧
      grade a i now (c :: cs) = [(now + c.data, .launch i), (t, .killed i), (t + c.after, .aborted)]) ∨
    (c.graded = true ∧ ∃ t, a = some t ∧ (t < now + c.data ∨ now + c.data + c.run ≤ t) ∧ t ≤ now + c.data + c.run + c.check ∧
      grade a i now (c :: cs) =
        [(now + c.data, .launch i), (now + c.data + c.run, .exited i), (now + c.data + c.run + c.check, .aborted)]) ∨
    (c.graded = true ∧ (∀ t, a = some t → now + c.data + c.run + c.check < t) ∧
      grade a i now (c :: cs) = (now + c.data, .launch i) :: (now + c.data + c.run, .exited i) ::
        (now + c.data + c.run + c.check, .result i) :: grade a (i + 1) (now + c.data + c.run + c.check) cs) := by
  rw [grade]
  cases hg : c.graded with
  | false => exact .inl ⟨rfl, rfl⟩
  | true =>
    refine .inr ?_
    cases a with
    | none => exact .inr (.inr ⟨rfl, nofun, rfl⟩)
    | some t =>
      simp only [if_true]
      by_cases h : now + c.data ≤ t ∧ t < now + c.data + c.run
      · exact .inl ⟨trivial, t, rfl, h.1, h.2, by rw [if_pos h]⟩
      · by_cases h2 : t ≤ now + c.data + c.run + c.check
        · exact .inr (.inl ⟨trivial, t, rfl, by omega, h2, by rw [if_neg h, if_pos h2]⟩)
        · refine .inr (.inr ⟨trivial, ?_, by rw [if_neg h, if_neg h2]⟩)
          intro t' ht
          cases ht
          omega

/-- Times lie between the beginning and the last message. -/
theorem grade_times (a : Option Nat) : ∀ cs i now, ∀ x ∈ grade a i now cs, now ≤ x.1 ∧ x.1 ≤ last (grade a i now cs)
  | [], i, now, x, hx => by
    rw [grade, List.mem_singleton] at hx
    subst hx
    exact ⟨Nat.le_refl _, Nat.le_refl _⟩
  | c :: cs, i, now, x, hx => by
    have ih := grade_times a cs
    rcases grade_cases a i now c cs with ⟨_, h⟩ | ⟨_, t, _, h1, h2, h⟩ | ⟨_, t, _, h1, h2, h⟩ | ⟨_, _, h⟩ <;> rw [h] at hx ⊢
    · have hne := grade_ne a (i + 1) now cs
      rw [last_cons hne]
      obtain ⟨y, hy⟩ := List.exists_mem_of_ne_nil _ hne
      have hl := ih (i + 1) now y hy
      rcases List.mem_cons.1 hx with rfl | hx
      · exact ⟨Nat.le_refl _, by simp only; omega⟩
      · exact ih (i + 1) now x hx
    · simp only [last, List.map_cons, List.map_nil, List.getLast?_cons_cons, List.getLast?_singleton, Option.getD_some]
      simp only [List.mem_cons, List.not_mem_nil, or_false] at hx
      rcases hx with rfl | rfl | rfl <;> simp only <;> omega
    · simp only [last, List.map_cons, List.map_nil, List.getLast?_cons_cons, List.getLast?_singleton, Option.getD_some]
      simp only [List.mem_cons, List.not_mem_nil, or_false] at hx
      rcases hx with rfl | rfl | rfl <;> simp only <;> omega
    · have hne := grade_ne a (i + 1) (now + c.data + c.run + c.check) cs
      rw [last_cons (by simp), last_cons (by simp), last_cons hne]
      obtain ⟨y, hy⟩ := List.exists_mem_of_ne_nil _ hne
      have hl := ih (i + 1) _ y hy
      simp only [List.mem_cons] at hx
      rcases hx with rfl | rfl | rfl | hx
      · simp only; omega
      · simp only; omega
      · simp only; omega
      · have := ih (i + 1) _ x hx
        omega

theorem ends_cons {x : Nat × Ev} {l : List (Nat × Ev)} {t : Nat} {e : Ev} (hx : ¬Terminal x.2) (h : Ends l t e) : Ends (x :: l) t e := by
  obtain ⟨ht, l', rfl, hl⟩ := h
  refine ⟨ht, x :: l', rfl, fun y hy => ?_⟩
  rcases List.mem_cons.1 hy with rfl | hy
  · exact hx
  · exact hl y hy

theorem ends_one {t : Nat} {e : Ev} (h : Terminal e) : Ends [(t, e)] t e := ⟨h, [], rfl, by simp⟩

theorem ends_last {l : List (Nat × Ev)} {t : Nat} {e : Ev} (h : Ends l t e) : last l = t := by
  obtain ⟨_, l', rfl, _⟩ := h
  simp [last]

theorem grade_ends (a : Option Nat) : ∀ cs i now, ∃ t e, Ends (grade a i now cs) t e ∧ (e = .done ∨ e = .aborted)
  | [], i, now => ⟨now, .done, ends_one trivial, .inl rfl⟩
  | c :: cs, i, now => by
    have ih := grade_ends a cs
    rcases grade_cases a i now c cs with ⟨_, h⟩ | ⟨_, t, _, h1, h2, h⟩ | ⟨_, t, _, h1, h2, h⟩ | ⟨_, _, h⟩ <;> rw [h]
    · obtain ⟨t, e, he, hd⟩ := ih (i + 1) now
      exact ⟨t, e, ends_cons (by simp [Terminal]) he, hd⟩
    · exact ⟨_, _, ends_cons (by simp [Terminal]) (ends_cons (by simp [Terminal]) (ends_one trivial)), .inr rfl⟩
    · exact ⟨_, _, ends_cons (by simp [Terminal]) (ends_cons (by simp [Terminal]) (ends_one trivial)), .inr rfl⟩
    · obtain ⟨t, e, he, hd⟩ := ih (i + 1) (now + c.data + c.run + c.check)
      exact ⟨t, e, ends_cons (by simp [Terminal]) (ends_cons (by simp [Terminal]) (ends_cons (by simp [Terminal]) he)), hd⟩

theorem worker_ends (w : Work) (a : Option Nat) : ∃ t e, Ends (worker w a) t e ∧ (e = .done ∨ e = .aborted ∨ e = .compileError) := by
  unfold worker
  split
  · exact ⟨_, _, ends_one trivial, .inr (.inr rfl)⟩
  · obtain ⟨t, e, h, hd⟩ := grade_ends a w.cases 0 (w.make + w.ready)
    exact ⟨t, e, h, hd.elim .inl fun h => .inr (.inl h)⟩

theorem worker_times (w : Work) (a : Option Nat) (x) (hx : x ∈ worker w a) : w.make ≤ x.1 ∧ x.1 ≤ last (worker w a) := by
  unfold worker at hx ⊢
  split at hx
  · next h =>
    rw [if_pos h]
    rw [List.mem_singleton] at hx
    subst hx
    exact ⟨Nat.le_refl _, Nat.le_refl _⟩
  · next h =>
    rw [if_neg h]
    have := grade_times a w.cases 0 _ x hx
    omega

/-- A worker that is cut off. -/
theorem judge_cut (w : Work) (t : Nat) (h : t + limit < last (worker w (some t))) : Ends (judge w t) (t + limit) .internal := by
  obtain ⟨s, e, hE, _⟩ := worker_ends w (some t)
  have hl := ends_last hE
  obtain ⟨_, l', he, hn⟩ := hE
  unfold judge
  simp only
  rw [if_neg (by omega)]
  refine ⟨trivial, _, rfl, fun x hx => ?_⟩
  obtain ⟨hx, hb⟩ := List.mem_filter.1 hx
  rw [he] at hx
  rcases List.mem_append.1 hx with hx | hx
  · exact hn x hx
  · rw [List.mem_singleton] at hx
    subst hx
    simp at hb
    omega

theorem judge_whole (w : Work) (t : Nat) (h : last (worker w (some t)) ≤ t + limit) : judge w t = worker w (some t) := by
  unfold judge
  simp only
  rw [if_pos h]

theorem mem_judge {w : Work} {t : Nat} {x : Nat × Ev} (hx : x ∈ judge w t) : x ∈ worker w (some t) ∨ x = (t + limit, .internal) := by
  unfold judge at hx
  simp only at hx
  split at hx
  · exact .inl hx
  · rcases List.mem_append.1 hx with hx | hx
    · exact .inl (List.mem_filter.1 hx).1
    · exact .inr (List.mem_singleton.1 hx)

theorem later_results (t : Nat) : ∀ cs i now, now < t → ∀ s j, (s, Ev.result j) ∈ grade (some t) i now cs → s < t
  | [], i, now, h, s, j, hx => by simp [grade] at hx
  | c :: cs, i, now, h, s, j, hx => by
    have ih := later_results t cs
    rcases grade_cases (some t) i now c cs with ⟨_, h'⟩ | ⟨_, t', _, h1, h2, h'⟩ | ⟨_, t', _, h1, h2, h'⟩ | ⟨_, hr, h'⟩ <;> rw [h'] at hx
    · rcases List.mem_cons.1 hx with hx | hx
      · cases hx; exact h
      · exact ih _ _ h s j hx
    · simp at hx
    · simp at hx
    · have hr := hr t rfl
      simp only [List.mem_cons, Prod.mk.injEq, reduceCtorEq, and_false, false_or, Ev.result.injEq] at hx
      rcases hx with ⟨rfl, _⟩ | hx
      · exact hr
      · exact ih _ _ hr s j hx

theorem launches (t : Nat) : ∀ cs i now, ((grade (some t) i now cs).filter fun x => decide (t < x.1) && starts x.2).length ≤ 1
  | [], i, now => by simp [grade, starts]
  | c :: cs, i, now => by
    have ih := launches t cs
    rcases grade_cases (some t) i now c cs with ⟨_, h⟩ | ⟨_, t', ht, h1, h2, h⟩ | ⟨_, t', ht, h1, h2, h⟩ | ⟨_, hr, h⟩ <;> rw [h]
    · simpa [List.filter_cons, starts] using ih (i + 1) now
    · cases ht
      simp [List.filter_cons, starts, Nat.not_lt.2 h1]
    · simp only [List.filter_cons, starts, Bool.and_false, Bool.and_true, Bool.false_eq_true, if_false, List.filter_nil]
      split <;> simp
    · have hr := hr t rfl
      have : ¬t < now + c.data := by omega
      simpa [List.filter_cons, starts, this] using ih (i + 1) _

theorem index (a : Option Nat) : ∀ cs i now s j, ((s, Ev.launch j) ∈ grade a i now cs ∨ (s, Ev.exited j) ∈ grade a i now cs ∨
    (s, Ev.result j) ∈ grade a i now cs) → i ≤ j
  | [], i, now, s, j, hx => by simp [grade] at hx
  | c :: cs, i, now, s, j, hx => by
    have ih := index a cs
    rcases grade_cases a i now c cs with ⟨_, h⟩ | ⟨_, t, _, h1, h2, h⟩ | ⟨_, t, _, h1, h2, h⟩ | ⟨_, _, h⟩ <;> rw [h] at hx
    · have := ih (i + 1) now s j
      simp only [List.mem_cons, Prod.mk.injEq, reduceCtorEq, and_false, false_or, Ev.result.injEq] at hx
      grind
    · simp at hx; omega
    · simp at hx; omega
    · have := ih (i + 1) (now + c.data + c.run + c.check) s j
      simp only [List.mem_cons, Prod.mk.injEq, reduceCtorEq, and_false, false_or, Ev.result.injEq, Ev.launch.injEq, Ev.exited.injEq] at hx
      grind

/-- A program that runs at the moment of the request. -/
theorem running (t : Nat) : ∀ cs i now l e j, (l, Ev.launch j) ∈ grade none i now cs → (e, Ev.exited j) ∈ grade none i now cs → l < t → t < e →
    ∃ c, cs[j - i]? = some c ∧ (t, Ev.killed j) ∈ grade (some t) i now cs ∧ Ends (grade (some t) i now cs) (t + c.after) .aborted
  | [], i, now, l, e, j, hl, he, h1, h2 => by simp [grade] at hl
  | c :: cs, i, now, l, e, j, hl, he, h1, h2 => by
    have ih := running t cs
    have i1 := index none (c :: cs) i now l j (.inl hl)
    have hne : ∀ now, (l, Ev.launch j) ∈ grade none (i + 1) now cs → i + 1 ≤ j ∧ (c :: cs)[j - i]? = cs[j - (i + 1)]? := fun now h => by
      have := index none cs (i + 1) now l j (.inl h)
      refine ⟨this, ?_⟩
      have : j - i = (j - (i + 1)) + 1 := by omega
      rw [this, List.getElem?_cons_succ]
    rcases grade_cases none i now c cs with ⟨hg, h⟩ | ⟨_, t', ht, _⟩ | ⟨_, t', ht, _⟩ | ⟨hg, _, h⟩
    · rw [h] at hl he
      simp only [List.mem_cons, Prod.mk.injEq, reduceCtorEq, and_false, false_or] at hl he
      obtain ⟨c', hc, hk, hE⟩ := ih (i + 1) now l e j hl he h1 h2
      have hs : grade (some t) i now (c :: cs) = (now, .result i) :: grade (some t) (i + 1) now cs := by rw [grade, hg]; rfl
      rw [hs, (hne _ hl).2]
      exact ⟨c', hc, List.mem_cons_of_mem _ hk, ends_cons (by simp [Terminal]) hE⟩
    · exact nomatch ht
    · exact nomatch ht
    · rw [h] at hl he
      simp only [List.mem_cons, Prod.mk.injEq, reduceCtorEq, and_false, false_or, Ev.launch.injEq, Ev.exited.injEq] at hl he
      rcases hl with ⟨rfl, rfl⟩ | hl
      · have he : e = now + c.data + c.run := by
          rcases he with ⟨h, _⟩ | he
          · exact h
          · have := index none cs (j + 1) _ e j (.inr (.inl he))
            omega
        subst he
        rcases grade_cases (some t) j now c cs with ⟨hg', _⟩ | ⟨_, t', ht, g1, g2, g⟩ | ⟨_, t', ht, g1, g2, g⟩ | ⟨_, hr, g⟩
        · rw [hg] at hg'; exact nomatch hg'
        · cases ht
          rw [g]
          exact ⟨c, by simp, by simp, ends_cons (by simp [Terminal]) (ends_cons (by simp [Terminal]) (ends_one trivial))⟩
        · cases ht; omega
        · have := hr t rfl; omega
      · have hb := (grade_times none cs _ _ _ hl).1
        have hj := hne _ hl
        have he : (e, Ev.exited j) ∈ grade none (i + 1) (now + c.data + c.run + c.check) cs := by
          rcases he with ⟨_, h⟩ | he
          · omega
          · exact he
        obtain ⟨c', hc, hk, hE⟩ := ih _ _ l e j hl he h1 h2
        simp only at hb
        have hs : grade (some t) i now (c :: cs) = (now + c.data, .launch i) :: (now + c.data + c.run, .exited i) ::
            (now + c.data + c.run + c.check, .result i) :: grade (some t) (i + 1) (now + c.data + c.run + c.check) cs := by
          rcases grade_cases (some t) i now c cs with ⟨hg', _⟩ | ⟨_, t', ht, g1, g2, g⟩ | ⟨_, t', ht, g1, g2, g⟩ | ⟨_, hr, g⟩
          · rw [hg] at hg'; exact nomatch hg'
          · cases ht; omega
          · cases ht; omega
          · exact g
        rw [hs, hj.2]
        refine ⟨c', hc, by simp [hk], ?_⟩
        exact ends_cons (by simp [Terminal]) (ends_cons (by simp [Terminal]) (ends_cons (by simp [Terminal]) hE))

/-- A result that would come after the request. -/
theorem next_result (t : Nat) : ∀ cs i now r j c, (r, Ev.result j) ∈ grade none i now cs → cs[j - i]? = some c → c.graded = true → t ≤ r →
    ∃ s, Ends (grade (some t) i now cs) s .aborted ∧ (s ≤ r ∨ ∃ c ∈ cs, s = t + c.after)
  | [], i, now, r, j, c, hr, hc, hg, ht => by simp [grade] at hr
  | d :: cs, i, now, r, j, c, hr, hc, hg, ht => by
    have ih := next_result t cs
    have hne : ∀ now, (r, Ev.result j) ∈ grade none (i + 1) now cs → cs[j - (i + 1)]? = some c := fun now h => by
      have := index none cs (i + 1) now r j (.inr (.inr h))
      have e : j - i = (j - (i + 1)) + 1 := by omega
      rw [e, List.getElem?_cons_succ] at hc
      exact hc
    rcases grade_cases none i now d cs with ⟨hd, h⟩ | ⟨_, t', ht, _⟩ | ⟨_, t', ht, _⟩ | ⟨hd, _, h⟩
    · rw [h] at hr
      simp only [List.mem_cons, Prod.mk.injEq, Ev.result.injEq] at hr
      rcases hr with ⟨rfl, rfl⟩ | hr
      · simp at hc
        rw [hc, hg] at hd
        exact nomatch hd
      · obtain ⟨s, hE, hs⟩ := ih _ _ r j c hr (hne _ hr) hg ht
        have g : grade (some t) i now (d :: cs) = (now, .result i) :: grade (some t) (i + 1) now cs := by rw [grade, hd]; rfl
        rw [g]
        exact ⟨s, ends_cons (by simp [Terminal]) hE, hs.imp id fun ⟨c, hc, e⟩ => ⟨c, List.mem_cons_of_mem _ hc, e⟩⟩
    · exact nomatch ht
    · exact nomatch ht
    · rw [h] at hr
      simp only [List.mem_cons, Prod.mk.injEq, reduceCtorEq, and_false, false_or, Ev.result.injEq] at hr
      have hr' : now + d.data + d.run + d.check ≤ r := by
        rcases hr with ⟨rfl, _⟩ | hr
        · exact Nat.le_refl _
        · exact (grade_times none cs _ _ _ hr).1
      rcases grade_cases (some t) i now d cs with ⟨hg', _⟩ | ⟨_, t', ht, g1, g2, g⟩ | ⟨_, t', ht, g1, g2, g⟩ | ⟨_, hq, g⟩
      · rw [hd] at hg'; exact nomatch hg'
      · cases ht
        rw [g]
        exact ⟨_, ends_cons (by simp [Terminal]) (ends_cons (by simp [Terminal]) (ends_one trivial)), .inr ⟨d, by simp, rfl⟩⟩
      · cases ht
        rw [g]
        exact ⟨_, ends_cons (by simp [Terminal]) (ends_cons (by simp [Terminal]) (ends_one trivial)), .inl hr'⟩
      · have hq := hq t rfl
        rcases hr with ⟨rfl, _⟩ | hr
        · omega
        · obtain ⟨s, hE, hs⟩ := ih _ _ r j c hr (hne _ hr) hg ht
          rw [g]
          exact ⟨s, ends_cons (by simp [Terminal]) (ends_cons (by simp [Terminal]) (ends_cons (by simp [Terminal]) hE)),
            hs.imp id fun ⟨c, hc, e⟩ => ⟨c, List.mem_cons_of_mem _ hc, e⟩⟩

theorem unaffected (t : Nat) : ∀ cs i now, last (grade none i now cs) < t → grade (some t) i now cs = grade none i now cs
  | [], _, _, _ => rfl
  | c :: cs, i, now, h => by
    have ih := unaffected t cs
    rcases grade_cases none i now c cs with ⟨hg, g⟩ | ⟨_, t', ht, _⟩ | ⟨_, t', ht, _⟩ | ⟨hg, _, g⟩
    · rw [g, last_cons (grade_ne _ _ _ _)] at h
      rw [g, ← ih _ _ h, grade, hg]
      rfl
    · exact nomatch ht
    · exact nomatch ht
    · rw [g, last_cons (by simp), last_cons (by simp), last_cons (grade_ne _ _ _ _)] at h
      have hne := grade_ne none (i + 1) (now + c.data + c.run + c.check) cs
      obtain ⟨y, hy⟩ := List.exists_mem_of_ne_nil _ hne
      have hl := grade_times none cs _ _ y hy
      rcases grade_cases (some t) i now c cs with ⟨hg', _⟩ | ⟨_, t', ht, g1, g2, _⟩ | ⟨_, t', ht, g1, g2, _⟩ | ⟨_, _, g'⟩
      · rw [hg] at hg'; exact nomatch hg'
      · cases ht; omega
      · cases ht; omega
      · rw [g', g, ih _ _ h]

end Ab

/-- C118.  Whatever is being done, five seconds after the request the grading is over for the site: exactly one message has ended it, nothing follows, and
messages from the site are read again. -/
theorem C118_bounded (w : Work) (t : Nat) :
    (∃ s e, Ends (judge w t) s e) ∧ (∀ x ∈ judge w t, x.1 ≤ t + 5000) ∧ t ≤ free w t ∧ free w t ≤ t + 5000 := by
  refine ⟨?_, fun x hx => ?_, by unfold free; omega, by unfold free limit; omega⟩
  · by_cases h : last (worker w (some t)) ≤ t + limit
    · obtain ⟨s, e, hE, _⟩ := Ab.worker_ends w (some t)
      exact ⟨s, e, by rw [Ab.judge_whole w t h]; exact hE⟩
    · exact ⟨_, _, Ab.judge_cut w t (by omega)⟩
  · by_cases h : last (worker w (some t)) ≤ t + limit
    · rw [Ab.judge_whole w t h] at hx
      have := (Ab.worker_times w _ x hx).2
      exact Nat.le_trans this h
    · unfold judge at hx
      simp only at hx
      rw [if_neg h] at hx
      rcases List.mem_append.1 hx with hx | hx
      · exact of_decide_eq_true (List.mem_filter.1 hx).2
      · rw [List.mem_singleton.1 hx]
        exact Nat.le_refl _

/-- C118.  Messages from the site are read again only when all of the submission is over: nothing of it is said after that, and the worker has had the time
it needs to leave, or its five seconds. -/
theorem C118_order (w : Work) (t : Nat) : (∀ x ∈ judge w t, x.1 ≤ free w t) ∧
    (free w t < t + 5000 → judge w t = worker w (some t) ∧ ∀ x ∈ judge w t, x.1 + w.leave ≤ free w t) := by
  have hb := (C118_bounded w t).2.1
  by_cases h : last (worker w (some t)) ≤ t + limit
  · have hw := Ab.judge_whole w t h
    have ht : ∀ x ∈ judge w t, x.1 ≤ last (worker w (some t)) := by
      rw [hw]; exact fun x hx => (Ab.worker_times w _ x hx).2
    refine ⟨fun x hx => ?_, fun hf => ⟨hw, fun x hx => ?_⟩⟩
    · have := ht x hx
      have := hb x hx
      unfold free limit at *; omega
    · have := ht x hx
      unfold free limit at *; omega
  · refine ⟨fun x hx => ?_, fun hf => ?_⟩
    · have := hb x hx
      unfold free limit at *; omega
    · unfold free limit at *; omega

/-- C118.  After the request no result is reported any more, and at most one more program is started.  (The first case is never short-circuited.) -/
theorem C118_stops (w : Work) (t : Nat) (hw : ∀ c ∈ w.cases.head?, c.graded = true) :
    (∀ s i, (s, Ev.result i) ∈ judge w t → s < t) ∧ ((judge w t).filter fun x => decide (t < x.1) && starts x.2).length ≤ 1 := by
  constructor
  · intro s i hx
    rcases Ab.mem_judge hx with hx | hx
    · unfold worker at hx
      split at hx
      · simp at hx
      · cases hc : w.cases with
        | nil => rw [hc] at hx; simp [grade] at hx
        | cons c cs =>
          rw [hc] at hx hw
          have hg := hw c rfl
          rcases Ab.grade_cases (some t) 0 (w.make + w.ready) c cs with ⟨hg', _⟩ | ⟨_, t', ht, _, _, g⟩ | ⟨_, t', ht, _, _, g⟩ | ⟨_, hr, g⟩
          · rw [hg] at hg'; exact nomatch hg'
          · rw [g] at hx; simp at hx
          · rw [g] at hx; simp at hx
          · rw [g] at hx
            have hr := hr t rfl
            simp only [List.mem_cons, Prod.mk.injEq, reduceCtorEq, and_false, false_or, Ev.result.injEq] at hx
            rcases hx with ⟨rfl, _⟩ | hx
            · exact hr
            · exact Ab.later_results t cs _ _ hr s i hx
    · simp at hx
  · have hl : ((worker w (some t)).filter fun x => decide (t < x.1) && starts x.2).length ≤ 1 := by
      unfold worker
      split
      · simp [starts]
      · exact Ab.launches t _ _ _
    unfold judge
    simp only
    split
    · exact hl
    · rw [List.filter_append, List.length_append]
      have h0 : ([(t + limit, Ev.internal)].filter fun x => decide (t < x.1) && starts x.2) = [] := by simp [starts]
      rw [h0]
      exact Nat.le_trans (List.Sublist.length_le (List.filter_sublist.filter _)) hl

/-- C118.  A program that runs when the request comes is killed at that moment, and the site is told that the submission was aborted as soon as its
result has been looked at, if that takes no more than five seconds. -/
theorem C118_running (w : Work) (he : w.error = false) (i t : Nat) (hr : Running w i t) : ∃ c, w.cases[i]? = some c ∧
    (c.after ≤ 5000 → (t, Ev.killed i) ∈ judge w t ∧ Ends (judge w t) (t + c.after) .aborted) := by
  obtain ⟨l, e, h1, h2, h3, h4⟩ := hr
  unfold worker at h1 h2
  rw [he] at h1 h2
  obtain ⟨c, hc, hk, hE⟩ := Ab.running t w.cases 0 _ l e i h1 h2 h3 h4
  refine ⟨c, hc, fun ha => ?_⟩
  have hw : worker w (some t) = grade (some t) 0 (w.make + w.ready) w.cases := by unfold worker; rw [he]; rfl
  have hl : last (worker w (some t)) ≤ t + limit := by
    rw [hw, Ab.ends_last hE]
    unfold limit
    omega
  rw [Ab.judge_whole w t hl, hw]
  exact ⟨hk, hE⟩

/-- C118.  If the result of a case that is graded would come within five seconds after the request, the site is told that the submission was aborted.
What is missing: if it takes longer, it is told of an internal error. -/
theorem C118_told_partial (w : Work) (he : w.error = false) (t r j : Nat) (c : Case) (hr : (r, Ev.result j) ∈ worker w none)
    (hc : w.cases[j]? = some c) (hg : c.graded = true) (ht : t ≤ r) (hl : r ≤ t + 5000) (ha : ∀ c ∈ w.cases, c.after ≤ 5000) :
    ∃ s, Ends (judge w t) s .aborted := by
  have hn : worker w none = grade none 0 (w.make + w.ready) w.cases := by unfold worker; rw [he]; rfl
  have hw : worker w (some t) = grade (some t) 0 (w.make + w.ready) w.cases := by unfold worker; rw [he]; rfl
  rw [hn] at hr
  obtain ⟨s, hE, hs⟩ := Ab.next_result t w.cases 0 _ r j c hr hc hg ht
  have hle : last (worker w (some t)) ≤ t + limit := by
    rw [hw, Ab.ends_last hE]
    unfold limit
    rcases hs with h | ⟨c, hc, h⟩
    · omega
    · have := ha c hc
      omega
  exact ⟨s, by rw [Ab.judge_whole w t hle, hw]; exact hE⟩

/-- C118.  A request that comes while something is compiled that needs more than five seconds more ends in an internal error: nothing is interrupted. -/
theorem C118_compiling_fails (w : Work) (t : Nat) (h : t + 5000 < w.make) : judge w t = [(t + 5000, .internal)] := by
  have hb := fun x hx => (Ab.worker_times w (some t) x hx).1
  obtain ⟨s, e, hE, _⟩ := Ab.worker_ends w (some t)
  have hl : t + limit < last (worker w (some t)) := by
    rw [Ab.ends_last hE]
    obtain ⟨_, l', he, _⟩ := hE
    have := hb (s, e) (by rw [he]; simp)
    unfold limit
    omega
  unfold judge
  simp only
  rw [if_neg (by omega)]
  have : (worker w (some t)).filter (fun e => e.1 ≤ t + limit) = [] := by
    rw [List.filter_eq_nil_iff]
    intro x hx
    have := hb x hx
    have hn : ¬x.1 ≤ t + limit := by unfold limit; omega
    rw [decide_eq_true_eq]
    exact hn
  rw [this]
  rfl

/-- C118.  A request that comes before the program of a case has been started (here, of the first) does not keep it from being started, nor kill it: if it
does not end by itself in time, an internal error is what the site is told. -/
theorem C118_early_fails (w : Work) (he : w.error = false) (c : Case) (cs : List Case) (hc : w.cases = c :: cs) (hg : c.graded = true) (t : Nat)
    (h1 : t < w.make + w.ready + c.data) (h2 : w.make + w.ready + c.data ≤ t + 5000) (h3 : t + 5000 < w.make + w.ready + c.data + c.run) :
    judge w t = [(w.make + w.ready + c.data, .launch 0), (t + 5000, .internal)] := by
  have hw : worker w (some t) = grade (some t) 0 (w.make + w.ready) (c :: cs) := by unfold worker; rw [he, hc]; rfl
  rcases Ab.grade_cases (some t) 0 (w.make + w.ready) c cs with ⟨hg', _⟩ | ⟨_, t', ht, g1, g2, g⟩ | ⟨_, t', ht, g1, g2, g⟩ | ⟨_, hr, g⟩
  · rw [hg] at hg'; exact nomatch hg'
  · cases ht; omega
  · cases ht
    unfold judge
    simp only
    rw [hw, g]
    have hl : last [(w.make + w.ready + c.data, Ev.launch 0), (w.make + w.ready + c.data + c.run, .exited 0),
        (w.make + w.ready + c.data + c.run + c.check, .aborted)] = w.make + w.ready + c.data + c.run + c.check := rfl
    rw [hl, if_neg (by unfold limit; omega)]
    have e1 : w.make + w.ready + c.data ≤ t + limit := h2
    have e2 : ¬w.make + w.ready + c.data + c.run ≤ t + limit := by unfold limit; omega
    have e3 : ¬w.make + w.ready + c.data + c.run + c.check ≤ t + limit := by unfold limit; omega
    rw [List.filter_cons_of_pos (by simpa using e1), List.filter_cons_of_neg (by simpa using e2), List.filter_cons_of_neg (by simpa using e3)]
    rfl
  · have := hr t rfl; omega

/-- C118.  A request that comes after the end of a grading changes nothing. -/
theorem C118_over (w : Work) (t : Nat) (h : last (worker w none) < t) : judge w t = worker w none := by
  have hw : worker w (some t) = worker w none := by
    unfold worker at h ⊢
    split at h
    · next he => rw [if_pos he, if_pos he]
    · next he => rw [if_neg he, if_neg he]; exact Ab.unaffected t _ _ _ h
  rw [Ab.judge_whole w t (by rw [hw]; omega), hw]

namespace Ab

/-- A submission of two cases, its programs running for ten seconds each. -/
def someWork : Work := ⟨3000, false, 10, [⟨true, 20, 10000, 500, 5⟩, ⟨true, 20, 10000, 500, 5⟩, ⟨false, 0, 0, 0, 0⟩], 30⟩

end Ab

/-- Left alone. -/
example : worker Ab.someWork none = [(3030, .launch 0), (13030, .exited 0), (13530, .result 0), (13550, .launch 1), (23550, .exited 1),
    (24050, .result 1), (24050, .result 2), (24050, .done)] := by decide

/-- Aborted while the second program runs; the hypotheses of `C118_running` are met. -/
example : judge Ab.someWork 14000 = [(3030, .launch 0), (13030, .exited 0), (13530, .result 0), (13550, .launch 1), (14000, .killed 1),
    (14005, .aborted)] ∧ free Ab.someWork 14000 = 14035 := by decide

/-- The second part of `C118_order` is met. -/
example : free Ab.someWork 14000 < 14000 + 5000 := by decide
example : Running Ab.someWork 1 14000 := ⟨13550, 23550, by decide, by decide, by decide, by decide⟩

/-- Aborted while the checker looks at the first output, and the hypotheses of `C118_told_partial`. -/
example : judge Ab.someWork 13100 = [(3030, .launch 0), (13030, .exited 0), (13530, .aborted)] ∧
    (13530, Ev.result 0) ∈ worker Ab.someWork none ∧ ∀ c ∈ Ab.someWork.cases, c.after ≤ 5000 := by decide

/-- Aborted just before the second program is started: it is started, and killed along with the worker. -/
example : judge Ab.someWork 13540 = [(3030, .launch 0), (13030, .exited 0), (13530, .result 0), (13550, .launch 1), (18540, .internal)] := by decide

/-- Aborted just before the first is, as in `C118_early_fails`. -/
example : judge Ab.someWork 3000 = [(3030, .launch 0), (8000, .internal)] := by decide

/-- Aborted while a compiler runs, as in `C118_compiling_fails`; and a second too late. -/
example : judge { Ab.someWork with make := 9000 } 1000 = [(6000, .internal)] ∧ judge Ab.someWork 25050 = worker Ab.someWork none := by decide

end Verif.Props
