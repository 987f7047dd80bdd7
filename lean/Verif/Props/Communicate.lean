import Verif.Spec.Communicate
import Mathlib.Tactic.Common
import Mathlib.Tactic.SplitIfs

/-!
# C43 Bounded communication
-/

namespace Verif.Communicate
open Verif.Communicate.Spec

private theorem taken_append (c : Chan) (l m : List Ready) : taken c (l ++ m) = taken c l ++ taken c m := by
  induction l with
  | nil => rfl
  | cons r l ih => cases r <;> simp [taken, ih]

/-- What holds of the local variables, apart from the limits. -/
private structure Core (a : Args) (s : State) : Prop where
  got : ∀ c, (s.got c).flatten = taken c s.log
  len : ∀ c, s.length c = (taken c s.log).length
  sent : s.sent = a.input.take s.offset
  off : s.offset ≤ a.input.length
  more : s.isOpen .stdin = true → s.offset < a.input.length
  has : ∀ c, s.isOpen (.chan c) = true → a.has c = true
  ended : ∀ c, a.has c = true → s.isOpen (.chan c) = false → Ended c s.log
  refused : a.hasIn = true → s.isOpen .stdin = false → s.offset = a.input.length ∨ Refused s.log

private structure Inv (a : Args) (s : State) : Prop extends Core a s where
  limit : ∀ c, s.length c ≤ a.limit c
  unmarked : s.marked = false

private def Good (a : Args) : Res → Prop
  | .more s => Inv a s
  | .ret o e s => Inv a s ∧ o = taken .out s.log ∧ e = taken .err s.log ∧ ∀ f, s.isOpen f = false
  | .ole c l s => Core a s ∧ s.marked = true ∧ a.has c = true ∧ l = a.limit c ∧ a.limit c < (taken c s.log).length ∧
      (taken c s.log).length ≤ a.limit c + 4096 ∧ ∀ x, x ≠ c → (taken x s.log).length ≤ a.limit x
  | .valueError s => Core a s ∧ s.marked = true ∧ a.has .out = true ∧ s.isOpen (.chan .out) = false ∧
      a.limit .err < (taken .err s.log).length ∧ (taken .err s.log).length ≤ a.limit .err + 4096 ∧
      (taken .out s.log).length ≤ a.limit .out
  | .osError s | .keyError s => Core a s ∧ ∀ c, (taken c s.log).length ≤ a.limit c

private theorem core_log {a : Args} {s : State} (h : Core a s) (r : Ready) (hr : ∀ c, taken c [r] = []) :
    Core a { s with log := s.log ++ [r] } := by
  have e : ∀ c, taken c (s.log ++ [r]) = taken c s.log := fun c => by rw [taken_append, hr, List.append_nil]
  refine ⟨fun c => ?_, fun c => ?_, h.sent, h.off, h.more, h.has, fun c h1 h2 => ?_, fun h1 h2 => ?_⟩
  · show _ = taken c (s.log ++ [r]); rw [e]; exact h.got c
  · show _ = (taken c (s.log ++ [r])).length; rw [e]; exact h.len c
  · rcases h.ended c h1 h2 with h | h
    · exact Or.inl (List.mem_append_left _ h)
    · exact Or.inr (List.mem_append_left _ h)
  · rcases h.refused h1 h2 with h | h | h
    · exact Or.inl h
    · exact Or.inr (Or.inl (List.mem_append_left _ h))
    · exact Or.inr (Or.inr (List.mem_append_left _ h))

private theorem core_close {a : Args} {s : State} (h : Core a s) (f : Fd)
    (hf : match f with
      | .stdin => s.offset = a.input.length ∨ Refused s.log
      | .chan c => Ended c s.log) : Core a (s.close f) := by
  refine ⟨h.got, h.len, h.sent, h.off, fun h1 => h.more ?_, fun c h1 => h.has c ?_, fun c h1 h2 => ?_, fun h1 h2 => ?_⟩
  · simp only [State.close] at h1; split_ifs at h1; exact h1
  · simp only [State.close] at h1; split_ifs at h1; exact h1
  · simp only [State.close] at h2
    split_ifs at h2 with h3
    · subst h3; exact hf
    · exact h.ended c h1 h2
  · simp only [State.close] at h2
    split_ifs at h2 with h3
    · subst h3; exact hf
    · exact h.refused h1 h2

private theorem take_take_drop (l : List UInt8) (k p n : Nat) :
    l.take k ++ ((l.drop k).take p).take (min n ((l.drop k).take p).length) =
      l.take (k + min n ((l.drop k).take p).length) := by
  rw [List.take_take, List.take_add]
  congr 1
  congr 1
  simp only [List.length_take, List.length_drop]
  omega

private theorem step_good (a : Args) (s : State) (r : Ready) (h : Inv a s) : Good a (step a s r) := by
  have len : ∀ c, (taken c s.log).length ≤ a.limit c := fun c => by rw [← h.len]; exact h.limit c
  have quiet : (∀ c, taken c [r] = []) → Core a { s with log := s.log ++ [r] } ∧
      ∀ c, (taken c (s.log ++ [r])).length ≤ a.limit c := fun hr =>
    ⟨core_log h.toCore r hr, fun c => by rw [taken_append, hr, List.append_nil]; exact len c⟩
  show Good a (if s.isOpen r.fd = false then _ else _)
  by_cases ho : s.isOpen r.fd = false
  · rw [if_pos ho]; exact ⟨h.toCore, len⟩
  rw [if_neg ho]
  simp only [Bool.not_eq_false] at ho
  cases r with
  | room n =>
    obtain ⟨hc, hl⟩ := quiet fun _ => rfl
    set k := min n ((a.input.drop s.offset).take pipeBuf).length with hk
    have hk' : s.offset + k ≤ a.input.length := by
      have := h.off
      simp only [List.length_take, List.length_drop] at hk
      omega
    have hs : s.sent ++ ((a.input.drop s.offset).take pipeBuf).take k = a.input.take (s.offset + k) := by
      rw [h.sent, hk]; exact take_take_drop _ _ _ _
    show Inv a (if s.offset + k ≥ a.input.length then _ else _)
    by_cases hd : s.offset + k ≥ a.input.length
    · rw [if_pos hd]
      refine ⟨⟨hc.got, hc.len, hs, hk', fun h1 => ?_, fun c h1 => h.has c ?_, fun c h1 h2 => hc.ended c h1 ?_,
        fun _ _ => Or.inl (Nat.le_antisymm hk' hd)⟩, h.limit, h.unmarked⟩
      · simp [State.close] at h1
      · simpa [State.close] using h1
      · simpa [State.close] using h2
    · rw [if_neg hd]
      refine ⟨⟨hc.got, hc.len, hs, hk', fun _ => Nat.not_le.1 hd, hc.has, hc.ended, fun _ h2 => ?_⟩, h.limit, h.unmarked⟩
      exact absurd (ho.symm.trans h2) (by simp)
  | epipe =>
    obtain ⟨hc, hl⟩ := quiet fun _ => rfl
    exact ⟨core_close hc .stdin (Or.inr (Or.inl (by simp))), h.limit, h.unmarked⟩
  | writeError => exact quiet fun _ => rfl
  | readError c => exact quiet fun _ => rfl
  | hang f =>
    obtain ⟨hc, hl⟩ := quiet fun _ => rfl
    refine ⟨core_close hc f ?_, h.limit, h.unmarked⟩
    cases f with
    | stdin => exact Or.inr (Or.inr (by simp))
    | chan c => exact Or.inr (by simp)
  | avail c d =>
    have tk : ∀ x, taken x (s.log ++ [.avail c d]) = taken x s.log ++ if x = c then d.take 4096 else [] := by
      intro x
      rw [taken_append]
      by_cases hx : c = x
      · simp [taken, hx]
      · simp [taken, hx, Ne.symm hx]
    -- the state after the read, up to the mark
    set s1 : State := { s with log := s.log ++ [.avail c d] } with hs1
    set s2 : State := if d.take 4096 = [] then s1.close (.chan c) else s1 with hs2
    have e2 : s2.got = s.got ∧ s2.length = s.length ∧ s2.log = s.log ++ [.avail c d] ∧ s2.marked = s.marked ∧
        s2.sent = s.sent ∧ s2.offset = s.offset ∧ s2.isOpen .stdin = s.isOpen .stdin ∧
        (∀ x, x ≠ c → s2.isOpen (.chan x) = s.isOpen (.chan x)) ∧
        (s2.isOpen (.chan c) = false → d = []) := by
      rw [hs2]
      split_ifs with h1
      · have : d = [] := by
          cases d with
          | nil => rfl
          | cons => simp at h1
        simp_all [State.close]
      · refine ⟨rfl, rfl, rfl, rfl, rfl, rfl, rfl, fun _ _ => rfl, fun h2 => ?_⟩
        exact absurd (ho.symm.trans h2) (by simp)
    obtain ⟨g1, g2, g3, g4, g5, g6, g7, g8, g9⟩ := e2
    set s3 : State := { s2 with
        got := fun x => if x = c then s2.got x ++ [d.take 4096] else s2.got x
        length := fun x => if x = c then s2.length x + (d.take 4096).length else s2.length x } with hs3
    have l3 : ∀ x, s3.length x = (taken x s3.log).length := by
      intro x
      show (if x = c then s2.length x + (d.take 4096).length else s2.length x) = (taken x s2.log).length
      rw [g2, g3, tk, h.len]
      by_cases hx : x = c <;> simp [hx]
    have c3 : Core a s3 := by
      refine ⟨fun x => ?_, l3, ?_, ?_, ?_, fun x hx => ?_, fun x hx hx2 => ?_, fun h1 h2 => ?_⟩
      · show (if x = c then s2.got x ++ [d.take 4096] else s2.got x).flatten = taken x s2.log
        rw [g1, g3, tk, ← h.got]
        by_cases hx : x = c <;> simp [hx]
      · show s2.sent = a.input.take s2.offset
        rw [g5, g6]; exact h.sent
      · show s2.offset ≤ _
        rw [g6]; exact h.off
      · show s2.isOpen .stdin = true → s2.offset < _
        rw [g6, g7]; exact h.more
      · by_cases hc : x = c
        · subst hc; exact h.has x ho
        · exact h.has x ((g8 x hc).symm.trans hx)
      · show Ended x s2.log
        rw [g3]
        by_cases hc : x = c
        · subst hc; rw [g9 hx2]; exact Or.inl (by simp)
        · rcases h.ended x hx ((g8 x hc).symm.trans hx2) with h | h
          · exact Or.inl (List.mem_append_left _ h)
          · exact Or.inr (List.mem_append_left _ h)
      · show s2.offset = _ ∨ Refused s2.log
        rw [g3, g6]
        rcases h.refused h1 (g7.symm.trans h2) with h | h | h
        · exact Or.inl h
        · exact Or.inr (Or.inl (List.mem_append_left _ h))
        · exact Or.inr (Or.inr (List.mem_append_left _ h))
    have other : ∀ x, x ≠ c → s3.length x ≤ a.limit x := by
      intro x hx
      show (if x = c then s2.length x + (d.take 4096).length else s2.length x) ≤ _
      rw [if_neg hx, g2]; exact h.limit x
    have own : s3.length c ≤ a.limit c + 4096 := by
      show (if c = c then s2.length c + (d.take 4096).length else s2.length c) ≤ _
      rw [if_pos rfl, g2, List.length_take]
      have := h.limit c
      omega
    show Good a (if s3.length c > a.limit c then _ else _)
    by_cases hl : s3.length c > a.limit c
    · rw [if_pos hl]
      have cm : Core a { s3 with marked := true } :=
        ⟨c3.got, c3.len, c3.sent, c3.off, c3.more, c3.has, c3.ended, c3.refused⟩
      have hne : d ≠ [] := by
        rintro rfl
        have : s3.length c = s.length c := by
          show (if c = c then s2.length c + (([] : List UInt8).take 4096).length else s2.length c) = _
          rw [if_pos rfl, g2]; simp
        have := h.limit c
        omega
      have hco : s3.isOpen (.chan c) = true := by
        by_contra hno
        exact hne (g9 (by simpa using hno))
      show Good a (if a.has .out = true then _ else _)
      by_cases h1 : a.has .out = true
      · rw [if_pos h1]
        show Good a (if s3.isOpen (.chan .out) = false then _ else _)
        by_cases h2 : s3.isOpen (.chan .out) = false
        · rw [if_pos h2]
          cases c with
          | out => exact absurd (hco.symm.trans h2) (by simp)
          | err => exact ⟨cm, rfl, h1, h2, (l3 .err) ▸ hl, (l3 .err) ▸ own, (l3 .out) ▸ other .out (by simp)⟩
        · rw [if_neg h2]
          exact ⟨cm, rfl, h.has c ho, rfl, (l3 c) ▸ hl, (l3 c) ▸ own, fun x hx => (l3 x) ▸ other x hx⟩
      · rw [if_neg h1]
        cases c with
        | out => exact absurd (h.has .out ho) h1
        | err => exact ⟨cm, rfl, h.has .err ho, rfl, (l3 .err) ▸ hl, (l3 .err) ▸ own, fun x hx => (l3 x) ▸ other x hx⟩
    · rw [if_neg hl]
      refine ⟨c3, fun x => ?_, g4.trans h.unmarked⟩
      by_cases hx : x = c
      · subst hx; exact Nat.le_of_not_lt hl
      · exact other x hx

private theorem serve_good (a : Args) : ∀ (rs : List Ready) (s : State), Inv a s → Good a (serve a s rs) := by
  intro rs
  induction rs with
  | nil => intro s h; exact h
  | cons r rs ih =>
    intro s h
    have h' := step_good a s r h
    unfold serve
    cases hr : step a s r with
    | more s' => rw [hr] at h'; exact ih s' h'
    | _ => rw [hr] at h'; exact h'

private theorem loop_good (a : Args) : ∀ (ps : List (Option (List Ready))) (s : State), Inv a s → Good a (loop a s ps) := by
  intro ps
  induction ps with
  | nil =>
    intro s h
    unfold loop
    split_ifs with ho
    · exact h
    · simp only [Bool.or_eq_true, not_or, Bool.not_eq_true] at ho
      refine ⟨h, h.got _, h.got _, fun f => ?_⟩
      cases f with
      | stdin => exact ho.1.1
      | chan c => cases c; exacts [ho.1.2, ho.2]
  | cons p ps ih =>
    intro s h
    unfold loop
    split_ifs with ho
    · cases p with
      | none => exact ih s h
      | some rs =>
        have h' := serve_good a rs s h
        show Good a (match serve a s rs with | .more s' => loop a s' ps | res => res)
        cases hr : serve a s rs with
        | more s' => rw [hr] at h'; exact ih s' h'
        | _ => rw [hr] at h'; exact h'
    · simp only [Bool.or_eq_true, not_or, Bool.not_eq_true] at ho
      refine ⟨h, h.got _, h.got _, fun f => ?_⟩
      cases f with
      | stdin => exact ho.1.1
      | chan c => cases c; exacts [ho.1.2, ho.2]

private theorem init_inv (a : Args) : Inv a (init a) := by
  refine ⟨⟨fun _ => rfl, fun _ => rfl, rfl, Nat.zero_le _, fun h => ?_, fun _ h => h, fun c h1 h2 => ?_, fun h1 h2 => ?_⟩,
    fun _ => Nat.zero_le _, rfl⟩
  · simp only [init, Bool.and_eq_true, Bool.not_eq_true', List.isEmpty_eq_false_iff] at h
    exact List.length_pos_iff.2 h.2
  · exact absurd (h1.symm.trans h2) (by simp)
  · left
    simp only [init, h1, Bool.true_and, Bool.not_eq_false', List.isEmpty_iff] at h2
    rw [h2]; rfl

private theorem good (a : Args) (polls) : Good a (communicate a polls) := loop_good a polls _ (init_inv a)

private theorem core (a : Args) (polls) : Core a (communicate a polls).state := by
  have := good a polls
  cases h : communicate a polls <;> rw [h] at this
  · exact this.toCore
  · exact this.1.toCore
  all_goals exact this.1

private theorem check_cases (a : Args) (s : State) (c : Chan) :
    (s.length c > a.limit c ∧ (check a s c = .valueError { s with marked := true } ∨
      check a s c = .ole (if a.has .out then c else .err) (a.limit c) { s with marked := true })) ∨
      (s.length c ≤ a.limit c ∧ check a s c = .more s) := by
  unfold check
  by_cases h : s.length c > a.limit c
  · rw [if_pos h]
    by_cases h1 : a.has .out = true
    · rw [if_pos h1, if_pos h1]
      by_cases h2 : s.isOpen (.chan .out) = false
      · exact Or.inl ⟨h, Or.inl (if_pos h2)⟩
      · exact Or.inl ⟨h, Or.inr (if_neg h2)⟩
    · rw [if_neg h1, if_neg h1]; exact Or.inl ⟨h, Or.inr rfl⟩
  · exact Or.inr ⟨Nat.le_of_not_lt h, if_neg h⟩

private theorem step_log (a : Args) (s : State) (r : Ready) :
    (step a s r).state.log = s.log ++ [r] ∨ step a s r = .keyError s := by
  unfold step
  by_cases h : s.isOpen r.fd = false
  · rw [if_pos h]; exact Or.inr rfl
  · rw [if_neg h]
    left
    cases r with
    | room n => simp only [Res.state]; split_ifs <;> rfl
    | avail c d =>
      have hr : (State.receive { s with log := s.log ++ [.avail c d] } c (d.take 4096)).log = s.log ++ [.avail c d] := by
        unfold State.receive; split_ifs <;> rfl
      show (check _ _ _).state.log = _
      rcases check_cases a (({ s with log := s.log ++ [.avail c d] } : State).receive c (d.take 4096)) c with
        ⟨_, h1 | h1⟩ | ⟨_, h1⟩ <;> rw [h1] <;> exact hr
    | _ => rfl

private theorem serve_log (a : Args) : ∀ (rs : List Ready) (s : State),
    (∃ m, (serve a s rs).state.log = s.log ++ m ∧ m <+: rs) ∧ (∀ s', serve a s rs = .more s' → s'.log = s.log ++ rs) := by
  intro rs
  induction rs with
  | nil =>
    intro s
    refine ⟨⟨[], by simp [serve, Res.state], List.prefix_refl _⟩, ?_⟩
    rintro s' h
    simp only [serve, Res.more.injEq] at h
    rw [← h, List.append_nil]
  | cons r rs ih =>
    intro s
    have hl := step_log a s r
    unfold serve
    cases hr : step a s r with
    | more s' =>
      rw [hr] at hl
      have hl : s'.log = s.log ++ [r] := by
        rcases hl with h | h
        · exact h
        · exact nomatch h
      obtain ⟨⟨m, h1, h2⟩, h3⟩ := ih s'
      refine ⟨⟨r :: m, ?_, by simpa using h2⟩, fun s'' h => ?_⟩
      · rw [h1, hl]; simp
      · rw [h3 s'' h, hl]; simp
    | keyError s' =>
      refine ⟨?_, fun _ h => nomatch h⟩
      rw [hr] at hl
      rcases hl with h | h
      · exact ⟨[r], h, by simp⟩
      · cases h; exact ⟨[], by simp [Res.state], by simp⟩
    | ret | ole | valueError | osError =>
      refine ⟨?_, fun _ h => nomatch h⟩
      rw [hr] at hl
      rcases hl with h | h
      · exact ⟨[r], h, by simp⟩
      · exact nomatch h

private theorem loop_log (a : Args) : ∀ (ps : List (Option (List Ready))) (s : State),
    ∃ m, (loop a s ps).state.log = s.log ++ m ∧ m <+: entries ps := by
  intro ps
  induction ps with
  | nil =>
    intro s
    refine ⟨[], ?_, by simp⟩
    unfold loop
    split_ifs <;> simp [Res.state]
  | cons p ps ih =>
    intro s
    unfold loop
    split_ifs with ho
    · cases p with
      | none => exact ih s
      | some rs =>
        obtain ⟨⟨m, h1, h2⟩, h3⟩ := serve_log a rs s
        have he : entries (some rs :: ps) = rs ++ entries ps := rfl
        show ∃ m, (match serve a s rs with | .more s' => loop a s' ps | res => res).state.log = _ ∧ _
        rw [he]
        cases hr : serve a s rs with
        | more s' =>
          obtain ⟨m', h4, h5⟩ := ih s'
          refine ⟨rs ++ m', ?_, (List.prefix_append_right_inj rs).2 h5⟩
          show (loop a s' ps).state.log = _
          rw [h4, h3 s' hr, List.append_assoc]
        | _ =>
          rw [hr] at h1
          exact ⟨m, h1, h2.trans (List.prefix_append _ _)⟩
    · exact ⟨[], by simp [Res.state], by simp⟩

/-- Only what `poll` reported is acted upon, in that order. -/
theorem C43_order (a : Args) (polls) : (communicate a polls).state.log <+: entries polls := by
  obtain ⟨m, h1, h2⟩ := loop_log a polls (init a)
  show (loop a (init a) polls).state.log <+: _
  rw [h1]
  exact h2

/-- Whatever happens, the bytes the process has been sent are a beginning of the input. -/
theorem C43_sent (a : Args) (polls) : (communicate a polls).state.sent <+: a.input := by
  rw [(core a polls).sent]
  exact List.take_prefix _ _

/-- When `stdin` is closed the process has been sent the whole input or has refused to take more; as long
as it is open there is something left to send. -/
theorem C43_sent_all (a : Args) (polls) (hi : a.hasIn = true) :
    (communicate a polls).state.isOpen .stdin = true ∧ (communicate a polls).state.sent ≠ a.input ∨
      (communicate a polls).state.isOpen .stdin = false ∧
        ((communicate a polls).state.sent = a.input ∨ Refused (communicate a polls).state.log) := by
  have h := core a polls
  cases ho : (communicate a polls).state.isOpen .stdin with
  | true =>
    refine Or.inl ⟨rfl, fun he => ?_⟩
    have h1 := h.more ho
    have h2 := congrArg List.length (h.sent.symm.trans he)
    rw [List.length_take] at h2
    omega
  | false =>
    refine Or.inr ⟨rfl, ?_⟩
    rcases h.refused hi ho with h1 | h1
    · left; rw [h.sent, h1, List.take_length]
    · exact Or.inr h1

/-- If the call returns, what it returns is exactly the bytes read from the two streams, in order, within
the limits; every stream is closed, and was read until its end; the process is not marked. -/
theorem C43_returned (a : Args) (polls) (o e : List UInt8) (s : State) (h : communicate a polls = .ret o e s) :
    o = taken .out s.log ∧ e = taken .err s.log ∧ o.length ≤ a.limit .out ∧ e.length ≤ a.limit .err ∧
      (∀ f, s.isOpen f = false) ∧ (∀ c, a.has c = true → Ended c s.log) ∧ s.marked = false := by
  have hg := good a polls
  rw [h] at hg
  obtain ⟨hi, rfl, rfl, hc⟩ := hg
  exact ⟨rfl, rfl, hi.len .out ▸ hi.limit .out, hi.len .err ▸ hi.limit .err, hc, fun c h => hi.ended c h (hc _), hi.unmarked⟩

/-- At no time is more than a limit and one chunk of 4096 bytes held of a stream. -/
theorem C43_buffered (a : Args) (polls) (c : Chan) :
    ((communicate a polls).state.got c).flatten = taken c (communicate a polls).state.log ∧
      (taken c (communicate a polls).state.log).length ≤ a.limit c + 4096 := by
  refine ⟨(core a polls).got c, ?_⟩
  have hg := good a polls
  cases h : communicate a polls with
  | more s => rw [h] at hg; have := hg.len c ▸ hg.limit c; exact Nat.le_add_right_of_le this
  | ret o e s => rw [h] at hg; have := hg.1.len c ▸ hg.1.limit c; exact Nat.le_add_right_of_le this
  | ole c' l s =>
    rw [h] at hg
    by_cases hc : c = c'
    · rw [hc]; exact hg.2.2.2.2.2.1
    · exact Nat.le_add_right_of_le (hg.2.2.2.2.2.2 c hc)
  | valueError s =>
    rw [h] at hg
    cases c
    · exact Nat.le_add_right_of_le hg.2.2.2.2.2.2
    · exact hg.2.2.2.2.2.1
  | osError s => rw [h] at hg; exact Nat.le_add_right_of_le (hg.2 c)
  | keyError s => rw [h] at hg; exact Nat.le_add_right_of_le (hg.2 c)

/-- The output-limit error is raised only for a stream of which more than its limit was read, it names the
stream and its limit, and the process is marked. -/
theorem C43_raised (a : Args) (polls) (c : Chan) (l : Nat) (s : State) (h : communicate a polls = .ole c l s) :
    l = a.limit c ∧ l < (taken c s.log).length ∧ s.marked = true ∧ ∀ x, x ≠ c → (taken x s.log).length ≤ a.limit x := by
  have hg := good a polls
  rw [h] at hg
  obtain ⟨_, h1, _, h2, h3, _, h4⟩ := hg
  exact ⟨h2, h2 ▸ h3, h1, h4⟩

/-- As soon as more than the limit was read from standard output the call ends with the output-limit
error. -/
theorem C43_stdout (a : Args) (polls) (h : a.limit .out < (taken .out (communicate a polls).state.log).length) :
    ∃ s, communicate a polls = .ole .out (a.limit .out) s := by
  have hg := good a polls
  cases hr : communicate a polls with
  | more s => rw [hr] at hg h; exact absurd (hg.len .out ▸ hg.limit .out) (Nat.not_le.2 h)
  | ret o e s => rw [hr] at hg h; exact absurd (hg.1.len .out ▸ hg.1.limit .out) (Nat.not_le.2 h)
  | ole c l s =>
    rw [hr] at hg h
    cases c with
    | out => exact ⟨s, by rw [hg.2.2.2.1]⟩
    | err => exact absurd (hg.2.2.2.2.2.2 .out (by simp)) (Nat.not_le.2 h)
  | valueError s => rw [hr] at hg h; exact absurd hg.2.2.2.2.2.2 (Nat.not_le.2 h)
  | osError s => rw [hr] at hg h; exact absurd (hg.2 .out) (Nat.not_le.2 h)
  | keyError s => rw [hr] at hg h; exact absurd (hg.2 .out) (Nat.not_le.2 h)

/-- As soon as more than the limit was read from standard error the process is marked and the call ends,
with the output-limit error if standard output is not there or still open. What is missing: if standard
output has been closed before, the call ends with a `ValueError` instead. -/
theorem C43_stderr_partial (a : Args) (polls) (h : a.limit .err < (taken .err (communicate a polls).state.log).length) :
    (communicate a polls).state.marked = true ∧
      ((∃ s, communicate a polls = .ole .err (a.limit .err) s) ∨
        a.has .out = true ∧ Ended .out (communicate a polls).state.log ∧ ∃ s, communicate a polls = .valueError s) := by
  have hg := good a polls
  cases hr : communicate a polls with
  | more s => rw [hr] at hg h; exact absurd (hg.len .err ▸ hg.limit .err) (Nat.not_le.2 h)
  | ret o e s => rw [hr] at hg h; exact absurd (hg.1.len .err ▸ hg.1.limit .err) (Nat.not_le.2 h)
  | ole c l s =>
    rw [hr] at hg h
    cases c with
    | err => exact ⟨hg.2.1, Or.inl ⟨s, by rw [hg.2.2.2.1]⟩⟩
    | out => exact absurd (hg.2.2.2.2.2.2 .err (by simp)) (Nat.not_le.2 h)
  | valueError s =>
    rw [hr] at hg h
    exact ⟨hg.2.1, Or.inr ⟨hg.2.2.1, hg.1.ended .out hg.2.2.1 hg.2.2.2.1, s, rfl⟩⟩
  | osError s => rw [hr] at hg h; exact absurd (hg.2 .err) (Nat.not_le.2 h)
  | keyError s => rw [hr] at hg h; exact absurd (hg.2 .err) (Nat.not_le.2 h)

/-- A process which closes its standard output and then writes more than the limit to its standard error
makes the call end with a `ValueError`, not with the output-limit error. -/
theorem C43_stderr_fails : ∃ (a : Args) (polls : _) (s : State), Honest a (init a) polls ∧
    a.limit .err < (taken .err (communicate a polls).state.log).length ∧ communicate a polls = .valueError s := by
  refine ⟨{ outlimit := some 1 }, [some [.avail .out []], some [.avail .err [1, 2]]], _, ?_, ?_, rfl⟩
  · refine ⟨⟨by simp, by simp [Ready.fd, init]⟩, fun s h => ?_⟩
    cases h
    exact ⟨⟨by simp, by simp [Ready.fd, init, State.close, State.receive]⟩, fun s h => nomatch h⟩
  · decide

/-- With a well-behaved `poll` no unregistered stream is touched. -/
theorem C43_registered (a : Args) (polls) (hp : Honest a (init a) polls) (s : State) :
    communicate a polls ≠ .keyError s := by
  have step_ne : ∀ s r, s.isOpen r.fd = true → ∀ s', step a s r ≠ .keyError s' := by
    intro s r ho s' h
    unfold step at h
    rw [if_neg (by simp [ho])] at h
    cases r with
    | avail c d =>
      change check _ _ _ = _ at h
      rcases check_cases a (({ s with log := s.log ++ [.avail c d] } : State).receive c (d.take 4096)) c with
        ⟨_, h1 | h1⟩ | ⟨_, h1⟩ <;> rw [h1] at h <;> exact nomatch h
    | _ => exact nomatch h
  have step_open : ∀ s r s', step a s r = .more s' → ∀ f, f ≠ r.fd → s'.isOpen f = s.isOpen f := by
    intro s r s' h f hf
    have cl : ∀ t : State, (t.close r.fd).isOpen f = t.isOpen f := fun t => if_neg hf
    unfold step at h
    by_cases ho : s.isOpen r.fd = false
    · rw [if_pos ho] at h; exact nomatch h
    rw [if_neg ho] at h
    cases r with
    | room n =>
      simp only [Res.more.injEq] at h
      rw [← h, apply_ite (fun t : State => t.isOpen f)]
      exact (ite_congr rfl (fun _ => cl _) (fun _ => rfl)).trans (ite_self _)
    | epipe => cases h; exact cl _
    | hang g => cases h; exact cl _
    | avail c d =>
      rcases check_cases a (({ s with log := s.log ++ [.avail c d] } : State).receive c (d.take 4096)) c with ⟨_, h1⟩ | ⟨_, h1⟩
      · have h1 : _ ∨ _ := h1
        change check _ _ _ = _ at h
        rcases h1 with h1 | h1
        · rw [h1] at h; exact nomatch h
        · rw [h1] at h; exact nomatch h
      · change check _ _ _ = _ at h
        rw [h1] at h
        cases h
        show (if d.take 4096 = [] then State.close _ (.chan c) else _).isOpen f = _
        rw [apply_ite (fun t : State => t.isOpen f)]
        exact (ite_congr rfl (fun _ => cl _) (fun _ => rfl)).trans (ite_self _)
    | writeError => exact nomatch h
    | readError c => exact nomatch h
  have serve_ne : ∀ (rs : List Ready) (s : State), Polled s rs → ∀ s', serve a s rs ≠ .keyError s' := by
    intro rs
    induction rs with
    | nil => intro s _ s' h; exact nomatch h
    | cons r rs ih =>
      rintro s ⟨h1, h2⟩ s'
      unfold serve
      have hn := step_ne s r (h2 r (by simp))
      cases hr : step a s r with
      | more t =>
        refine ih t ⟨(List.nodup_cons.1 h1).2, fun q hq => ?_⟩ s'
        rw [step_open s r t hr q.fd ?_]
        · exact h2 q (by simp [hq])
        · intro he
          exact (List.nodup_cons.1 h1).1 (List.mem_map.2 ⟨q, hq, he⟩)
      | keyError t => exact absurd hr (hn t)
      | ret | ole | valueError | osError => intro h; exact nomatch h
  have loop_ne : ∀ (ps : List (Option (List Ready))) (s : State), Honest a s ps → ∀ s', loop a s ps ≠ .keyError s' := by
    intro ps
    induction ps with
    | nil => intro s _ s'; unfold loop; split_ifs <;> intro h <;> exact nomatch h
    | cons p ps ih =>
      intro s hp s'
      unfold loop
      split_ifs
      · cases p with
        | none => exact ih s hp s'
        | some rs =>
          show (match serve a s rs with | .more s' => loop a s' ps | res => res) ≠ _
          have hn := serve_ne rs s hp.1
          cases hr : serve a s rs with
          | more t => exact ih t (hp.2 t hr) s'
          | keyError t => exact absurd hr (hn t)
          | ret | ole | valueError | osError => intro h; exact nomatch h
      · intro h; exact nomatch h
  exact loop_ne polls _ hp s

/-- The call returns as soon as no stream is open, and waits for more as long as one is. -/
theorem C43_waits (a : Args) (polls) (s : State) (h : communicate a polls = .more s) : ∃ f, s.isOpen f = true := by
  have : ∀ (ps : List (Option (List Ready))) (t : State), loop a t ps = .more s → ∃ f, s.isOpen f = true := by
    intro ps
    induction ps with
    | nil =>
      intro t h
      unfold loop at h
      split_ifs at h with ho
      simp only [Res.more.injEq] at h
      rw [← h]
      simp only [Bool.or_eq_true] at ho
      rcases ho with (ho | ho) | ho
      exacts [⟨_, ho⟩, ⟨_, ho⟩, ⟨_, ho⟩]
    | cons p ps ih =>
      intro t h
      unfold loop at h
      split_ifs at h with ho
      cases p with
      | none => exact ih t h
      | some rs =>
        simp only at h
        cases hr : serve a t rs with
        | more t' => rw [hr] at h; exact ih t' h
        | _ => rw [hr] at h; exact nomatch (h : _ = _)
  exact this polls _ h

private theorem loop_append (a : Args) (q : List (Option (List Ready))) (s : State) : ∀ (ps : List (Option (List Ready))) (t : State),
    loop a t ps = .more s → loop a t (ps ++ q) = loop a s q := by
  intro ps
  induction ps with
  | nil =>
    intro t h
    unfold loop at h
    split_ifs at h
    simp only [Res.more.injEq] at h
    rw [← h, List.nil_append]
  | cons p ps ih =>
    intro t h
    rw [List.cons_append]
    unfold loop at h
    conv => lhs; unfold loop
    split_ifs at h ⊢
    cases p with
    | none => exact ih t h
    | some rs =>
      simp only at h ⊢
      cases hr : serve a t rs with
      | more t' => rw [hr] at h; exact ih t' h
      | _ => rw [hr] at h; exact nomatch (h : _ = _)

/-- As long as the process has not been sent its input it gets on: whenever there is room for `n` bytes it is sent the next `n` of them, or 4096 if
that is less. -/
theorem C43_progress (a : Args) (polls) (s : State) (h : communicate a polls = .more s) (ho : s.isOpen .stdin = true) (n : Nat) :
    (communicate a (polls ++ [some [.room n]])).state.sent = a.input.take (s.sent.length + min n 4096) := by
  have hc := core a polls
  rw [h] at hc
  have hs : s.sent = a.input.take s.offset := hc.sent
  have hl : s.sent.length = s.offset := by
    rw [hs, List.length_take]
    have : s.offset ≤ a.input.length := hc.off
    omega
  have e : a.input.take (s.offset + min n ((a.input.drop s.offset).take 4096).length) = a.input.take (s.offset + min n 4096) := by
    rw [List.length_take, List.length_drop]
    by_cases hx : s.offset + min n 4096 ≤ a.input.length
    · congr 1; omega
    · rw [List.take_of_length_le (by omega), List.take_of_length_le (by omega)]
  unfold communicate at h ⊢
  rw [loop_append a _ s polls _ h, loop.eq_def]
  simp only
  rw [if_pos (by simp [ho]), hl, ← e, ← take_take_drop, ← hs]
  simp only [serve, step, Ready.fd, ho, Bool.true_eq_false, if_false]
  split_ifs
  all_goals
    unfold loop
    split_ifs <;> rfl

/-- The limits: 10 MiB unless told otherwise, and the same for both streams unless told otherwise. -/
theorem C43_limits (a : Args) :
    (a.outlimit = none → a.limit .out = 10 * 1024 * 1024) ∧ (∀ n, a.outlimit = some n → a.limit .out = n) ∧
      (a.errlimit = none → a.limit .err = a.limit .out) ∧ ∀ n, a.errlimit = some n → a.limit .err = n := by
  refine ⟨fun h => ?_, fun n h => ?_, fun h => ?_, fun n h => ?_⟩ <;> simp [Args.limit, h]

example : ∃ s, communicate { input := [1, 2, 3] } [some [.room 2]] = .more s ∧ s.isOpen .stdin = true := ⟨_, rfl, rfl⟩

-- an echoed input, and one that is cut off
example : (match communicate { input := [1, 2, 3], outlimit := some 3 }
    [some [.room 2], none, some [.room 9, .avail .out [1, 2]], some [.avail .out [3], .avail .err []], some [.avail .out []]] with
    | .ret o e s => decide (o = [1, 2, 3] ∧ e = [] ∧ s.sent = [1, 2, 3])
    | _ => false) = true := by decide +kernel

example : ∃ s, communicate { input := [1, 2, 3], outlimit := some 3 }
    [some [.epipe, .avail .out [1, 2]], some [.avail .out [3, 4]]] = .ole .out 3 s ∧ s.sent = [] ∧ s.marked = true :=
  ⟨_, rfl, rfl, rfl⟩

example : ∃ s, communicate { has := fun c => c = .err, outlimit := some 1 } [some [.avail .err [3, 4]]] = .ole .err 1 s := ⟨_, rfl⟩

end Verif.Communicate
