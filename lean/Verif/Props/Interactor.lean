import Verif.Model.Interactor
import Verif.Spec.Interactor
import Verif.Lemmas.Split
import Mathlib.Tactic.SplitIfs
import Mathlib.Data.List.Perm.Basic

/-!
# C48 Interactor tokenisation and integer range
-/

namespace Verif.Interactor
open Verif.Spec Verif.Interactor.Spec

/-! ## Words -/

private theorem take_nonwhite (s : Bytes) : ∀ c ∈ s.takeWhile (fun c => !isWhite c), isWhite c = false := by
  intro c hc
  have := List.mem_takeWhile_imp hc
  simpa using this

private theorem head_dropWhile {p : Byte → Bool} {s : Bytes} {c : Byte} {r : Bytes} (h : s.dropWhile p = c :: r) : p c = false := by
  have := List.head?_dropWhile_not p s
  rw [h] at this
  simpa using this

private theorem tokens_split (s : Bytes) (hs : s ≠ []) (h : ∀ c r, s = c :: r → isWhite c = false) :
    tokens s = s.takeWhile (fun c => !isWhite c) :: tokens (s.dropWhile fun c => !isWhite c) := by
  obtain ⟨c, r, rfl⟩ := List.exists_cons_of_ne_nil hs
  have hc := h c r rfl
  conv_lhs => rw [← List.takeWhile_append_dropWhile (p := fun c => !isWhite c) (l := c :: r)]
  apply tokens_token _ _ (take_nonwhite _)
  · simp [hc]
  · intro d t e
    have := head_dropWhile e
    simpa using this

private theorem tokens_append_white {c : Byte} (hc : isWhite c = true) (y : Bytes) :
    ∀ (n : Nat) (x : Bytes), x.length ≤ n → tokens (x ++ c :: y) = tokens x ++ tokens y := by
  intro n
  induction n with
  | zero =>
    intro x hx
    have : x = [] := List.length_eq_zero_iff.1 (Nat.le_zero.1 hx)
    subst this
    rw [List.nil_append, tokens_white hc, tokens_nil, List.nil_append]
  | succ n ih =>
    intro x hx
    cases x with
    | nil => rw [List.nil_append, tokens_white hc, tokens_nil, List.nil_append]
    | cons d x =>
      by_cases hd : isWhite d = true
      · rw [List.cons_append, tokens_white hd, tokens_white hd, ih x (Nat.le_of_succ_le_succ hx)]
      · have hd : isWhite d = false := by simpa using hd
        have hlen : ((d :: x).dropWhile fun c => !isWhite c).length ≤ n := by
          rw [List.dropWhile_cons, if_pos (by simp [hd])]
          exact Nat.le_trans (List.dropWhile_suffix _).length_le (Nat.le_of_succ_le_succ hx)
        have h1 := tokens_split (d :: x) (by simp) (by rintro _ _ ⟨⟩; exact hd)
        have h2 : (d :: x) ++ c :: y = (d :: x).takeWhile (fun c => !isWhite c) ++ ((d :: x).dropWhile (fun c => !isWhite c) ++ c :: y) := by
          rw [← List.append_assoc, List.takeWhile_append_dropWhile]
        rw [h2, tokens_token _ _ (take_nonwhite _), ih _ hlen, h1, List.cons_append]
        · simp [hd]
        · intro e r he
          cases hdw : (d :: x).dropWhile (fun c => !isWhite c) with
          | nil => rw [hdw] at he; simp at he; rw [← he.1]; exact hc
          | cons f t =>
            rw [hdw] at he
            simp at he
            have := head_dropWhile hdw
            rw [← he.1]
            simpa using this

private theorem tokens_at {c : Byte} (hc : isWhite c = true) (x y : Bytes) : tokens (x ++ c :: y) = tokens x ++ tokens y :=
  tokens_append_white hc y _ x (Nat.le_refl _)

private theorem tokens_blank (w : Bytes) (h : ∀ c ∈ w, isWhite c = true) : tokens w = [] := by
  induction w with
  | nil => exact tokens_nil
  | cons c w ih => rw [tokens_white (h c (by simp)), ih fun d hd => h d (by simp [hd])]

private theorem tokens_trailing (x w : Bytes) (h : ∀ c ∈ w, isWhite c = true) : tokens (x ++ w) = tokens x := by
  cases w with
  | nil => rw [List.append_nil]
  | cons c w => rw [tokens_at (h c (by simp)), tokens_blank w fun d hd => h d (by simp [hd]), List.append_nil]

private theorem tokens_leading (x w : Bytes) (h : ∀ c ∈ w, isWhite c = true) : tokens (w ++ x) = tokens x := by
  induction w with
  | nil => rfl
  | cons c w ih => rw [List.cons_append, tokens_white (h c (by simp)), ih fun d hd => h d (by simp [hd])]

private theorem takeWhile_white (s : Bytes) : ∀ c ∈ s.takeWhile isWhite, isWhite c = true := fun _ hc => List.mem_takeWhile_imp hc

private theorem tokens_lstrip (s : Bytes) : tokens (s.dropWhile isWhite) = tokens s := by
  conv_rhs => rw [← List.takeWhile_append_dropWhile (p := isWhite) (l := s)]
  rw [tokens_leading _ _ (takeWhile_white s)]

private theorem rstrip_spec (s : Bytes) : ∃ w, s = rstrip s ++ w ∧ ∀ c ∈ w, isWhite c = true := by
  refine ⟨(s.reverse.takeWhile isWhite).reverse, ?_, fun c hc => takeWhile_white _ c (List.mem_reverse.1 hc)⟩
  unfold rstrip
  rw [← List.reverse_append, List.takeWhile_append_dropWhile, List.reverse_reverse]

private theorem rstrip_last (s t : Bytes) (c : Byte) (h : rstrip s = t ++ [c]) : isWhite c = false := by
  unfold rstrip at h
  have := congrArg List.reverse h
  rw [List.reverse_reverse, List.reverse_append] at this
  exact head_dropWhile this

private theorem tokens_rstrip (s : Bytes) : tokens (rstrip s) = tokens s := by
  obtain ⟨w, h1, h2⟩ := rstrip_spec s
  conv_rhs => rw [h1]
  rw [tokens_trailing _ _ h2]

private theorem tokens_mem (s : Bytes) : ∀ w ∈ tokens s, w ≠ [] ∧ ∀ c ∈ w, isWhite c = false := by
  have : ∀ (n : Nat) (s : Bytes), s.length ≤ n → ∀ w ∈ tokens s, w ≠ [] ∧ ∀ c ∈ w, isWhite c = false := by
    intro n
    induction n with
    | zero =>
      intro s hs
      have : s = [] := List.length_eq_zero_iff.1 (Nat.le_zero.1 hs)
      subst this
      simp [tokens_nil]
    | succ n ih =>
      intro s hs
      cases s with
      | nil => simp [tokens_nil]
      | cons c s =>
        have hs := Nat.le_of_succ_le_succ hs
        by_cases hc : isWhite c = true
        · rw [tokens_white hc]
          exact ih s hs
        · have hc : isWhite c = false := by simpa using hc
          rw [tokens_split (c :: s) (by simp) (by rintro _ _ ⟨⟩; exact hc)]
          intro w hw
          rcases List.mem_cons.1 hw with rfl | hw
          · exact ⟨by simp [hc], take_nonwhite _⟩
          · refine ih _ ?_ w hw
            rw [List.dropWhile_cons, if_pos (by simp [hc])]
            exact Nat.le_trans (List.dropWhile_suffix _).length_le hs
  exact this s.length s (Nat.le_refl _)

private theorem strip_core {pre core post : Bytes} (h1 : ∀ c ∈ pre, isWhite c = true) (h2 : ∀ c ∈ post, isWhite c = true)
    (h3 : ∀ c r, core = c :: r → isWhite c = false) (h4 : ∀ c r, core = r ++ [c] → isWhite c = false) (h5 : core ≠ []) :
    strip (pre ++ core ++ post) = core := by
  obtain ⟨c, r, e⟩ := List.exists_cons_of_ne_nil h5
  have e1 : lstrip (pre ++ core ++ post) = core ++ post := by
    unfold lstrip
    rw [List.append_assoc, List.dropWhile_append_of_pos h1, e, List.cons_append, List.dropWhile_cons, if_neg (by simp [h3 c r e])]
  unfold strip rstrip
  rw [e1, List.reverse_append, List.dropWhile_append_of_pos fun c hc => h2 c (List.mem_reverse.1 hc)]
  rcases List.eq_nil_or_concat core with h | ⟨r', d, h⟩
  · exact absurd h h5
  · rw [List.concat_eq_append] at h
    rw [h, List.reverse_append, List.reverse_singleton, List.singleton_append, List.dropWhile_cons, if_neg (by simp [h4 d r' h])]
    simp

private theorem strip_decomp (t : Bytes) : ∃ pre post, t = pre ++ strip t ++ post ∧ (∀ c ∈ pre, isWhite c = true) ∧ ∀ c ∈ post, isWhite c = true := by
  obtain ⟨w, h1, h2⟩ := rstrip_spec (lstrip t)
  refine ⟨t.takeWhile isWhite, w, ?_, takeWhile_white t, h2⟩
  unfold strip
  rw [List.append_assoc, ← h1]
  unfold lstrip
  rw [List.takeWhile_append_dropWhile]

private theorem strip_nonwhite (w : Bytes) (h : ∀ c ∈ w, isWhite c = false) : strip w = w := by
  by_cases hw : w = []
  · subst hw; rfl
  · have := strip_core (pre := []) (core := w) (post := []) (by simp) (by simp)
      (fun c r e => h c (by rw [e]; simp)) (fun c r e => h c (by rw [e]; simp)) hw
    simpa using this

private theorem strip_one (s w : Bytes) (h : tokens s = [w]) : strip s = w := by
  obtain ⟨pre, post, h1, h2, h3⟩ := strip_decomp s
  have e : tokens (strip s) = [w] := by
    rw [h1, tokens_trailing _ _ h3, tokens_leading _ _ h2] at h
    exact h
  have hw := tokens_mem s w (by rw [h]; simp)
  -- the first byte is not blank
  have hd : (strip s).dropWhile isWhite = strip s := by
    cases hs : strip s with
    | nil => rfl
    | cons c r =>
      have : isWhite c = false := by
        unfold strip at hs
        obtain ⟨w', h4, _⟩ := rstrip_spec (lstrip s)
        rw [hs, List.cons_append] at h4
        exact head_dropWhile h4
      rw [List.dropWhile_cons, if_neg (by simp [this])]
  have hl : ∀ c r, strip s = r ++ [c] → isWhite c = false := fun c r e => rstrip_last _ _ _ e
  have hne : strip s ≠ [] := by
    intro e'
    rw [e', tokens_nil] at e
    exact nomatch e
  have hh : ∀ c r, strip s = c :: r → isWhite c = false := fun c r e' => head_dropWhile (hd.trans e')
  rw [tokens_split _ hne hh] at e
  have e1 := (List.cons.inj e).1
  have e2 := (List.cons.inj e).2
  have hr : (strip s).dropWhile (fun c => !isWhite c) = [] := by
    rcases List.eq_nil_or_concat ((strip s).dropWhile fun c => !isWhite c) with h | ⟨r, c, h⟩
    · exact h
    · rw [List.concat_eq_append] at h
      exfalso
      have hcw : isWhite c = false := hl c ((strip s).takeWhile (fun c => !isWhite c) ++ r) (by
        rw [List.append_assoc, ← h, List.takeWhile_append_dropWhile])
      rw [h] at e2
      -- a rest with a word has a token
      have : ∀ (x : Bytes), tokens (x ++ [c]) ≠ [] := by
        intro x
        induction x with
        | nil =>
          rw [List.nil_append, tokens_split [c] (by simp) (by rintro _ _ ⟨⟩; exact hcw)]
          simp
        | cons d x ih =>
          by_cases hdw : isWhite d = true
          · rw [List.cons_append, tokens_white hdw]
            exact ih
          · rw [List.cons_append, tokens_split _ (by simp) (by rintro _ _ ⟨⟩; simpa using hdw)]
            simp
      exact this r e2
  rw [← e1]
  conv_lhs => rw [← List.takeWhile_append_dropWhile (p := fun c => !isWhite c) (l := strip s), hr, List.append_nil]

/-! ## Lines -/

private theorem readline_append (s : Bytes) : (readline s).1 ++ (readline s).2 = s := by
  induction s with
  | nil => rfl
  | cons c s ih =>
    unfold readline
    split_ifs with h
    · rfl
    · simp only [List.cons_append, ih]

private theorem readline_line (s : Bytes) : IsLine (readline s).1 ∨ 10 ∉ s ∧ (readline s).2 = [] := by
  induction s with
  | nil => exact .inr ⟨by simp, rfl⟩
  | cons c s ih =>
    unfold readline
    split_ifs with h
    · left
      exact ⟨[], by simp [h], by simp⟩
    · rcases ih with ⟨t, h1, h2⟩ | ⟨h1, h2⟩
      · left
        exact ⟨c :: t, by simp [h1], by simp [h2, Ne.symm h]⟩
      · right
        exact ⟨by simp [h1, Ne.symm h], h2⟩

private theorem readline_nil {s : Bytes} (h : (readline s).1 = []) : s = [] := by
  cases s with
  | nil => rfl
  | cons c s =>
    unfold readline at h
    split_ifs at h

private theorem readline_tokens (s : Bytes) : tokens (readline s).1 ++ tokens (readline s).2 = tokens s := by
  have h := readline_append s
  rcases readline_line s with ⟨t, h1, _⟩ | ⟨_, h1⟩
  · conv_rhs => rw [← h]
    rw [h1, List.append_assoc, List.singleton_append, tokens_at (by decide), tokens_at (by decide), tokens_nil, List.append_nil]
  · rw [h1, List.append_nil] at h
    rw [h1, h, tokens_nil, List.append_nil]

private theorem readln_cases (b : Bool) (s : St) : s.rest = [] ∧ readln b s = (none, s) ∨
    s.rest ≠ [] ∧ readln b s = (some (if b then rstrip (readline s.rest).1 else (readline s.rest).1), { s with rest := (readline s.rest).2 }) := by
  unfold readln
  rcases hr : readline s.rest with ⟨l, r⟩
  cases l with
  | nil =>
    left
    exact ⟨readline_nil (by rw [hr]), rfl⟩
  | cons c l =>
    right
    refine ⟨fun h => ?_, rfl⟩
    rw [h] at hr
    cases hr

private theorem splitWhite_some {s w t : Bytes} (h : splitWhite s = some (w, t)) :
    tokens s = w :: tokens t ∧ t ≠ [] ∧ (∀ c ∈ w, isWhite c = false) ∧ w ≠ [] ∧ (∀ c r, t = c :: r → isWhite c = false) ∧ t <:+ s := by
  unfold splitWhite at h
  simp only at h
  split_ifs at h with hr
  obtain ⟨rfl, rfl⟩ := Prod.mk.inj (Option.some.inj h)
  have hs : s.dropWhile isWhite ≠ [] := by
    intro e
    rw [e] at hr
    exact hr rfl
  have hh : ∀ c r, s.dropWhile isWhite = c :: r → isWhite c = false := fun c r e => head_dropWhile e
  refine ⟨?_, hr, take_nonwhite _, ?_, fun c r e => head_dropWhile e, ?_⟩
  · rw [← tokens_lstrip s, tokens_split _ hs hh, tokens_lstrip]
  · obtain ⟨c, r, e⟩ := List.exists_cons_of_ne_nil hs
    rw [e, List.takeWhile_cons, if_pos (by simp [hh c r e])]
    simp
  · exact (List.dropWhile_suffix _).trans ((List.dropWhile_suffix _).trans (List.dropWhile_suffix _))

private theorem splitWhite_none {s : Bytes} (h : splitWhite s = none) :
    s.dropWhile isWhite = [] ∧ tokens s = [] ∨ ∃ w, tokens s = [w] ∧ w = (s.dropWhile isWhite).takeWhile (fun c => !isWhite c) ∧
      ∃ b, s.dropWhile isWhite = w ++ b ∧ ∀ c ∈ b, isWhite c = true := by
  unfold splitWhite at h
  simp only at h
  split_ifs at h with hr
  by_cases hs : s.dropWhile isWhite = []
  · left
    exact ⟨hs, by rw [← tokens_lstrip, hs, tokens_nil]⟩
  · right
    have hh : ∀ c r, s.dropWhile isWhite = c :: r → isWhite c = false := fun c r e => head_dropWhile e
    refine ⟨_, ?_, rfl, (s.dropWhile isWhite).dropWhile (fun c => !isWhite c), List.takeWhile_append_dropWhile.symm, ?_⟩
    · rw [← tokens_lstrip s, tokens_split _ hs hh, ← tokens_lstrip (List.dropWhile (fun c => !isWhite c) _), hr, tokens_nil]
    · intro c hc
      have := List.takeWhile_append_dropWhile (p := isWhite) (l := (s.dropWhile isWhite).dropWhile (fun c => !isWhite c))
      rw [hr, List.append_nil] at this
      rw [← this] at hc
      exact takeWhile_white _ c hc

/-- The words still held back. -/
private def held (s : St) : List Bytes := tokens (s.tokens.getD [])

private theorem take_words (l : Bytes) (s : St) :
    ((takeToken none l s).1.map tokens).getD [] ++ held (takeToken none l s).2 = tokens l ∧ (takeToken none l s).2.rest = s.rest ∧
      (takeToken none l s).1.isSome = true := by
  unfold takeToken split
  cases h : splitWhite l with
  | some p =>
    obtain ⟨w, t⟩ := p
    obtain ⟨h1, h2, h3, h4, _⟩ := splitWhite_some h
    refine ⟨?_, rfl, rfl⟩
    have : tokens w = [w] := by
      have := tokens_token w [] h3 h4 (by intro c r e; exact nomatch e)
      rwa [List.append_nil, tokens_nil] at this
    simp only [held, Option.map_some, Option.getD_some, this, h1, List.singleton_append]
  | none => exact ⟨by simp [held, tokens_nil], rfl, rfl⟩

private theorem token_words (s : St) :
    ((readtoken none s).1.map tokens).getD [] ++ held (readtoken none s).2 ++ tokens (readtoken none s).2.rest = held s ++ tokens s.rest := by
  have empty : s.tokens = none ∨ s.tokens = some [] →
      ((match readln true s with
        | (none, s') => (none, s')
        | (some l, s') => takeToken none l s').1.map tokens).getD [] ++
      held (match readln true s with
        | (none, s') => (none, s')
        | (some l, s') => takeToken none l s').2 ++
      tokens (match readln true s with
        | (none, s') => (none, s')
        | (some l, s') => takeToken none l s').2.rest = held s ++ tokens s.rest := by
    intro ht
    have hh : held s = [] := by rcases ht with h | h <;> simp [held, h, tokens_nil]
    rcases readln_cases true s with ⟨h1, h2⟩ | ⟨h1, h2⟩
    · rw [h2]
      simp [hh]
    · rw [h2]
      simp only [if_true]
      obtain ⟨h3, h4, _⟩ := take_words (rstrip (readline s.rest).1) { s with rest := (readline s.rest).2 }
      rw [h3, h4, tokens_rstrip, hh, List.nil_append, readline_tokens]
  unfold readtoken
  split
  · exact empty (.inl (by assumption))
  · exact empty (.inr (by assumption))
  · rename_i t h1 h2
    obtain ⟨h3, h4, _⟩ := take_words t s
    rw [h3, h4]
    simp [held, h2]

private theorem line_words (b : Bool) (s : St) :
    ((readln b s).1.map tokens).getD [] ++ tokens (readln b s).2.rest = tokens s.rest ∧ (readln b s).2.tokens = s.tokens := by
  rcases readln_cases b s with ⟨h1, h2⟩ | ⟨h1, h2⟩
  · rw [h2]
    simp
  · rw [h2]
    refine ⟨?_, rfl⟩
    simp only [Option.map_some, Option.getD_some]
    rw [← readline_tokens s.rest]
    cases b
    · rfl
    · simp only [if_true, tokens_rstrip]

private theorem all_words (s : St) :
    ((readAll s).1.map tokens).getD [] ++ tokens (readAll s).2.rest = tokens s.rest ∧ (readAll s).2.tokens = s.tokens := by
  unfold readAll
  split
  · rename_i h
    simp
  · simp [tokens_nil]

/-- The words of what was returned. -/
def words (rs : List (Option Bytes)) : List Bytes := rs.flatMap fun r => (r.map tokens).getD []

/-- No word is lost, made up or returned twice, however the calls are mixed: what was returned, what is held back
and what is still to be read have the words of the stream. -/
theorem C48_nothing_lost (stream : Bytes) (cs : List Call) :
    (words (calls ⟨stream, none⟩ cs).1 ++ tokens ((calls ⟨stream, none⟩ cs).2.tokens.getD []) ++ tokens (calls ⟨stream, none⟩ cs).2.rest).Perm
      (tokens stream) := by
  have key : ∀ (cs : List Call) (s : St),
      (words (calls s cs).1 ++ held (calls s cs).2 ++ tokens (calls s cs).2.rest).Perm (held s ++ tokens s.rest) := by
    intro cs
    induction cs with
    | nil => intro s; exact List.Perm.refl _
    | cons c cs ih =>
      intro s
      have one : (((call s c).1.map tokens).getD [] ++ (held (call s c).2 ++ tokens (call s c).2.rest)).Perm (held s ++ tokens s.rest) := by
        cases c with
        | token =>
          have := token_words s
          rw [List.append_assoc] at this
          exact List.Perm.of_eq this
        | line b =>
          obtain ⟨h1, h2⟩ := line_words b s
          have e : held (call s (.line b)).2 = held s := by show tokens _ = tokens _; rw [show (call s (.line b)).2.tokens = s.tokens from h2]
          rw [e, ← List.append_assoc]
          refine (List.Perm.append_right _ List.perm_append_comm).trans ?_
          rw [List.append_assoc]
          exact List.Perm.of_eq (congrArg (held s ++ ·) h1)
        | all =>
          obtain ⟨h1, h2⟩ := all_words s
          have e : held (call s .all).2 = held s := by show tokens _ = tokens _; rw [show (call s .all).2.tokens = s.tokens from h2]
          rw [e, ← List.append_assoc]
          refine (List.Perm.append_right _ List.perm_append_comm).trans ?_
          rw [List.append_assoc]
          exact List.Perm.of_eq (congrArg (held s ++ ·) h1)
      show (words ((call s c).1 :: (calls (call s c).2 cs).1) ++ held (calls (call s c).2 cs).2 ++ tokens (calls (call s c).2 cs).2.rest).Perm _
      rw [show words ((call s c).1 :: (calls (call s c).2 cs).1) = ((call s c).1.map tokens).getD [] ++ words (calls (call s c).2 cs).1 from rfl,
        List.append_assoc, List.append_assoc]
      refine List.Perm.trans (List.Perm.append_left _ ?_) one
      rw [← List.append_assoc]
      exact ih _
  have := key cs ⟨stream, none⟩
  simpa [held, tokens_nil] using this

/-- Lines (or everything) are only asked for when no tokens are held back. -/
def Orderly : St → List Call → Prop
  | _, [] => True
  | s, c :: cs => (c = .token ∨ tokens (s.tokens.getD []) = []) ∧ Orderly (call s c).2 cs

/-- If lines are only asked for when no token is held back, the words come in the order of the stream. What is
missing: a line asked for earlier overtakes the tokens held back (`C48_order_fails`). -/
theorem C48_order_partial (stream : Bytes) (cs : List Call) (h : Orderly ⟨stream, none⟩ cs) :
    words (calls ⟨stream, none⟩ cs).1 ++ tokens ((calls ⟨stream, none⟩ cs).2.tokens.getD []) ++ tokens (calls ⟨stream, none⟩ cs).2.rest =
      tokens stream := by
  have key : ∀ (cs : List Call) (s : St), Orderly s cs →
      words (calls s cs).1 ++ held (calls s cs).2 ++ tokens (calls s cs).2.rest = held s ++ tokens s.rest := by
    intro cs
    induction cs with
    | nil => intro s _; rfl
    | cons c cs ih =>
      intro s ⟨ho, hrest⟩
      have one : ((call s c).1.map tokens).getD [] ++ (held (call s c).2 ++ tokens (call s c).2.rest) = held s ++ tokens s.rest := by
        cases c with
        | token =>
          have := token_words s
          rwa [List.append_assoc] at this
        | line b =>
          obtain ⟨h1, h2⟩ := line_words b s
          have hh : held s = [] := ho.resolve_left (by simp)
          have e : held (call s (.line b)).2 = held s := by show tokens _ = tokens _; rw [show (call s (.line b)).2.tokens = s.tokens from h2]
          rw [e, hh, List.nil_append, List.nil_append]
          exact h1
        | all =>
          obtain ⟨h1, h2⟩ := all_words s
          have hh : held s = [] := ho.resolve_left (by simp)
          have e : held (call s .all).2 = held s := by show tokens _ = tokens _; rw [show (call s .all).2.tokens = s.tokens from h2]
          rw [e, hh, List.nil_append, List.nil_append]
          exact h1
      show words ((call s c).1 :: (calls (call s c).2 cs).1) ++ held (calls (call s c).2 cs).2 ++ tokens (calls (call s c).2 cs).2.rest = _
      rw [show words ((call s c).1 :: (calls (call s c).2 cs).1) = ((call s c).1.map tokens).getD [] ++ words (calls (call s c).2 cs).1 from rfl,
        List.append_assoc, List.append_assoc, ← List.append_assoc (words _), ih _ hrest]
      exact one
  have := key cs ⟨stream, none⟩ h
  simpa [held, tokens_nil] using this

/-- `a b`, `c`: a token, then a line, then a token give `a`, `c`, `b`. -/
theorem C48_order_fails : ∃ (stream : Bytes) (cs : List Call),
    (calls ⟨stream, none⟩ cs).1 = [some (b "a"), some (b "c"), some (b "b")] ∧ tokens stream = [b "a", b "b", b "c"] :=
  ⟨b "a b\nc\n", [.token, .line true, .token], by decide +kernel, by decide +kernel⟩

/-! ## Tokens one by one -/

private theorem isLines_nil {ls : List Bytes} (h : IsLines ls []) : ls = [] := by
  obtain ⟨h1, h2, h3⟩ := h
  rcases List.eq_nil_or_concat ls with rfl | ⟨l, x, rfl⟩
  · rfl
  · simp at h1
    have := h3 x (by simp)
    rw [h1.2] at this
    rcases this with ⟨t, h, _⟩ | ⟨h, _⟩
    · simp at h
    · exact absurd rfl h

private theorem isLines_cons {l : Bytes} {ls : List Bytes} {s : Bytes} (h : IsLines (l :: ls) s) :
    (readline s).1 = l ∧ IsLines ls (readline s).2 ∧ s ≠ [] := by
  obtain ⟨h1, h2, h3⟩ := h
  subst h1
  have line : ∀ t r, 10 ∉ t → readline (t ++ [10] ++ r) = (t ++ [10], r) := by
    intro t r ht
    induction t with
    | nil => simp [readline]
    | cons c t ih =>
      have : c ≠ 10 := fun e => ht (by simp [e])
      simp only [List.cons_append, readline, if_neg this]
      rw [ih fun h => ht (by simp [h])]
  have last : ∀ t : Bytes, 10 ∉ t → readline t = (t, []) := by
    intro t ht
    induction t with
    | nil => rfl
    | cons c t ih =>
      have : c ≠ 10 := fun e => ht (by simp [e])
      rw [readline, if_neg this, ih fun h => ht (by simp [h])]
  cases ls with
  | nil =>
    have := h3 l (by simp)
    simp only [List.flatten_cons, List.flatten_nil, List.append_nil]
    rcases this with ⟨t, rfl, ht⟩ | ⟨hne, ht⟩
    · have := line t [] ht
      rw [List.append_nil] at this
      rw [this]
      exact ⟨rfl, ⟨rfl, by simp, by simp⟩, by simp⟩
    · rw [last l ht]
      exact ⟨rfl, ⟨rfl, by simp, by simp⟩, hne⟩
  | cons l' ls =>
    obtain ⟨t, rfl, ht⟩ := h2 l (by simp)
    have := line t (l' :: ls).flatten ht
    simp only [List.flatten_cons] at this ⊢
    rw [this]
    refine ⟨rfl, ⟨rfl, fun x hx => h2 x ?_, fun x hx => h3 x ?_⟩, by simp⟩
    · rw [List.dropLast_cons_of_ne_nil (by simp)]
      exact List.mem_cons_of_mem _ hx
    · rw [List.getLast?_cons_cons]
      exact hx

/-- Every stream has lines, in one way. -/
theorem C48_lines (s : Bytes) : ∃ ls, IsLines ls s ∧ ∀ ls', IsLines ls' s → ls' = ls := by
  have ex : ∀ (n : Nat) (s : Bytes), s.length ≤ n → ∃ ls, IsLines ls s := by
    intro n
    induction n with
    | zero =>
      intro s hs
      have : s = [] := List.length_eq_zero_iff.1 (Nat.le_zero.1 hs)
      subst this
      exact ⟨[], rfl, by simp, by simp⟩
    | succ n ih =>
      intro s hs
      cases s with
      | nil => exact ⟨[], rfl, by simp, by simp⟩
      | cons c s =>
        have happ := readline_append (c :: s)
        have hne : (readline (c :: s)).1 ≠ [] := fun h => nomatch readline_nil h
        have hlen : (readline (c :: s)).2.length ≤ n := by
          have := congrArg List.length happ
          have h1 := List.length_pos_iff.2 hne
          simp at this hs
          omega
        obtain ⟨ls, h1, h2, h3⟩ := ih _ hlen
        rcases readline_line (c :: s) with hl | ⟨hl, hr⟩
        · refine ⟨(readline (c :: s)).1 :: ls, ?_, ?_, ?_⟩
          · rw [List.flatten_cons, h1, happ]
          · intro x hx
            cases ls with
            | nil => simp at hx
            | cons y ls =>
              rw [List.dropLast_cons_of_ne_nil (by simp)] at hx
              rcases List.mem_cons.1 hx with rfl | hx
              · exact hl
              · exact h2 x hx
          · intro x hx
            cases ls with
            | nil => simp at hx; rw [← hx]; exact .inl hl
            | cons y ls => rw [List.getLast?_cons_cons] at hx; exact h3 x hx
        · refine ⟨[c :: s], by simp, by simp, ?_⟩
          intro x hx
          simp at hx
          rw [← hx]
          exact .inr ⟨by simp, hl⟩
  obtain ⟨ls, hls⟩ := ex s.length s (Nat.le_refl _)
  refine ⟨ls, hls, ?_⟩
  clear ex
  induction ls generalizing s with
  | nil =>
    intro ls' h
    have : s = [] := hls.1.symm
    rw [this] at h
    exact isLines_nil h
  | cons l ls ih =>
    intro ls' h
    obtain ⟨h1, h2, h3⟩ := isLines_cons hls
    cases ls' with
    | nil => exact absurd h.1.symm h3
    | cons l' ls' =>
      obtain ⟨h4, h5, _⟩ := isLines_cons h
      rw [ih _ h2 ls' h5, ← h1, ← h4]

/-- Tokens held back begin and end with a word. -/
private def Clean (t : Bytes) : Prop := t ≠ [] ∧ (∀ c r, t = c :: r → isWhite c = false) ∧ ∀ c r, t = r ++ [c] → isWhite c = false

private theorem clean_one {t : Bytes} (h : Clean t) (hs : splitWhite t = none) : tokens t = [t] := by
  obtain ⟨h1, h2, h3⟩ := h
  obtain ⟨c, r, rfl⟩ := List.exists_cons_of_ne_nil h1
  have hd : (c :: r).dropWhile isWhite = c :: r := by rw [List.dropWhile_cons, if_neg (by simp [h2 c r rfl])]
  rcases splitWhite_none hs with ⟨h, _⟩ | ⟨w, h4, h5, b, h6, h7⟩
  · rw [hd] at h; exact nomatch h
  · rw [hd] at h6
    rcases List.eq_nil_or_concat b with rfl | ⟨b', d, rfl⟩
    · rw [List.append_nil] at h6
      rw [h4, h6]
    · have := h3 d (w ++ b') (by rw [h6, List.concat_eq_append, List.append_assoc])
      rw [h7 d (by simp)] at this
      exact nomatch this

private theorem suffix_last {t s : Bytes} (h : t <:+ s) {c : Byte} {r : Bytes} (e : t = r ++ [c]) : ∃ r', s = r' ++ [c] := by
  obtain ⟨x, rfl⟩ := h
  exact ⟨x ++ r, by rw [e, List.append_assoc]⟩

/-- Reading tokens one after the other gives the tokens of the lines in order; when there are no more, the end of
the stream is reported, again and again. -/
theorem C48_tokens (stream : Bytes) (ls : List Bytes) (hls : IsLines ls stream) (n : Nat) :
    (calls ⟨stream, none⟩ (List.replicate n .token)).1 = (List.range n).map fun i => (ls.flatMap lineTokens)[i]? := by
  have key : ∀ (n : Nat) (ls : List Bytes) (s : St), IsLines ls s.rest → (s.tokens = none ∨ ∃ t, s.tokens = some t ∧ Clean t) →
      (calls s (List.replicate n .token)).1 =
        (List.range n).map fun i => ((match s.tokens with | none => [] | some t => tokens t) ++ ls.flatMap lineTokens)[i]? := by
    intro n
    induction n with
    | zero => intros; rfl
    | succ n ih =>
      intro ls s hl ht
      -- popping one token
      have pop : ∀ (r : Option Bytes) (s' : St) (rem : List Bytes), readtoken none s = (r, s') → r = rem.head? →
          ((match s.tokens with | none => [] | some t => tokens t) ++ ls.flatMap lineTokens) = rem →
          (calls s' (List.replicate n .token)).1 = (List.range n).map (fun i => rem.tail[i]?) →
          (calls s (List.replicate (n + 1) .token)).1 =
            (List.range (n + 1)).map fun i => ((match s.tokens with | none => [] | some t => tokens t) ++ ls.flatMap lineTokens)[i]? := by
        intro r s' rem h1 h2 h3 h4
        rw [h3, List.range_succ_eq_map, List.map_cons, List.map_map]
        show (readtoken none s).1 :: (calls (readtoken none s).2 (List.replicate n .token)).1 = _
        rw [h1, h4, h2]
        cases rem with
        | nil => simp [Function.comp_def]
        | cons x rem => simp [Function.comp_def]
      rcases ht with ht | ⟨t, ht, hc⟩
      · rcases readln_cases true s with ⟨h1, h2⟩ | ⟨h1, h2⟩
        · have e : readtoken none s = (none, s) := by unfold readtoken; simp only [ht, h2]
          rw [h1] at hl
          have := isLines_nil hl
          subst this
          refine pop none s [] e rfl (by simp [ht]) ?_
          rw [ih [] s (by rw [h1]; exact hl) (.inl ht)]
          simp [ht]
        · cases ls with
          | nil => exact absurd hl.1.symm h1
          | cons l ls =>
            obtain ⟨h3, h4, _⟩ := isLines_cons hl
            have e : readtoken none s = takeToken none (rstrip l) { s with rest := (readline s.rest).2 } := by
              unfold readtoken; simp only [ht, h2, if_true, h3]
            unfold takeToken split at e
            cases hs : splitWhite (rstrip l) with
            | none =>
              rw [hs] at e
              refine pop _ _ (lineTokens l ++ ls.flatMap lineTokens) e ?_ (by simp [ht]) ?_
              · rcases splitWhite_none hs with ⟨h5, h6⟩ | ⟨w, h5, h6, _⟩
                · rw [tokens_rstrip] at h6
                  have hb : rstrip l = [] := by
                    rcases List.eq_nil_or_concat (rstrip l) with h | ⟨r, c, h⟩
                    · exact h
                    · rw [List.concat_eq_append] at h
                      have h7 := rstrip_last l r c h
                      have : c ∈ (rstrip l).dropWhile isWhite ∨ isWhite c = true := by
                        have hm : c ∈ rstrip l := by rw [h]; simp
                        rw [← List.takeWhile_append_dropWhile (p := isWhite) (l := rstrip l)] at hm
                        rcases List.mem_append.1 hm with h8 | h8
                        · exact .inr (takeWhile_white _ c h8)
                        · exact .inl h8
                      rw [h5, h7] at this
                      simp at this
                  simp [lineTokens, h6, hb]
                · rw [tokens_rstrip] at h5
                  simp [lineTokens, h5]
                  rfl
              · rw [ih ls _ h4 (.inl rfl)]
                simp only [List.nil_append]
                have : (lineTokens l).tail = [] := by
                  rcases splitWhite_none hs with ⟨_, h6⟩ | ⟨w, h5, _⟩
                  · rw [tokens_rstrip] at h6; simp [lineTokens, h6]
                  · rw [tokens_rstrip] at h5; simp [lineTokens, h5]
                have hne : lineTokens l ≠ [] := by unfold lineTokens; split <;> simp_all
                rw [List.tail_append_of_ne_nil hne, this, List.nil_append]
            | some p =>
              obtain ⟨w, t⟩ := p
              rw [hs] at e
              obtain ⟨h5, h6, h7, h8, h9, h10⟩ := splitWhite_some hs
              rw [tokens_rstrip] at h5
              have hc : Clean t := ⟨h6, h9, fun c r e => by
                obtain ⟨r', e'⟩ := suffix_last h10 e
                exact rstrip_last l r' c e'⟩
              have htne : tokens t ≠ [] := by
                obtain ⟨c, r, rfl⟩ := List.exists_cons_of_ne_nil h6
                rw [tokens_split _ h6 h9]
                simp
              have hlt : lineTokens l = w :: tokens t := by
                unfold lineTokens
                rw [h5]
                obtain ⟨x, xs, e⟩ := List.exists_cons_of_ne_nil htne
                rw [e]
              refine pop _ _ (lineTokens l ++ ls.flatMap lineTokens) e (by simp [hlt]) (by simp [ht]) ?_
              rw [ih ls _ h4 (.inr ⟨t, rfl, hc⟩), hlt]
              rfl
      · have htk : readtoken none s = takeToken none t s := by
          obtain ⟨c, r, rfl⟩ := List.exists_cons_of_ne_nil hc.1
          unfold readtoken
          simp only [ht]
        unfold takeToken split at htk
        cases hs : splitWhite t with
        | none =>
          rw [hs] at htk
          refine pop _ _ (tokens t ++ ls.flatMap lineTokens) htk ?_ (by simp [ht]) ?_
          · rw [clean_one hc hs]; rfl
          · rw [ih ls { s with tokens := none } hl (.inl rfl), clean_one hc hs]
            rfl
        | some p =>
          obtain ⟨w, t'⟩ := p
          rw [hs] at htk
          obtain ⟨h5, h6, h7, h8, h9, h10⟩ := splitWhite_some hs
          have hc' : Clean t' := ⟨h6, h9, fun c r e => by
            obtain ⟨r', e'⟩ := suffix_last h10 e
            exact hc.2.2 c r' e'⟩
          refine pop _ _ (tokens t ++ ls.flatMap lineTokens) htk (by simp [h5]) (by simp [ht]) ?_
          rw [ih ls { s with tokens := some t' } hl (.inr ⟨t', rfl, hc'⟩), h5]
          rfl
  have := key n ls ⟨stream, none⟩ hls (.inl rfl)
  simpa using this

example : IsLines [b "12  7\n", b "\n", b "  x\n", b "end"] (b "12  7\n\n  x\nend") := by
  refine ⟨by decide +kernel, ?_, ?_⟩
  · intro l hl
    have : l = b "12  7" ++ [10] ∨ l = b "" ++ [10] ∨ l = b "  x" ++ [10] := by
      simp at hl
      rcases hl with rfl | rfl | rfl
      · exact .inl (by decide +kernel)
      · exact .inr (.inl (by decide +kernel))
      · exact .inr (.inr (by decide +kernel))
    rcases this with rfl | rfl | rfl <;> exact ⟨_, rfl, by decide +kernel⟩
  · intro l hl
    simp at hl
    subst hl
    exact .inr ⟨by decide +kernel, by decide +kernel⟩

/-- If no line is blank or begins with a blank, the tokens are exactly the words of the stream. What is missing:
see `C48_blank_fails`. -/
theorem C48_words_partial (stream : Bytes) (ls : List Bytes) (hls : IsLines ls stream)
    (hb : ∀ l ∈ ls, ∃ c r, l = c :: r ∧ isWhite c = false) (n : Nat) :
    (calls ⟨stream, none⟩ (List.replicate n .token)).1 = (List.range n).map fun i => (tokens stream)[i]? := by
  rw [C48_tokens stream ls hls n]
  have e1 : ∀ l, (∃ c r, l = c :: r ∧ isWhite c = false) → lineTokens l = tokens l := by
    rintro l ⟨c, r, rfl, hc⟩
    have hne : tokens (c :: r) ≠ [] := by
      rw [tokens_split _ (by simp) (by rintro _ _ ⟨⟩; exact hc)]
      simp
    unfold lineTokens
    split
    · rename_i h; exact absurd h hne
    · rename_i w h
      -- a line with one word which it begins with
      have hcl : Clean (rstrip (c :: r)) := by
        obtain ⟨w, h1, h2⟩ := rstrip_spec (c :: r)
        have hn : rstrip (c :: r) ≠ [] := by
          intro e
          rw [e, List.nil_append] at h1
          have := h2 c (by rw [← h1]; simp)
          rw [hc] at this
          exact nomatch this
        refine ⟨hn, fun d t e => ?_, fun d t e => rstrip_last _ _ _ e⟩
        rw [e] at h1
        simp at h1
        rw [← h1.1]
        exact hc
      have h3 : splitWhite (rstrip (c :: r)) = none := by
        cases hs : splitWhite (rstrip (c :: r)) with
        | none => rfl
        | some p =>
          obtain ⟨h4, h5, _, _, h6, _⟩ := splitWhite_some hs
          rw [tokens_rstrip, h] at h4
          have : tokens p.2 ≠ [] := by
            rw [tokens_split _ h5 h6]
            simp
          simp at h4
          exact absurd h4.2 this
      have := clean_one hcl h3
      rw [tokens_rstrip] at this
      rw [this]
      rfl
    · rfl
  have e2 : ls.flatMap lineTokens = ls.flatMap tokens := by
    rw [List.flatMap_congr fun l hl => e1 l (hb l hl)]
  have e3 : ∀ (ls : List Bytes) (s : Bytes), IsLines ls s → ls.flatMap tokens = tokens s := by
    intro ls
    induction ls with
    | nil =>
      intro s h
      rw [← h.1]
      simp [tokens_nil]
    | cons l ls ih =>
      intro s h
      obtain ⟨h1, h2, _⟩ := isLines_cons h
      rw [List.flatMap_cons, ih _ h2, ← h1, readline_tokens]
  rw [e2, e3 ls stream hls]

/-- Whatever the lines are like: without the empty tokens and the blanks around the others, the tokens are the words
of the stream. -/
theorem C48_stripped (stream : Bytes) (ls : List Bytes) (hls : IsLines ls stream) :
    ((ls.flatMap lineTokens).filter fun t => t ≠ []).map strip = tokens stream := by
  have one : ∀ l, ((lineTokens l).filter fun t => t ≠ []).map strip = tokens l := by
    intro l
    have mem : ∀ w ∈ tokens l, w ≠ [] ∧ strip w = w := by
      intro w hw
      obtain ⟨h1, h2⟩ := tokens_mem l w hw
      exact ⟨h1, strip_nonwhite w h2⟩
    unfold lineTokens
    split
    · rename_i h
      rw [h]
      rfl
    · rename_i w h
      have hw := mem w (by rw [h]; simp)
      have hs : strip (rstrip l) = w := strip_one _ w (by rw [tokens_rstrip, h])
      have hn : rstrip l ≠ [] := by
        intro e
        rw [e] at hs
        exact hw.1 (hs.symm.trans rfl)
      rw [show l.rdropWhile isWhite = rstrip l from rfl, h]
      simp [hn, hs]
    · rw [List.filter_eq_self.2 fun w hw => by simpa using (mem w hw).1]
      conv_rhs => rw [← List.map_id (tokens l)]
      exact List.map_congr_left fun w hw => (mem w hw).2
  have e3 : ∀ (ls : List Bytes) (s : Bytes), IsLines ls s → ((ls.flatMap lineTokens).filter fun t => t ≠ []).map strip = tokens s := by
    intro ls
    induction ls with
    | nil =>
      intro s h
      rw [← h.1]
      simp [tokens_nil]
    | cons l ls ih =>
      intro s h
      obtain ⟨h1, h2, _⟩ := isLines_cons h
      rw [List.flatMap_cons, List.filter_append, List.map_append, ih _ h2, one, ← h1, readline_tokens]
  exact e3 ls stream hls

/-- A blank line is a token, and blanks before the only word of a line are part of the token. -/
theorem C48_blank_fails :
    (∃ stream, (calls ⟨stream, none⟩ [.token]).1 = [some []] ∧ tokens stream = [b "7"])
    ∧ ∃ stream, (calls ⟨stream, none⟩ [.token]).1 = [some (b "  7")] ∧ tokens stream = [b "7"] :=
  ⟨⟨b "\n7\n", by decide +kernel, by decide +kernel⟩, ⟨b "  7\n", by decide +kernel, by decide +kernel⟩⟩

/-! ## Delimiters -/

private theorem findDelim_some {d s x y : Bytes} (hd : d ≠ []) (h : findDelim d s = some (x, y)) :
    s = x ++ d ++ y ∧ ∀ x' y', s = x' ++ d ++ y' → x.length ≤ x'.length := by
  induction s generalizing x with
  | nil => unfold findDelim at h; rw [if_neg hd] at h; exact nomatch h
  | cons c s ih =>
    unfold findDelim at h
    split_ifs at h with hp
    · obtain ⟨rfl, rfl⟩ := Prod.mk.inj (Option.some.inj h)
      obtain ⟨r, hr⟩ := List.isPrefixOf_iff_prefix.1 hp
      refine ⟨?_, fun _ _ _ => Nat.zero_le _⟩
      rw [← hr, List.drop_left, List.nil_append]
    · obtain ⟨⟨x1, y1⟩, h1, h2⟩ := Option.map_eq_some_iff.1 h
      obtain ⟨rfl, rfl⟩ := Prod.mk.inj h2
      obtain ⟨h3, h4⟩ := ih h1
      refine ⟨by rw [h3]; simp, fun x' y' e => ?_⟩
      cases x' with
      | nil => exact absurd (List.isPrefixOf_iff_prefix.2 ⟨y', by rw [e]; simp⟩) hp
      | cons c' x' =>
        simp only [List.cons_append, List.cons.injEq] at e
        exact Nat.succ_le_succ (h4 x' y' e.2)

private theorem findDelim_none {d s : Bytes} (h : findDelim d s = none) : ¬ d <:+: s := by
  induction s with
  | nil =>
    unfold findDelim at h
    split_ifs at h with hd
    intro e
    exact hd (List.infix_nil.1 e)
  | cons c s ih =>
    unfold findDelim at h
    split_ifs at h with hp
    intro e
    rcases List.infix_cons_iff.1 e with e | e
    · exact hp (List.isPrefixOf_iff_prefix.2 e)
    · exact ih (by simpa using h) e

/-- A token up to a delimiter: the line (what is left of it, or a new one) is cut at the first place where the
delimiter stands, and the delimiter is dropped; if it stands nowhere, all of the line is the token. -/
theorem C48_delim (d : Bytes) (hd : d ≠ []) (s : St) (line : Bytes) (hl : s.tokens = some line) (hne : line ≠ []) :
    (¬ d <:+: line ∧ readtoken (some d) s = (some line, { s with tokens := none })) ∨
    ∃ x y, line = x ++ d ++ y ∧ (∀ x' y', line = x' ++ d ++ y' → x.length ≤ x'.length) ∧
      readtoken (some d) s = (some x, { s with tokens := some y }) := by
  have e : readtoken (some d) s = takeToken (some d) line s := by
    obtain ⟨c, r, rfl⟩ := List.exists_cons_of_ne_nil hne
    unfold readtoken
    simp only [hl]
  rw [e]
  unfold takeToken split splitDelim
  simp only [if_neg hd]
  cases h : findDelim d line with
  | none => exact .inl ⟨findDelim_none h, rfl⟩
  | some p =>
    obtain ⟨h1, h2⟩ := findDelim_some hd h
    exact .inr ⟨p.1, p.2, h1, h2, rfl⟩

/-- A new line is only asked for when nothing is left of the last one. -/
theorem C48_delim_line (delim : Option Bytes) (s : St) (hl : s.tokens = none ∨ s.tokens = some []) (hr : s.rest ≠ [])
    (hne : rstrip (readline s.rest).1 ≠ []) :
    readtoken delim s = readtoken delim { s with rest := (readline s.rest).2, tokens := some (rstrip (readline s.rest).1) } := by
  rcases readln_cases true s with ⟨h1, _⟩ | ⟨_, h2⟩
  · exact absurd h1 hr
  · obtain ⟨c, r, e⟩ := List.exists_cons_of_ne_nil hne
    have e2 : readtoken delim s = takeToken delim (rstrip (readline s.rest).1) { s with rest := (readline s.rest).2 } := by
      unfold readtoken
      rcases hl with hl | hl <;> simp only [hl, h2, if_true]
    rw [e2]
    unfold readtoken
    simp only [e]
    unfold takeToken
    split <;> rfl

example : (readtoken (some (b ", ")) ⟨b "z", some (b "a, b, c")⟩).1 = some (b "a") := by decide +kernel

/-- The empty field after a last delimiter is lost, and an empty delimiter is not refused. -/
theorem C48_delim_fails :
    (∃ s : St, s.tokens = some (b "a,") ∧ (readtoken (some (b ",")) s).1 = some (b "a") ∧
      (readtoken (some (b ",")) (readtoken (some (b ",")) s).2).1 = none)
    ∧ ∃ s : St, s.tokens = some (b "a b") ∧ (readtoken (some []) s).1 = some (b "a b") :=
  ⟨⟨⟨[], some (b "a,")⟩, rfl, by decide +kernel, by decide +kernel⟩, ⟨⟨[], some (b "a b")⟩, rfl, by decide +kernel⟩⟩

/-! ## Integers -/

private def step (a : Nat) (c : Byte) : Nat := a * 10 + (c.toNat - 48)

private theorem digit_iff (c : Byte) : (48 ≤ c ∧ c ≤ 57) ↔ IsDigit c := by
  constructor
  · rintro ⟨h1, h2⟩
    have h1 : 48 ≤ c.toNat := UInt8.le_iff_toNat_le.1 h1
    have h2 : c.toNat ≤ 57 := UInt8.le_iff_toNat_le.1 h2
    refine ⟨c.toNat - 48, by omega, ?_⟩
    rw [show 48 + (c.toNat - 48) = c.toNat by omega, UInt8.ofNat_toNat]
  · rintro ⟨n, hn, rfl⟩
    have : (UInt8.ofNat (48 + n)).toNat = 48 + n := by
      rw [UInt8.toNat_ofNat']
      omega
    constructor <;> rw [UInt8.le_iff_toNat_le, this]
    · show 48 ≤ _; omega
    · show _ ≤ 57; omega

private theorem digit_not_underscore {c : Byte} (h : IsDigit c) : c ≠ 95 := by
  intro e
  have := ((digit_iff c).2 h).2
  rw [e] at this
  exact absurd this (by decide)

private theorem digit_not_white {c : Byte} (h : IsDigit c) : isWhite c = false := by
  obtain ⟨n, hn, rfl⟩ := h
  revert n
  decide

private theorem scan_false (s : Bytes) : ∀ (acc n : Nat),
    (scanDigits false acc s = some n ↔ ∃ (ds : Bytes) (gs : List Bytes), s = ds ++ gs.flatMap (95 :: ·) ∧ (∀ c ∈ ds, IsDigit c) ∧
      (∀ g ∈ gs, g ≠ [] ∧ ∀ c ∈ g, IsDigit c) ∧ n = (ds ++ gs.flatten).foldl step acc) ∧
    (scanDigits true acc s = some n ↔ ∃ (ds : Bytes) (gs : List Bytes), s = ds ++ gs.flatMap (95 :: ·) ∧ ds ≠ [] ∧ (∀ c ∈ ds, IsDigit c) ∧
      (∀ g ∈ gs, g ≠ [] ∧ ∀ c ∈ g, IsDigit c) ∧ n = (ds ++ gs.flatten).foldl step acc) := by
  induction s with
  | nil =>
    intro acc n
    constructor
    · show some acc = some n ↔ _
      constructor
      · intro h
        exact ⟨[], [], rfl, by simp, by simp, by simpa using h.symm⟩
      · rintro ⟨ds, gs, h1, _, h3, h4⟩
        have h5 := List.append_eq_nil_iff.1 h1.symm
        have : gs = [] := by
          cases gs with
          | nil => rfl
          | cons g gs => simp at h5
        rw [h4, h5.1, this]
        rfl
    · show none = some n ↔ _
      constructor
      · intro h; exact nomatch h
      · rintro ⟨ds, gs, h1, h2, _⟩
        exact absurd (List.append_eq_nil_iff.1 h1.symm).1 h2
  | cons c s ih =>
    intro acc n
    by_cases hu : c = 95
    · subst hu
      constructor
      · rw [show scanDigits false acc (95 :: s) = scanDigits true acc s from rfl, (ih acc n).2]
        constructor
        · rintro ⟨ds, gs, h1, h2, h3, h4, h5⟩
          refine ⟨[], ds :: gs, by simp [h1], by simp, ?_, by simpa using h5⟩
          intro g hg
          rcases List.mem_cons.1 hg with rfl | hg
          · exact ⟨h2, h3⟩
          · exact h4 g hg
        · rintro ⟨ds, gs, h1, h2, h3, h4⟩
          cases ds with
          | cons d ds =>
            simp only [List.cons_append, List.cons.injEq] at h1
            exact absurd h1.1.symm (digit_not_underscore (h2 d (by simp)))
          | nil =>
            cases gs with
            | nil => simp at h1
            | cons g gs =>
              simp at h1
              exact ⟨g, gs, h1, (h3 g (by simp)).1, (h3 g (by simp)).2, fun g' hg' => h3 g' (by simp [hg']), by simpa using h4⟩
      · rw [show scanDigits true acc (95 :: s) = none from rfl]
        constructor
        · intro h; exact nomatch h
        · rintro ⟨ds, gs, h1, h2, h3, _⟩
          obtain ⟨d, ds, rfl⟩ := List.exists_cons_of_ne_nil h2
          simp only [List.cons_append, List.cons.injEq] at h1
          exact absurd h1.1.symm (digit_not_underscore (h3 d (by simp)))
    · by_cases hd : 48 ≤ c ∧ c ≤ 57
      · have e : ∀ us, scanDigits us acc (c :: s) = scanDigits false (step acc c) s := by
          intro us
          rw [scanDigits, if_neg hu, if_pos hd]
          rfl
        have main : scanDigits false (step acc c) s = some n ↔ ∃ (ds : Bytes) (gs : List Bytes), c :: s = ds ++ gs.flatMap (95 :: ·) ∧ ds ≠ [] ∧ (∀ c ∈ ds, IsDigit c) ∧
            (∀ g ∈ gs, g ≠ [] ∧ ∀ c ∈ g, IsDigit c) ∧ n = (ds ++ gs.flatten).foldl step acc := by
          rw [(ih (step acc c) n).1]
          constructor
          · rintro ⟨ds, gs, h1, h2, h3, h4⟩
            refine ⟨c :: ds, gs, by simp [h1], by simp, ?_, h3, h4⟩
            intro x hx
            rcases List.mem_cons.1 hx with rfl | hx
            · exact (digit_iff _).1 hd
            · exact h2 x hx
          · rintro ⟨ds, gs, h1, h2, h3, h4, h5⟩
            obtain ⟨d, ds, rfl⟩ := List.exists_cons_of_ne_nil h2
            simp only [List.cons_append, List.cons.injEq] at h1
            obtain ⟨rfl, h1⟩ := h1
            exact ⟨ds, gs, h1, fun x hx => h3 x (by simp [hx]), h4, h5⟩
        rw [e, e, main]
        refine ⟨⟨?_, ?_⟩, Iff.rfl⟩
        · rintro ⟨ds, gs, h1, _, h⟩
          exact ⟨ds, gs, h1, h⟩
        · rintro ⟨ds, gs, h1, h⟩
          refine ⟨ds, gs, h1, ?_, h⟩
          rintro rfl
          cases gs with
          | nil => simp at h1
          | cons g gs =>
            simp at h1
            exact hu h1.1
      · have e : ∀ us, scanDigits us acc (c :: s) = none := by
          intro us
          rw [scanDigits, if_neg hu, if_neg hd]
        rw [e, e]
        have no : ∀ (ds : Bytes) (gs : List Bytes), c :: s = ds ++ gs.flatMap (95 :: ·) → (∀ c ∈ ds, IsDigit c) → False := by
          intro ds gs h1 h2
          cases ds with
          | nil =>
            cases gs with
            | nil => simp at h1
            | cons g gs => simp at h1; exact hu h1.1
          | cons d ds =>
            simp only [List.cons_append, List.cons.injEq] at h1
            rw [h1.1] at hd
            exact hd ((digit_iff d).2 (h2 d (by simp)))
        refine ⟨⟨fun h => ?_, fun ⟨ds, gs, h1, h2, _⟩ => (no ds gs h1 h2).elim⟩,
          ⟨fun h => ?_, fun ⟨ds, gs, h1, _, h2, _⟩ => (no ds gs h1 h2).elim⟩⟩ <;> exact nomatch h

private theorem foldl_value (ds : Bytes) : ds.foldl step 0 = value ds := by
  induction ds using List.reverseRecOn with
  | nil => rfl
  | append_singleton ds c ih =>
    rw [List.foldl_append, ih]
    unfold value
    rw [List.reverse_append, List.reverse_singleton, List.singleton_append, List.map_cons, Nat.ofDigits_cons]
    show _ * 10 + (c.toNat - 48) = _
    rw [Nat.add_comm, Nat.mul_comm]

private theorem intersperse_flatten (g : Bytes) (gs : List Bytes) : ((g :: gs).intersperse [95]).flatten = g ++ gs.flatMap (95 :: ·) := by
  induction gs generalizing g with
  | nil => simp
  | cons g' gs ih =>
    rw [List.intersperse_cons_cons, List.flatten_cons, List.flatten_cons, ih]
    simp

private theorem parseNat_iff (s : Bytes) (n : Nat) : parseNat s = some n ↔
    ∃ gs : List Bytes, s = (gs.intersperse [95]).flatten ∧ gs ≠ [] ∧ (∀ g ∈ gs, g ≠ [] ∧ ∀ c ∈ g, IsDigit c) ∧ n = value gs.flatten := by
  have e : parseNat s = some n ↔ scanDigits true 0 s = some n := by
    cases s with
    | nil => constructor <;> intro h <;> exact nomatch h
    | cons c s =>
      rw [parseNat, scanDigits]
      by_cases hu : c = 95
      · subst hu
        simp
      · rw [if_neg hu]
        simp
  rw [e, ((scan_false s) 0 n).2]
  constructor
  · rintro ⟨ds, gs, h1, h2, h3, h4, h5⟩
    refine ⟨ds :: gs, by rw [intersperse_flatten, h1], by simp, ?_, by rw [h5, foldl_value]; rfl⟩
    intro g hg
    rcases List.mem_cons.1 hg with rfl | hg
    · exact ⟨h2, h3⟩
    · exact h4 g hg
  · rintro ⟨gs, h1, h2, h3, h4⟩
    obtain ⟨g, gs, rfl⟩ := List.exists_cons_of_ne_nil h2
    rw [intersperse_flatten] at h1
    exact ⟨g, gs, h1, (h3 g (by simp)).1, (h3 g (by simp)).2, fun g' hg' => h3 g' (by simp [hg']), by rw [h4, ← foldl_value]; rfl⟩

private theorem parseInt_iff (t : Bytes) (v : Int) : parseInt t = some v ↔ IntText t v := by
  -- the text without the blanks
  have core : IntText t v ↔ ∃ (sign : Bytes) (gs : List Bytes), strip t = sign ++ (gs.intersperse [95]).flatten ∧ gs ≠ [] ∧
      (∀ g ∈ gs, g ≠ [] ∧ ∀ c ∈ g, IsDigit c) ∧
      (sign = [] ∧ v = value gs.flatten ∨ sign = [43] ∧ v = value gs.flatten ∨ sign = [45] ∧ v = -(value gs.flatten : Int)) := by
    constructor
    · rintro ⟨pre, sign, gs, post, h1, h2, h3, h4, h5, h6⟩
      refine ⟨sign, gs, ?_, h4, h5, h6⟩
      rw [h1, List.append_assoc pre]
      have hmem : ∀ c ∈ (gs.intersperse [95]).flatten, isWhite c = false := by
        obtain ⟨g, gs, rfl⟩ := List.exists_cons_of_ne_nil h4
        rw [intersperse_flatten]
        intro c hc
        rcases List.mem_append.1 hc with hc | hc
        · exact digit_not_white ((h5 g (by simp)).2 c hc)
        · obtain ⟨g', hg', hc⟩ := List.mem_flatMap.1 hc
          rcases List.mem_cons.1 hc with rfl | hc
          · decide
          · exact digit_not_white ((h5 g' (by simp [hg'])).2 c hc)
      have hall : ∀ c ∈ sign ++ (gs.intersperse [95]).flatten, isWhite c = false := by
        intro c hc
        rcases List.mem_append.1 hc with hc | hc
        · rcases h6 with ⟨rfl, _⟩ | ⟨rfl, _⟩ | ⟨rfl, _⟩
          · simp at hc
          · simp at hc; rw [hc]; decide
          · simp at hc; rw [hc]; decide
        · exact hmem c hc
      refine strip_core h2 h3 (fun c r e => hall c (by rw [e]; simp)) (fun c r e => hall c (by rw [e]; simp)) ?_
      intro e
      have := (List.append_eq_nil_iff.1 e).2
      obtain ⟨g, gs, rfl⟩ := List.exists_cons_of_ne_nil h4
      rw [intersperse_flatten] at this
      exact (h5 g (by simp)).1 (List.append_eq_nil_iff.1 this).1
    · rintro ⟨sign, gs, h1, h4, h5, h6⟩
      obtain ⟨pre, post, h2, h3, h7⟩ := strip_decomp t
      refine ⟨pre, sign, gs, post, ?_, h3, h7, h4, h5, h6⟩
      rw [h1] at h2
      conv_lhs => rw [h2]
      simp
  rw [core]
  have first : ∀ gs : List Bytes, gs ≠ [] → (∀ g ∈ gs, g ≠ [] ∧ ∀ c ∈ g, IsDigit c) → ∃ c r, (gs.intersperse [95]).flatten = c :: r ∧ IsDigit c := by
    intro gs h4 h5
    obtain ⟨g, gs, rfl⟩ := List.exists_cons_of_ne_nil h4
    rw [intersperse_flatten]
    obtain ⟨c, r, e⟩ := List.exists_cons_of_ne_nil (h5 g (by simp)).1
    exact ⟨c, r ++ gs.flatMap (95 :: ·), by rw [e]; rfl, (h5 g (by simp)).2 c (by rw [e]; simp)⟩
  have d45 : ¬ IsDigit 45 := fun h => absurd ((digit_iff 45).2 h) (by decide)
  have d43 : ¬ IsDigit 43 := fun h => absurd ((digit_iff 43).2 h) (by decide)
  unfold parseInt
  split
  · rename_i s hs
    rw [hs, Option.map_eq_some_iff]
    constructor
    · rintro ⟨n, h1, h2⟩
      obtain ⟨gs, h3, h4, h5, h6⟩ := (parseNat_iff s n).1 h1
      exact ⟨[45], gs, by rw [h3]; rfl, h4, h5, .inr (.inr ⟨rfl, by rw [← h2, h6]⟩)⟩
    · rintro ⟨sign, gs, h1, h2, h3, h4⟩
      obtain ⟨c, r, e, hc⟩ := first gs h2 h3
      rcases h4 with ⟨rfl, _⟩ | ⟨rfl, _⟩ | ⟨rfl, h4⟩
      · rw [e] at h1; simp at h1; exact absurd (h1.1 ▸ hc) d45
      · simp at h1
      · simp at h1
        exact ⟨_, (parseNat_iff s _).2 ⟨gs, h1, h2, h3, rfl⟩, h4.symm⟩
  · rename_i s hs
    rw [hs, Option.map_eq_some_iff]
    constructor
    · rintro ⟨n, h1, h2⟩
      obtain ⟨gs, h3, h4, h5, h6⟩ := (parseNat_iff s n).1 h1
      exact ⟨[43], gs, by rw [h3]; rfl, h4, h5, .inr (.inl ⟨rfl, by rw [← h2, h6]⟩)⟩
    · rintro ⟨sign, gs, h1, h2, h3, h4⟩
      obtain ⟨c, r, e, hc⟩ := first gs h2 h3
      rcases h4 with ⟨rfl, _⟩ | ⟨rfl, h4⟩ | ⟨rfl, _⟩
      · rw [e] at h1; simp at h1; exact absurd (h1.1 ▸ hc) d43
      · simp at h1
        exact ⟨_, (parseNat_iff s _).2 ⟨gs, h1, h2, h3, rfl⟩, h4.symm⟩
      · simp at h1
  · rename_i h45 h43
    rw [Option.map_eq_some_iff]
    constructor
    · rintro ⟨n, h1, h2⟩
      obtain ⟨gs, h3, h4, h5, h6⟩ := (parseNat_iff _ n).1 h1
      exact ⟨[], gs, h3, h4, h5, .inl ⟨rfl, by rw [← h2, h6]⟩⟩
    · rintro ⟨sign, gs, h1, h2, h3, h4⟩
      rcases h4 with ⟨rfl, h4⟩ | ⟨rfl, _⟩ | ⟨rfl, _⟩
      · exact ⟨_, (parseNat_iff _ _).2 ⟨gs, h1, h2, h3, rfl⟩, h4.symm⟩
      · exact absurd h1 (h43 _)
      · exact absurd h1 (h45 _)

/-- The value of an integer's text is unique. -/
theorem C48_int_unique (t : Bytes) (v w : Int) (h1 : IntText t v) (h2 : IntText t w) : v = w :=
  Option.some.inj (((parseInt_iff t v).2 h1).symm.trans ((parseInt_iff t w).2 h2))

/-- An integer is returned exactly when the token is the text of an integer, not too long, and inside the
bounds (both included). -/
theorem C48_int (lo hi : Option Int) (delim : Option Bytes) (s : St) (t : Bytes) (s' : St) (ht : readtoken delim s = (some t, s')) (v : Int) :
    readint lo hi delim s = (.ok v, s') ↔ t.length ≤ 10000 ∧ IntText t v ∧ (∀ l ∈ lo, l ≤ v) ∧ ∀ h ∈ hi, v ≤ h := by
  have hr : ∀ v, inRange lo hi v = true ↔ (∀ l ∈ lo, l ≤ v) ∧ ∀ h ∈ hi, v ≤ h := by
    intro v
    unfold inRange
    cases lo <;> cases hi <;> simp
  rw [← parseInt_iff, ← hr]
  unfold readint
  rw [ht]
  simp only
  by_cases hlen : t.length > 10000
  · rw [if_pos hlen]
    constructor
    · intro h; exact nomatch h
    · rintro ⟨h, _⟩; omega
  · rw [if_neg hlen]
    have hlen : t.length ≤ 10000 := by omega
    cases hp : parseInt t with
    | none =>
      constructor
      · intro h
        have := (Prod.mk.inj h).1
        split_ifs at this
      · rintro ⟨_, h, _⟩; exact nomatch h
    | some w =>
      by_cases h1 : inRange lo hi w = true
      · simp only [h1, Bool.not_true, Bool.false_eq_true, if_false, Prod.mk.injEq, and_true, Num?.ok.injEq, Option.some.injEq]
        constructor
        · rintro rfl; exact ⟨hlen, rfl, h1⟩
        · rintro ⟨_, h, _⟩; exact h
      · have h1 : inRange lo hi w = false := by simpa using h1
        simp only [h1, Bool.not_false, if_true, Prod.mk.injEq, and_true, Option.some.injEq]
        constructor
        · intro h; split_ifs at h
        · rintro ⟨_, rfl, h⟩; rw [h1] at h; exact nomatch h

private theorem decodes_iff (t : Bytes) : decodes t = true ↔ IsText t := by
  unfold decodes IsText
  rw [ByteArray.validateUTF8_eq_true_iff]
  constructor
  · rintro ⟨m, h⟩
    refine ⟨m, ?_⟩
    have := congrArg (fun b : ByteArray => b.data.toList) h
    simpa [List.utf8Encode] using this
  · rintro ⟨cs, h⟩
    refine ⟨cs, ?_⟩
    apply ByteArray.ext
    simp [List.utf8Encode, h]

/-- Otherwise the answer is wrong, if the token is text and the bounds fit a double. What is missing:
`C48_internal_fails`. -/
theorem C48_int_else_partial (lo hi : Option Int) (delim : Option Bytes) (s : St) (t : Bytes) (s' : St) (ht : readtoken delim s = (some t, s'))
    (hn : ¬ ∃ v, t.length ≤ 10000 ∧ IntText t v ∧ (∀ l ∈ lo, l ≤ v) ∧ ∀ h ∈ hi, v ≤ h)
    (htext : IsText t) (hlo : ∀ l ∈ lo, l.natAbs < 2 ^ 1023) (hhi : ∀ h ∈ hi, h.natAbs < 2 ^ 1023) :
    readint lo hi delim s = (.wrongAnswer, s') := by
  have hf : ∀ o : Option Int, (∀ l ∈ o, l.natAbs < 2 ^ 1023) → formats o = true := by
    intro o h
    cases o with
    | none => rfl
    | some n =>
      have := h n rfl
      simp only [formats, decide_eq_true_eq]
      exact Nat.lt_of_lt_of_le this (by decide +kernel)
  have hno : ∀ v, readint lo hi delim s ≠ (.ok v, s') := fun v h => hn ⟨v, (C48_int lo hi delim s t s' ht v).1 h⟩
  unfold readint at hno ⊢
  rw [ht] at hno ⊢
  simp only at hno ⊢
  by_cases h : t.length > 10000
  · rw [if_pos h]
  · simp only [if_neg h] at hno ⊢
    cases hp : parseInt t with
    | none => simp only [(decodes_iff t).2 htext, if_true]
    | some v =>
      simp only [hp] at hno ⊢
      by_cases h1 : inRange lo hi v = true
      · simp only [h1] at hno
        exact absurd rfl (hno v)
      · have h1 : inRange lo hi v = false := by simpa using h1
        simp only [h1, hf lo hlo, hf hi hhi]
        rfl

/-- No token: the end of the stream. -/
theorem C48_int_eof (lo hi : Option Int) (delim : Option Bytes) (s s' : St) (ht : readtoken delim s = (none, s')) :
    readint lo hi delim s = (.ioError, s') := by
  unfold readint
  rw [ht]

/-- A token that is not text ends the case in an internal error instead of a wrong answer; so does a bound too
large to be written in the message. -/
theorem C48_internal_fails :
    (∃ (s : St) (t : Bytes), (readtoken none s).1 = some t ∧ (¬ ∃ v, IntText t v) ∧ (readint (some 1) (some 100) none s).1 = .internal)
    ∧ ∃ (s : St) (v hi : Int), (∀ t ∈ (readtoken none s).1, IntText t v ∧ v < 1) ∧ (readtoken none s).1 ≠ none ∧
        (readint (some 1) (some hi) none s).1 = .internal := by
  refine ⟨⟨⟨[255, 10], none⟩, [255], by decide +kernel, ?_, ?_⟩, ⟨⟨b "0\n", none⟩, 0, 2 ^ 1024, ?_, by decide +kernel, by decide +kernel⟩⟩
  · rintro ⟨v, h⟩
    have := (parseInt_iff [255] v).2 h
    rw [show parseInt [255] = none by decide +kernel] at this
    exact nomatch this
  · decide +kernel
  · intro t h
    rw [show (readtoken none ⟨b "0\n", none⟩).1 = some (b "0") by decide +kernel] at h
    obtain rfl := Option.some.inj h
    exact ⟨(parseInt_iff _ _).1 (by decide +kernel), by decide⟩

example : IntText (b "-1_000") (-1000) := (parseInt_iff _ _).1 (by decide +kernel)

/-- A float is returned only inside the bounds, and NaN never. -/
theorem C48_float (parse : Bytes → Option Checkers.XRat) (lo hi : Checkers.XRat) (delim : Option Bytes) (s : St) (v : Checkers.XRat) (s' : St)
    (h : readfloat parse lo hi delim s = (.ok v, s')) :
    ∃ t, readtoken delim s = (some t, s') ∧ t.length ≤ 10000 ∧ parse t = some v ∧ v ≠ .nan ∧ lo.le v = true ∧ v.le hi = true := by
  unfold readfloat at h
  split at h
  · exact nomatch (Prod.mk.inj h).1
  · rename_i t s1 ht
    by_cases hl : t.length > 10000
    · rw [if_pos hl] at h
      exact nomatch (Prod.mk.inj h).1
    · rw [if_neg hl] at h
      split at h
      · have := (Prod.mk.inj h).1
        split_ifs at this
      · rename_i w hw
        split_ifs at h with hr
        · exact nomatch (Prod.mk.inj h).1
        · have h1 := (Prod.mk.inj h).1
          have h2 := (Prod.mk.inj h).2
          cases h1
          subst h2
          have hr : lo.le v = true ∧ v.le hi = true := by simpa using hr
          refine ⟨t, ht, by omega, hw, ?_, hr.1, hr.2⟩
          rintro rfl
          exact nomatch hr.2

/-- Any other token is a wrong answer, if it is text. What is missing: the same as `C48_internal_fails`. -/
theorem C48_float_else_partial (parse : Bytes → Option Checkers.XRat) (lo hi : Checkers.XRat) (delim : Option Bytes) (s : St) (t : Bytes) (s' : St)
    (ht : readtoken delim s = (some t, s'))
    (hn : ¬ ∃ v, t.length ≤ 10000 ∧ parse t = some v ∧ lo.le v = true ∧ v.le hi = true) (htext : IsText t) :
    readfloat parse lo hi delim s = (.wrongAnswer, s') := by
  unfold readfloat
  rw [ht]
  simp only
  by_cases h : t.length > 10000
  · rw [if_pos h]
  · rw [if_neg h]
    cases hp : parse t with
    | none => simp only [(decodes_iff t).2 htext, if_true]
    | some v =>
      simp only
      rw [if_pos]
      by_contra hc
      have hr : lo.le v = true ∧ v.le hi = true := by simpa using hc
      exact hn ⟨v, by omega, hp, hr.1, hr.2⟩

/-- A token that is a float within the bounds is returned. -/
theorem C48_float_ok (parse : Bytes → Option Checkers.XRat) (lo hi : Checkers.XRat) (delim : Option Bytes) (s : St) (t : Bytes) (s' : St) (v : Checkers.XRat)
    (ht : readtoken delim s = (some t, s')) (hl : t.length ≤ 10000) (hp : parse t = some v) (h1 : lo.le v = true) (h2 : v.le hi = true) :
    readfloat parse lo hi delim s = (.ok v, s') := by
  unfold readfloat
  rw [ht]
  simp only
  rw [if_neg (by omega), hp]
  simp only [h1, h2]
  rfl

/-- No token: the end of the stream. -/
theorem C48_float_eof (parse : Bytes → Option Checkers.XRat) (lo hi : Checkers.XRat) (delim : Option Bytes) (s s' : St)
    (ht : readtoken delim s = (none, s')) : readfloat parse lo hi delim s = (.ioError, s') := by
  unfold readfloat
  rw [ht]

example : ∃ t s', readtoken none { rest := b "7 x\n" } = (some t, s') ∧ t = b "7" ∧ s'.tokens = some (b "x") ∧ IsText t :=
  ⟨b "7", ⟨[], some (b "x")⟩, by decide +kernel, rfl, rfl, (decodes_iff _).1 (by decide +kernel)⟩

end Verif.Interactor
