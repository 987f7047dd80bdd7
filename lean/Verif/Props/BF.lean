import Verif.Model.BF
import Verif.Spec.BF
import Mathlib.Tactic.SplitIfs

/-!
# C47 Brainf*** translation
-/

namespace Verif.BF
open Verif.BF.Spec

private theorem invalid_other {c : Byte} (h1 : c ≠ 91) (h2 : c ≠ 93) (n : Nat) (cs : Bytes) :
    invalidLoop n (c :: cs) = invalidLoop n cs := by
  rw [invalidLoop, if_neg h1, if_neg h2]

private theorem invalid_open (n : Nat) (cs : Bytes) : invalidLoop n (91 :: cs) = invalidLoop (n + 1) cs := by
  rw [invalidLoop, if_pos rfl]

private theorem invalid_close (n : Nat) (cs : Bytes) : invalidLoop (n + 1) (93 :: cs) = invalidLoop n cs := by
  rw [invalidLoop, if_neg (by decide), if_pos rfl, if_neg (by simp), Nat.add_sub_cancel]

private theorem op_char (o : Op) : o.char ≠ 91 ∧ o.char ≠ 93 := by cases o <;> decide

private theorem invalid_parses {src : Bytes} {p : List Cmd} (h : Parses src p) :
    ∀ n rest, invalidLoop n (src ++ rest) = invalidLoop n rest := by
  induction h with
  | nil => intros; rfl
  | comment hc _ ih =>
    intro n rest
    rw [List.cons_append, invalid_other (fun e => hc (.inr (.inl e))) (fun e => hc (.inr (.inr e))), ih]
  | op o _ ih =>
    intro n rest
    rw [List.cons_append, invalid_other (op_char o).1 (op_char o).2, ih]
  | loop _ _ ih1 ih2 =>
    intro n rest
    rw [List.cons_append, List.append_assoc, invalid_open, ih1, List.cons_append, invalid_close, ih2]

private theorem parses_of_valid : ∀ (k : Nat) (src : Bytes), src.length ≤ k →
    (invalidLoop 0 src = false → ∃ p, Parses src p) ∧
    ∀ n, invalidLoop (n + 1) src = false → ∃ inner rest p, src = inner ++ 93 :: rest ∧ Parses inner p ∧ invalidLoop n rest = false := by
  intro k
  induction k with
  | zero =>
    intro src hl
    have : src = [] := List.length_eq_zero_iff.1 (Nat.le_zero.1 hl)
    subst this
    exact ⟨fun _ => ⟨[], .nil⟩, fun n h => by simp [invalidLoop] at h⟩
  | succ k ih =>
    intro src hl
    cases src with
    | nil => exact ⟨fun _ => ⟨[], .nil⟩, fun n h => by simp [invalidLoop] at h⟩
    | cons c cs =>
      have hl' : cs.length ≤ k := Nat.le_of_succ_le_succ hl
      -- a loop at the front
      have front : ∀ n, invalidLoop (n + 1) cs = false → ∃ inner rest p, cs = inner ++ 93 :: rest ∧ Parses inner p ∧
          invalidLoop n rest = false ∧ rest.length ≤ k := by
        intro n h
        obtain ⟨inner, rest, p, e, h1, h2⟩ := (ih cs hl').2 n h
        refine ⟨inner, rest, p, e, h1, h2, ?_⟩
        rw [e] at hl'
        simp at hl'
        omega
      by_cases h91 : c = 91
      · subst h91
        refine ⟨fun h => ?_, fun n h => ?_⟩
        · rw [invalid_open] at h
          obtain ⟨inner, rest, p, e, h1, h2, h3⟩ := front 0 h
          obtain ⟨q, hq⟩ := (ih rest h3).1 h2
          exact ⟨_, by rw [e]; exact .loop h1 hq⟩
        · rw [invalid_open] at h
          obtain ⟨inner, rest, p, e, h1, h2, h3⟩ := front (n + 1) h
          obtain ⟨inner', rest', q, e', h4, h5⟩ := (ih rest h3).2 n h2
          refine ⟨91 :: (inner ++ 93 :: inner'), rest', _, ?_, .loop h1 h4, h5⟩
          rw [e, e']
          simp
      · by_cases h93 : c = 93
        · subst h93
          refine ⟨fun h => ?_, fun n h => ?_⟩
          · rw [invalidLoop, if_neg (by decide), if_pos rfl, if_pos rfl] at h
            exact nomatch h
          · rw [invalid_close] at h
            exact ⟨[], cs, [], rfl, .nil, h⟩
        · have ext : ∀ src p, Parses src p → ∃ p, Parses (c :: src) p := by
            intro src p h
            by_cases hm : Meant c
            · rcases hm with ⟨o, rfl⟩ | h | h
              · exact ⟨_, .op o h⟩
              · exact absurd h h91
              · exact absurd h h93
            · exact ⟨_, .comment hm h⟩
          refine ⟨fun h => ?_, fun n h => ?_⟩
          · rw [invalid_other h91 h93] at h
            obtain ⟨p, hp⟩ := (ih cs hl').1 h
            exact ext cs p hp
          · rw [invalid_other h91 h93] at h
            obtain ⟨inner, rest, p, e, h1, h2⟩ := (ih cs hl').2 n h
            obtain ⟨q, hq⟩ := ext inner p h1
            exact ⟨c :: inner, rest, q, by rw [e]; rfl, hq, h2⟩

/-- Source text is accepted exactly if it is a BF program. -/
theorem C47_accepts (src : Bytes) : (compile src).isSome = true ↔ ∃ p, Parses src p := by
  unfold compile hasInvalidBrackets
  constructor
  · intro h
    split_ifs at h with hi
    · exact nomatch h
    · exact (parses_of_valid src.length src (Nat.le_refl _)).1 (by simpa using hi)
  · rintro ⟨p, hp⟩
    have := invalid_parses hp 0 []
    rw [List.append_nil] at this
    rw [this]
    rfl

example : (compile (b "+[>[-]<]")).isSome = true := by decide +kernel
example : (compile (b "+[>]]")).isSome = false := by decide +kernel

private theorem invalid_counts (src : Bytes) : ∀ n, invalidLoop n src = false ↔
    (∀ pre, pre <+: src → pre.count 93 ≤ pre.count 91 + n) ∧ src.count 93 = src.count 91 + n := by
  induction src with
  | nil =>
    intro n
    simp [invalidLoop]
    omega
  | cons c cs ih =>
    intro n
    have prefixes : ∀ P : Bytes → Prop, (∀ pre, pre <+: c :: cs → P pre) ↔ P [] ∧ ∀ pre, pre <+: cs → P (c :: pre) := by
      intro P
      constructor
      · intro h
        exact ⟨h [] (List.nil_prefix), fun pre hp => h _ (List.cons_prefix_cons.2 ⟨rfl, hp⟩)⟩
      · rintro ⟨h1, h2⟩ pre hp
        cases pre with
        | nil => exact h1
        | cons d pre =>
          obtain ⟨rfl, hp'⟩ := List.cons_prefix_cons.1 hp
          exact h2 pre hp'
    rw [prefixes]
    by_cases h91 : c = 91
    · subst h91
      rw [invalid_open, ih (n + 1)]
      simp only [List.count_cons, List.count_nil]
      simp only [show ((91 : UInt8) == 93) = false from rfl, show ((91 : UInt8) == 91) = true from rfl, if_true, Bool.false_eq_true, if_false]
      constructor
      · rintro ⟨h1, h2⟩
        exact ⟨⟨by omega, fun pre hp => by have := h1 pre hp; omega⟩, by omega⟩
      · rintro ⟨⟨_, h1⟩, h2⟩
        exact ⟨fun pre hp => by have := h1 pre hp; omega, by omega⟩
    · by_cases h93 : c = 93
      · subst h93
        simp only [List.count_cons, List.count_nil]
        simp only [show ((93 : UInt8) == 91) = false from rfl, show ((93 : UInt8) == 93) = true from rfl, if_true, Bool.false_eq_true, if_false]
        cases n with
        | zero =>
          rw [invalidLoop, if_neg (by decide), if_pos rfl, if_pos rfl]
          constructor
          · intro h; exact nomatch h
          · rintro ⟨⟨_, h1⟩, _⟩
            have := h1 [] List.nil_prefix
            simp at this
        | succ n =>
          rw [invalid_close, ih n]
          constructor
          · rintro ⟨h1, h2⟩
            exact ⟨⟨by omega, fun pre hp => by have := h1 pre hp; omega⟩, by omega⟩
          · rintro ⟨⟨_, h1⟩, h2⟩
            exact ⟨fun pre hp => by have := h1 pre hp; omega, by omega⟩
      · rw [invalid_other h91 h93, ih n]
        simp only [List.count_cons, List.count_nil]
        have e1 : (c == 91) = false := by simpa using h91
        have e2 : (c == 93) = false := by simpa using h93
        simp only [e1, e2, Bool.false_eq_true, if_false, Nat.add_zero]
        constructor
        · rintro ⟨h1, h2⟩
          exact ⟨⟨by omega, h1⟩, h2⟩
        · rintro ⟨⟨_, h1⟩, h2⟩
          exact ⟨h1, h2⟩

/-- It is rejected exactly if the brackets do not match: at some place more were closed than opened, or some are
left open. -/
theorem C47_brackets (src : Bytes) : compile src = none ↔
    ¬ ((∀ pre, pre <+: src → pre.count 93 ≤ pre.count 91) ∧ src.count 93 = src.count 91) := by
  have := invalid_counts src 0
  simp only [Nat.add_zero] at this
  rw [← this]
  unfold compile hasInvalidBrackets
  split_ifs with h
  · simp [h]
  · simp [h]

/-! ## The C program -/

private theorem replace_stop (old new : Bytes) : ∀ (k : Nat) (s : Bytes), (∀ t, t <:+ s → old.isPrefixOf t = false) → replace old new k s = s := by
  intro k
  induction k with
  | zero => intros; rfl
  | succ k ih =>
    intro s h
    cases s with
    | nil => rfl
    | cons c cs =>
      rw [replace, h _ List.suffix_rfl, if_neg (by simp), ih cs fun t ht => h t (ht.trans (List.suffix_cons c cs))]

private theorem replace_at (old new post : Bytes) (ho : old ≠ []) :
    ∀ (pre : Bytes) (k : Nat), pre.length < k → (∀ i < pre.length, old.isPrefixOf ((pre ++ old ++ post).drop i) = false) →
      (∀ t, t <:+ post → old.isPrefixOf t = false) → replace old new k (pre ++ old ++ post) = pre ++ new ++ post := by
  intro pre
  induction pre with
  | nil =>
    intro k hk _ hp
    obtain ⟨c, cs, rfl⟩ := List.exists_cons_of_ne_nil ho
    cases k with
    | zero => exact absurd hk (Nat.not_lt_zero _)
    | succ k =>
      have h1 : (c :: cs).isPrefixOf (c :: (cs ++ post)) = true := by
        rw [List.isPrefixOf_iff_prefix]
        exact ⟨post, rfl⟩
      show replace (c :: cs) new (k + 1) (c :: (cs ++ post)) = _
      rw [replace, h1, if_pos rfl]
      have : List.drop (c :: cs).length (c :: (cs ++ post)) = post := by
        simp
      rw [this, replace_stop _ _ _ _ hp]
      rfl
  | cons c pre ih =>
    intro k hk hi hp
    cases k with
    | zero => exact absurd hk (Nat.not_lt_zero _)
    | succ k =>
      have h0 := hi 0 (by simp)
      simp only [List.cons_append, List.drop_zero] at h0 ⊢
      rw [replace, h0, if_neg (by simp), ih k (by simpa using hk) ?_ hp]
      intro i hi'
      have := hi (i + 1) (by simpa using hi')
      simpa using this

/-- `old` does not begin at the first `n` places. -/
private def absent (old : Bytes) : Nat → Bytes → Bool
  | 0, _ => true
  | _ + 1, [] => !old.isPrefixOf []
  | n + 1, c :: cs => !old.isPrefixOf (c :: cs) && absent old n cs

private theorem absent_sound (old : Bytes) : ∀ (n : Nat) (s : Bytes), absent old n s = true → ∀ i < n, old.isPrefixOf (s.drop i) = false := by
  intro n
  induction n with
  | zero => intro s _ i hi; exact absurd hi (Nat.not_lt_zero _)
  | succ n ih =>
    intro s h i hi
    cases s with
    | nil => rw [List.drop_nil]; simpa [absent] using h
    | cons c cs =>
      simp only [absent, Bool.and_eq_true, Bool.not_eq_true'] at h
      cases i with
      | zero => exact h.1
      | succ i => exact ih cs h.2 i (Nat.lt_of_succ_lt_succ hi)

/-- The C program compiled is the fixed frame with the translation of the source as the rest of `main`. -/
theorem C47_frame (src c : Bytes) (h : compile src = some c) : c = before ++ body src ++ b "\n}\n" := by
  unfold compile at h
  split_ifs at h
  rw [← Option.some.inj h]
  unfold template
  apply replace_at _ _ _ (by decide)
  · rw [List.length_append, List.length_append, Nat.add_assoc]
    exact Nat.lt_add_of_pos_right (by decide)
  · exact absent_sound _ _ _ (by decide +kernel)
  · intro t ht
    have e : b "\n}\n" = [10, 125, 10] := by decide
    rw [e] at ht
    have e2 : b "{code}" = [123, 99, 111, 100, 101, 125] := by decide
    rw [e2]
    simp only [List.suffix_cons_iff, List.suffix_nil] at ht
    rcases ht with rfl | rfl | rfl | rfl <;> rfl

/-- Translation goes byte by byte: parts can be translated separately, and comments vanish. -/
theorem C47_parts (s t : Bytes) (c : Byte) : body (s ++ t) = body s ++ body t ∧ (¬ Meant c → body (c :: s) = body s) := by
  refine ⟨by simp [body], fun h => ?_⟩
  have h1 : ∀ o : Op, c ≠ o.char := fun o e => h (.inl ⟨o, e⟩)
  have : trans c = [] := by
    unfold trans
    rw [if_neg (show c ≠ 62 from h1 .right), if_neg (show c ≠ 60 from h1 .left), if_neg (show c ≠ 43 from h1 .inc),
      if_neg (show c ≠ 45 from h1 .dec), if_neg (show c ≠ 46 from h1 .out), if_neg (show c ≠ 44 from h1 .inp), if_neg (fun e => h (.inr (.inl e))), if_neg (fun e => h (.inr (.inr e)))]
  simp [body, this]

/-- Which statement stands for which command. -/
private def toC : Op → Simple
  | .right => .incPtr
  | .left => .decPtr
  | .inc => .incCell
  | .dec => .decCell
  | .out => .putchar
  | .inp => .getchar

private inductive Same : List Cmd → List Stmt → Prop where
  | nil : Same [] []
  | op {p q} (o : Op) : Same p q → Same (.op o :: p) (.simple (toC o) :: q)
  | loop {p q p' q'} : Same p q → Same p' q' → Same (.loop p :: p') (.while q :: q')

private theorem Same.append {p q p' q'} (h : Same p q) (h' : Same p' q') : Same (p ++ p') (q ++ q') := by
  induction h with
  | nil => exact h'
  | op o _ ih => exact .op o ih
  | loop h1 _ _ ih2 => exact .loop h1 ih2

private theorem trans_op (o : Op) : trans o.char = (toC o).text := by cases o <;> decide

private theorem text_of_parses {src : Bytes} {p : List Cmd} (h : Parses src p) : ∃ q, CText (body src) q ∧ Same p q := by
  induction h with
  | nil => exact ⟨[], .nil, .nil⟩
  | @comment c src p hc _ ih =>
    rw [(C47_parts src [] c).2 hc]
    exact ih
  | op o _ ih =>
    obtain ⟨q, h1, h2⟩ := ih
    refine ⟨_, ?_, .op o h2⟩
    simp only [body, List.map_cons, List.flatten_cons, trans_op]
    exact .simple _ h1
  | loop _ _ ih1 ih2 =>
    obtain ⟨q1, h1, h2⟩ := ih1
    obtain ⟨q2, h3, h4⟩ := ih2
    refine ⟨_, ?_, .loop h2 h4⟩
    have e1 : trans 91 = b "while(*p){" := rfl
    have e2 : trans 93 = b "}" := rfl
    simp only [body, List.map_cons, List.flatten_cons, List.map_append, List.flatten_append, e1, e2]
    exact .while h1 h3

/-- The rest of a text after some statements: nothing, or a closing brace. -/
private def Ends (r : Bytes) : Prop := r = [] ∨ ∃ r', r = b "}" ++ r'

private theorem simple_text (s s' : Simple) (x y : Bytes) (h : s.text ++ x = s'.text ++ y) : s = s' ∧ x = y := by
  cases s <;> cases s' <;> simp [Simple.text, b] at h <;> simp [h]

private theorem simple_while (s : Simple) (x y : Bytes) (h : s.text ++ x = b "while(*p){" ++ y) : False := by
  cases s <;> simp [Simple.text, b] at h

private theorem simple_ends (s : Simple) (x r : Bytes) (hr : Ends r) (h : s.text ++ x = r) : False := by
  rcases hr with rfl | ⟨r', rfl⟩
  · cases s <;> simp [Simple.text, b] at h
  · cases s <;> simp [Simple.text, b] at h

private theorem while_ends (x r : Bytes) (hr : Ends r) (h : b "while(*p){" ++ x = r) : False := by
  rcases hr with rfl | ⟨r', rfl⟩ <;> simp [b] at h

private theorem ctext_unique {t : Bytes} {p : List Stmt} (h : CText t p) : ∀ {t' q r r'}, CText t' q → Ends r → Ends r' →
    t ++ r = t' ++ r' → p = q ∧ r = r' := by
  induction h with
  | nil =>
    intro t' q r r' h' hr hr' e
    cases h' with
    | nil => exact ⟨rfl, e⟩
    | simple s _ => simp only [List.append_assoc] at e; exact (simple_ends _ _ _ hr e.symm).elim
    | «while» _ _ => simp only [List.append_assoc] at e; exact (while_ends _ _ hr e.symm).elim
  | simple s _ ih =>
    intro t' q r r' h' hr hr' e
    cases h' with
    | nil => simp only [List.append_assoc] at e; exact (simple_ends _ _ _ hr' e).elim
    | simple s' h2 =>
      simp only [List.append_assoc] at e
      obtain ⟨h, e'⟩ := simple_text _ _ _ _ e
      obtain ⟨rfl, h'⟩ := ih h2 hr hr' e'
      exact ⟨by rw [h], h'⟩
    | «while» _ _ => simp only [List.append_assoc] at e; exact (simple_while _ _ _ e).elim
  | «while» _ _ ih1 ih2 =>
    intro t' q r r' h' hr hr' e
    cases h' with
    | nil => simp only [List.append_assoc] at e; exact (while_ends _ _ hr' e).elim
    | simple s' h2 => simp only [List.append_assoc] at e; exact (simple_while _ _ _ e.symm).elim
    | «while» h3 h4 =>
      simp only [List.append_assoc] at e
      have e := List.append_cancel_left e
      obtain ⟨rfl, e'⟩ := ih1 h3 (.inr ⟨_, rfl⟩) (.inr ⟨_, rfl⟩) e
      obtain ⟨rfl, h⟩ := ih2 h4 hr hr' (List.append_cancel_left e')
      exact ⟨rfl, h⟩

private theorem same_step {p : List Cmd} {q : List Stmt} (h : Same p q) (s : St) :
    Same (bfStep (p, s)).1 (cStep (q, s)).1 ∧ (bfStep (p, s)).2 = (cStep (q, s)).2 := by
  cases h with
  | nil => exact ⟨.nil, rfl⟩
  | op o h => exact ⟨h, by cases o <;> rfl⟩
  | loop h1 h2 =>
    simp only [bfStep, cStep]
    by_cases hc : s.cell = 0
    · rw [if_pos hc, if_neg (show ¬ s.tape s.pos ≠ 0 from fun h => h hc)]
      exact ⟨h2, rfl⟩
    · rw [if_neg hc, if_pos (show s.tape s.pos ≠ 0 from hc)]
      exact ⟨h1.append (.loop h1 h2), rfl⟩

/-- The C text means what the source means: however the source is read as a BF program and the text as C
statements, both run in lockstep, from the same machine state: after any number of steps the tape, the position, the
input consumed and the output are the same, and the one has finished exactly if the other has. -/
theorem C47_meaning (src : Bytes) (p : List Cmd) (q : List Stmt) (hp : Parses src p) (hq : CText (body src) q) (s : St) (n : Nat) :
    (bfRun n (p, s)).2 = (cRun n (q, s)).2 ∧ ((bfRun n (p, s)).1 = [] ↔ (cRun n (q, s)).1 = []) := by
  obtain ⟨q', h1, h2⟩ := text_of_parses hp
  obtain ⟨rfl, _⟩ := ctext_unique hq h1 (r := []) (r' := []) (.inl rfl) (.inl rfl) rfl
  have key : ∀ n p q s, Same p q → Same (bfRun n (p, s)).1 (cRun n (q, s)).1 ∧ (bfRun n (p, s)).2 = (cRun n (q, s)).2 := by
    intro n
    induction n with
    | zero => exact fun p q s h => ⟨h, rfl⟩
    | succ n ih =>
      intro p q s h
      obtain ⟨h1, h2⟩ := same_step h s
      have := ih _ _ (bfStep (p, s)).2 h1
      rw [show bfRun (n + 1) (p, s) = bfRun n ((bfStep (p, s)).1, (bfStep (p, s)).2) from rfl,
        show cRun (n + 1) (q, s) = cRun n ((cStep (q, s)).1, (bfStep (p, s)).2) from by rw [h2]; rfl]
      exact this
  obtain ⟨h3, h4⟩ := key n p q s h2
  refine ⟨h4, fun e => ?_, fun e => ?_⟩
  · rw [e] at h3
    generalize (cRun n (q, s)).1 = x at *
    cases h3; rfl
  · rw [e] at h3
    generalize (bfRun n (p, s)).1 = x at *
    cases h3; rfl

/-- And it is C of that kind, in exactly one way, for every accepted source. -/
theorem C47_statements (src : Bytes) (h : (compile src).isSome = true) : ∃ q, CText (body src) q ∧ ∀ q', CText (body src) q' → q' = q := by
  obtain ⟨p, hp⟩ := (C47_accepts src).1 h
  obtain ⟨q, h1, _⟩ := text_of_parses hp
  exact ⟨q, h1, fun q' h2 => (ctext_unique h2 h1 (r := []) (r' := []) (.inl rfl) (.inl rfl) rfl).1⟩

example : ∃ p q, Parses (b ",[.,] x") p ∧ CText (body (b ",[.,] x")) q := by
  have h : (compile (b ",[.,] x")).isSome = true := by decide +kernel
  obtain ⟨p, hp⟩ := (C47_accepts _).1 h
  obtain ⟨q, hq, _⟩ := C47_statements _ h
  exact ⟨p, q, hp, hq⟩

/-- The program is given a tape of the memory limit, and itself may use 8 MiB more. -/
theorem C47_memory (m : Nat) : (launch m).1 = m * 1024 ∧ (launch m).2 * 1024 = (launch m).1 + 8 * 1024 * 1024 := by
  unfold launch
  omega

end Verif.BF
