import Verif.Model.Cli
import Verif.Spec.Cli
import Verif.Props.Commands
import Verif.Props.Ansi

/-!
# C90 The prompt of the local judge
-/

namespace Verif.Cli
open Verif.Commands Verif.Cli.Spec

/-! ## Words -/

theorem blank_iff (c : Char) : c ∈ blanks ↔ Blank c := by simp [blanks, Blank]

theorem quotes_iff (c : Char) : c ∈ quotes ↔ c = '\'' ∨ c = '"' := by simp [quotes]

/-- Zero or more pieces. -/
inductive Pieces : Str → Str → Prop where
  | nil : Pieces [] []
  | cons (t v t' v' : Str) : Piece t v → Pieces t' v' → Pieces (t ++ t') (v ++ v')

theorem word_of_pieces {t v t' v' : Str} (h : Piece t v) (hs : Pieces t' v') : Word (t ++ t') (v ++ v') := by
  induction hs generalizing t v with
  | nil => rw [List.append_nil, List.append_nil]; exact .one _ _ h
  | cons a b a' b' h1 _ ih => exact .more _ _ _ _ h (ih h1)

/-- The rest of a line within a word. -/
def Rest (s v : Str) (ws : List Str) : Prop :=
  ∃ t, Pieces t v ∧ (s = t ∧ ws = [] ∨ ∃ c s', s = t ++ c :: s' ∧ Blank c ∧ Line s' ws)

theorem Rest.cons {t v s w : Str} {ws : List Str} (hp : Piece t v) (h : Rest s w ws) : Rest (t ++ s) (v ++ w) ws := by
  obtain ⟨a, ha, h⟩ := h
  refine ⟨t ++ a, .cons _ _ _ _ hp ha, ?_⟩
  rcases h with ⟨rfl, h⟩ | ⟨c, s', rfl, h1, h2⟩
  · exact .inl ⟨rfl, h⟩
  · exact .inr ⟨c, s', by simp, h1, h2⟩

theorem Rest.line {t v s w : Str} {ws : List Str} (hp : Piece t v) (h : Rest s w ws) : Line (t ++ s) ((v ++ w) :: ws) := by
  obtain ⟨a, ha, h⟩ := h
  have hw := word_of_pieces hp ha
  rcases h with ⟨rfl, rfl⟩ | ⟨c, s', rfl, h1, h2⟩
  · exact .last _ _ hw
  · have := Line.word _ _ c s' ws hw h1 h2
    rwa [List.append_assoc] at this

/-- What is left, by state. -/
def Means (st : State) (tok : Str) (quoted : Bool) (s : Str) (ws : List Str) : Prop :=
  match st with
  | .blank => Line s ws
  | .word => (tok ≠ [] ∨ quoted = true) → ∃ v ws', Rest s v ws' ∧ ws = (tok ++ v) :: ws'
  | .quote q => (q = '\'' → ∃ t s' v ws', s = t ++ q :: s' ∧ '\'' ∉ t ∧ Rest s' v ws' ∧ ws = (tok ++ t ++ v) :: ws') ∧
      (q = '"' → ∃ t tv s' v ws', s = t ++ q :: s' ∧ Inside t tv ∧ Rest s' v ws' ∧ ws = (tok ++ tv ++ v) :: ws')
  | .escape => ∃ c s' v ws', s = c :: s' ∧ Rest s' v ws' ∧ ws = (tok ++ [c] ++ v) :: ws'
  | .escapeIn q => q = '"' → ∃ t tv s' v ws', s = t ++ q :: s' ∧ Inside ('\\' :: t) tv ∧ Rest s' v ws' ∧ ws = (tok ++ tv ++ v) :: ws'

theorem lex_sound (s : Str) : ∀ (st : State) (tok : Str) (quoted : Bool) (ws : List Str), lex st tok quoted s = some ws → Means st tok quoted s ws := by
  induction s with
  | nil =>
    intro st tok quoted ws h
    cases st with
    | blank => simp only [lex] at h; cases h; exact .nil
    | word =>
      intro hq
      simp only [lex] at h
      rw [if_neg (by rintro ⟨h1, h2⟩; rcases hq with h | h; exact h h1; rw [h2] at h; cases h)] at h
      cases h
      exact ⟨[], [], ⟨[], .nil, .inl ⟨rfl, rfl⟩⟩, by simp⟩
    | quote q => simp [lex] at h
    | escape => simp [lex] at h
    | escapeIn q => simp [lex] at h
  | cons c s ih =>
    intro st tok quoted ws h
    cases st with
    | blank =>
      simp only [lex] at h
      show Line _ _
      by_cases h1 : c ∈ blanks
      · rw [if_pos h1] at h
        exact .blank _ _ _ ((blank_iff c).1 h1) (ih _ _ _ _ h)
      rw [if_neg h1] at h
      by_cases h2 : c = '\\'
      · rw [if_pos h2] at h
        obtain ⟨d, s', v, ws', rfl, hr, rfl⟩ := ih _ _ _ _ h
        subst h2
        exact Rest.line (.escaped d) hr
      rw [if_neg h2] at h
      by_cases h3 : c ∈ quotes
      · rw [if_pos h3] at h
        obtain ⟨e1, e2⟩ := ih _ _ _ _ h
        rcases (quotes_iff c).1 h3 with rfl | rfl
        · obtain ⟨t, s', v, ws', rfl, ht, hr, rfl⟩ := e1 rfl
          have := Rest.line (.single t ht) hr
          simpa using this
        · obtain ⟨t, tv, s', v, ws', rfl, ht, hr, rfl⟩ := e2 rfl
          have := Rest.line (.double t tv ht) hr
          simpa using this
      · rw [if_neg h3] at h
        obtain ⟨v, ws', hr, rfl⟩ := ih _ _ _ _ h (.inl (by simp))
        rw [quotes_iff, not_or] at h3
        exact Rest.line (.plain c (fun hb => h1 ((blank_iff c).2 hb)) h3.1 h3.2 h2) hr
    | word =>
      intro hq
      simp only [lex] at h
      by_cases h1 : c ∈ blanks
      · rw [if_pos h1, if_neg (by rintro ⟨h1, h2⟩; rcases hq with h | h; exact h h1; rw [h2] at h; cases h)] at h
        obtain ⟨ws', hw, rfl⟩ := Option.map_eq_some_iff.1 h
        exact ⟨[], ws', ⟨[], .nil, .inr ⟨c, s, rfl, (blank_iff c).1 h1, ih _ _ _ _ hw⟩⟩, by simp⟩
      rw [if_neg h1] at h
      by_cases h3 : c ∈ quotes
      · rw [if_pos h3] at h
        obtain ⟨e1, e2⟩ := ih _ _ _ _ h
        rcases (quotes_iff c).1 h3 with rfl | rfl
        · obtain ⟨t, s', v, ws', rfl, ht, hr, rfl⟩ := e1 rfl
          exact ⟨t ++ v, ws', by simpa using Rest.cons (.single t ht) hr, by simp⟩
        · obtain ⟨t, tv, s', v, ws', rfl, ht, hr, rfl⟩ := e2 rfl
          exact ⟨tv ++ v, ws', by simpa using Rest.cons (.double t tv ht) hr, by simp⟩
      rw [if_neg h3] at h
      by_cases h2 : c = '\\'
      · rw [if_pos h2] at h
        obtain ⟨d, s', v, ws', rfl, hr, rfl⟩ := ih _ _ _ _ h
        subst h2
        exact ⟨[d] ++ v, ws', Rest.cons (.escaped d) hr, by simp⟩
      · rw [if_neg h2] at h
        obtain ⟨v, ws', hr, rfl⟩ := ih _ _ _ _ h (.inl (by simp))
        rw [quotes_iff, not_or] at h3
        exact ⟨[c] ++ v, ws', Rest.cons (.plain c (fun hb => h1 ((blank_iff c).2 hb)) h3.1 h3.2 h2) hr, by simp⟩
    | quote q =>
      simp only [lex] at h
      refine ⟨?_, ?_⟩
      · rintro rfl
        by_cases h1 : c = '\''
        · rw [if_pos h1] at h
          obtain ⟨v, ws', hr, rfl⟩ := ih _ _ _ _ h (.inr rfl)
          exact ⟨[], s, v, ws', by rw [h1]; rfl, by simp, hr, by simp⟩
        · rw [if_neg h1, if_neg (by simp)] at h
          obtain ⟨t, s', v, ws', rfl, ht, hr, rfl⟩ := (ih _ _ _ _ h).1 rfl
          exact ⟨c :: t, s', v, ws', rfl, by simp [ht, Ne.symm h1], hr, by simp⟩
      · rintro rfl
        by_cases h1 : c = '"'
        · rw [if_pos h1] at h
          obtain ⟨v, ws', hr, rfl⟩ := ih _ _ _ _ h (.inr rfl)
          exact ⟨[], [], s, v, ws', by rw [h1]; rfl, .nil, hr, by simp⟩
        · rw [if_neg h1] at h
          by_cases h2 : c = '\\'
          · rw [if_pos ⟨h2, rfl⟩] at h
            obtain ⟨t, tv, s', v, ws', rfl, ht, hr, rfl⟩ := ih _ _ _ _ h rfl
            exact ⟨c :: t, tv, s', v, ws', rfl, by rw [h2]; exact ht, hr, rfl⟩
          · rw [if_neg (by simp [h2])] at h
            obtain ⟨t, tv, s', v, ws', rfl, ht, hr, rfl⟩ := (ih _ _ _ _ h).2 rfl
            exact ⟨c :: t, c :: tv, s', v, ws', rfl, .char c _ _ h1 h2 ht, hr, by simp⟩
    | escape =>
      simp only [lex] at h
      obtain ⟨v, ws', hr, rfl⟩ := ih _ _ _ _ h (.inl (by simp))
      exact ⟨c, s, v, ws', rfl, hr, rfl⟩
    | escapeIn q =>
      simp only [lex] at h
      rintro rfl
      obtain ⟨t, tv, s', v, ws', rfl, ht, hr, rfl⟩ := (ih _ _ _ _ h).2 rfl
      by_cases h1 : c ≠ '\\' ∧ c ≠ '"'
      · rw [if_pos h1]
        exact ⟨c :: t, '\\' :: c :: tv, s', v, ws', rfl, .kept c _ _ h1.2 h1.1 ht, hr, by simp⟩
      · rw [if_neg h1]
        have : c = '"' ∨ c = '\\' := by
          by_cases h2 : c = '\\'
          · exact .inr h2
          · exact .inl (Decidable.byContradiction fun h3 => h1 ⟨h2, h3⟩)
        exact ⟨c :: t, c :: tv, s', v, ws', rfl, .quoted c _ _ this ht, hr, by simp⟩

theorem lex_single (t s : Str) (h : '\'' ∉ t) : ∀ (tok : Str) (b : Bool), lex (.quote '\'') tok b (t ++ '\'' :: s) = lex .word (tok ++ t) true s := by
  induction t with
  | nil => intro tok b; simp [lex]
  | cons c t ih =>
    intro tok b
    simp only [List.mem_cons, not_or] at h
    simp only [List.cons_append, lex]
    rw [if_neg (Ne.symm h.1), if_neg (by simp), ih h.2]
    simp

theorem lex_double (t v s : Str) (h : Inside t v) : ∀ (tok : Str) (b : Bool), lex (.quote '"') tok b (t ++ '"' :: s) = lex .word (tok ++ v) true s := by
  induction h with
  | nil => intro tok b; simp [lex]
  | char c t v h1 h2 _ ih =>
    intro tok b
    simp only [List.cons_append, lex]
    rw [if_neg h1, if_neg (by simp [h2]), ih]
    simp
  | quoted c t v h _ ih =>
    intro tok b
    simp only [List.cons_append, lex]
    rw [if_neg (by decide), if_pos (by simp), if_neg (by rintro ⟨h1, h2⟩; rcases h with h | h; exact h2 h; exact h1 h), ih]
    simp
  | kept c t v h1 h2 _ ih =>
    intro tok b
    simp only [List.cons_append, lex]
    rw [if_neg (by decide), if_pos (by simp), if_pos ⟨h2, h1⟩, ih]
    simp

/-- A piece met within a word. -/
theorem lex_piece (t v : Str) (h : Piece t v) (tok : Str) (b : Bool) :
    ∃ b', (v ≠ [] ∨ b' = true) ∧ ∀ s, lex .word tok b (t ++ s) = lex .word (tok ++ v) b' s := by
  cases h with
  | plain c h1 h2 h3 h4 =>
    refine ⟨b, .inl (by simp), fun s => ?_⟩
    simp only [List.cons_append, List.nil_append, lex]
    rw [if_neg (by rw [blank_iff]; exact h1), if_neg (by rw [quotes_iff]; exact fun h => h.elim h2 h3), if_neg h4]
  | escaped c =>
    refine ⟨b, .inl (by simp), fun s => ?_⟩
    simp only [List.cons_append, List.nil_append, lex]
    rw [if_neg (by decide), if_neg (by decide), if_pos trivial]
  | single t h =>
    refine ⟨true, .inr rfl, fun s => ?_⟩
    simp only [List.cons_append, List.append_assoc, List.nil_append]
    rw [lex, if_neg (by decide), if_pos (by decide), lex_single v s h]
  | double t v h =>
    refine ⟨true, .inr rfl, fun s => ?_⟩
    simp only [List.cons_append, List.append_assoc, List.nil_append]
    rw [lex, if_neg (by decide), if_pos (by decide), lex_double t v s h]

/-- A piece met between words. -/
theorem lex_first (t v : Str) (h : Piece t v) : ∃ b', (v ≠ [] ∨ b' = true) ∧ ∀ s, lex .blank [] false (t ++ s) = lex .word v b' s := by
  cases h with
  | plain c h1 h2 h3 h4 =>
    refine ⟨false, .inl (by simp), fun s => ?_⟩
    simp only [List.cons_append, List.nil_append, lex]
    rw [if_neg (by rw [blank_iff]; exact h1), if_neg h4, if_neg (by rw [quotes_iff]; exact fun h => h.elim h2 h3)]
  | escaped c =>
    refine ⟨false, .inl (by simp), fun s => ?_⟩
    simp only [List.cons_append, List.nil_append, lex]
    rw [if_neg (by decide), if_pos trivial]
  | single t h =>
    refine ⟨true, .inr rfl, fun s => ?_⟩
    simp only [List.cons_append, List.append_assoc, List.nil_append]
    rw [lex, if_neg (by decide), if_neg (by decide), if_pos (by decide), lex_single v s h, List.nil_append]
  | double t v h =>
    refine ⟨true, .inr rfl, fun s => ?_⟩
    simp only [List.cons_append, List.append_assoc, List.nil_append]
    rw [lex, if_neg (by decide), if_neg (by decide), if_pos (by decide), lex_double t v s h, List.nil_append]

theorem lex_more (t v : Str) (h : Word t v) : ∀ (tok : Str) (b : Bool),
    ∃ b', (v ≠ [] ∨ b' = true) ∧ ∀ s, lex .word tok b (t ++ s) = lex .word (tok ++ v) b' s := by
  induction h with
  | one t v h => exact lex_piece t v h
  | more t v t' v' h _ ih =>
    intro tok b
    obtain ⟨b1, -, e1⟩ := lex_piece t v h tok b
    obtain ⟨b2, h2, e2⟩ := ih (tok ++ v) b1
    refine ⟨b2, h2.imp (fun h => by simp [h]) id, fun s => ?_⟩
    rw [List.append_assoc, e1, e2, List.append_assoc]

theorem lex_word (t v : Str) (h : Word t v) : ∃ b', (v ≠ [] ∨ b' = true) ∧ ∀ s, lex .blank [] false (t ++ s) = lex .word v b' s := by
  cases h with
  | one _ _ h => exact lex_first t v h
  | more t v t' v' h h' =>
    obtain ⟨b1, -, e1⟩ := lex_first t v h
    obtain ⟨b2, h2, e2⟩ := lex_more t' v' h' v b1
    refine ⟨b2, h2.imp (fun h => by simp [h]) id, fun s => ?_⟩
    rw [List.append_assoc, e1, e2]

/-- **C90**: a line is split into words by the quoting rules, and refused exactly if it does not follow them. -/
theorem C90_quoting (s : Str) : (∀ ws, split s = some ws ↔ Line s ws) ∧ (split s = none ↔ ¬ ∃ ws, Line s ws) := by
  have key : ∀ ws, split s = some ws ↔ Line s ws := by
    intro ws
    constructor
    · exact lex_sound s .blank [] false ws
    · intro h
      unfold split
      induction h with
      | nil => rfl
      | blank c s ws hc _ ih =>
        rw [lex, if_pos ((blank_iff c).2 hc)]
        exact ih
      | last t v h =>
        obtain ⟨b, hb, e⟩ := lex_word t v h
        have := e []
        rw [List.append_nil] at this
        rw [this, lex, if_neg (by rintro ⟨h1, h2⟩; rcases hb with h | h; exact h h1; rw [h2] at h; cases h)]
      | word t v c s ws h hc _ ih =>
        obtain ⟨b, hb, e⟩ := lex_word t v h
        rw [e, lex, if_pos ((blank_iff c).2 hc), if_neg (by rintro ⟨h1, h2⟩; rcases hb with h | h; exact h h1; rw [h2] at h; cases h), ih]
        rfl
  refine ⟨key, ?_⟩
  rw [Option.eq_none_iff_forall_ne_some]
  constructor
  · rintro h ⟨ws, hw⟩
    exact h ws ((key ws).2 hw)
  · intro h ws hs
    exact h ⟨ws, (key ws).1 hs⟩

theorem enquote_word (w : Str) : ∀ pre : Str, '\'' ∉ pre →
    Word ('\'' :: (pre ++ (w.flatMap (fun c => if c = '\'' then "'\"'\"'".toList else [c]) ++ ['\'']))) (pre ++ w) := by
  induction w with
  | nil => intro pre h; simpa using Word.one _ _ (Piece.single pre h)
  | cons c w ih =>
    intro pre h
    by_cases hc : c = '\''
    · have h2 := Word.more _ _ _ _ (Piece.double ['\''] ['\''] (.char _ _ _ (by decide) (by decide) .nil)) (ih [] (by simp))
      have h3 := Word.more _ _ _ _ (Piece.single pre h) h2
      subst hc
      simpa using h3
    · have := ih (pre ++ [c]) (by simp [h, Ne.symm hc])
      simpa [hc] using this

theorem typed_line (ws : List Str) : Line (typed ws) ws := by
  induction ws with
  | nil => exact .nil
  | cons w ws ih =>
    have hw : Word (enquote w) w := enquote_word w [] (by simp)
    cases ws with
    | nil => exact .last _ _ hw
    | cons w' ws' => exact .word _ _ _ _ _ hw (.inl rfl) ih

theorem strip_eq (s : Str) (a b : Char) (t t' : Str) (h1 : s = a :: t) (h2 : s = t' ++ [b]) (ha : isSpace a = false) (hb : isSpace b = false) : strip s = s := by
  unfold strip
  have e1 : s.dropWhile isSpace = s := by rw [h1, List.dropWhile_cons_of_neg (by rw [ha]; simp)]
  rw [e1]
  have e2 : s.reverse.dropWhile isSpace = s.reverse := by
    rw [h2, List.reverse_append, List.reverse_singleton, List.singleton_append, List.dropWhile_cons_of_neg (by rw [hb]; simp)]
  rw [e2, List.reverse_reverse]

/-- The code points of the characters Python takes for blank. -/
def Blanks : List Nat := [9, 10, 11, 12, 13, 28, 29, 30, 31, 32, 133, 160, 5760, 8192, 8193, 8194, 8195, 8196, 8197, 8198, 8199, 8200, 8201, 8202, 8232,
  8233, 8239, 8287, 12288]

theorem isSpace_iff (c : Char) : isSpace c = true ↔ c.toNat ∈ Blanks := by
  simp only [isSpace, Blanks, Bool.or_eq_true, Bool.and_eq_true, decide_eq_true_eq, beq_iff_eq, List.mem_cons, List.not_mem_nil, or_false]
  generalize c.toNat = n
  omega

/-- **C90**: blanks of any kind around what is typed make no difference, and nothing else is taken off. -/
theorem C90_blanks (pre s post : Str) (h1 : ∀ c ∈ pre, c.toNat ∈ Blanks) (h2 : ∀ c ∈ post, c.toNat ∈ Blanks)
    (h3 : ∀ c, s.head? = some c → c.toNat ∉ Blanks) (h4 : ∀ c, s.getLast? = some c → c.toNat ∉ Blanks) : strip (pre ++ s ++ post) = s := by
  simp only [← isSpace_iff, Bool.not_eq_true] at h1 h2 h3 h4
  unfold strip
  rw [List.append_assoc, List.dropWhile_append_of_pos h1]
  cases s with
  | nil =>
    have : (post ++ []).dropWhile isSpace = [] := by rw [List.dropWhile_append_of_pos h2]; rfl
    rw [List.append_nil] at this
    rw [List.nil_append, this]; rfl
  | cons a t =>
    rw [List.cons_append, List.dropWhile_cons_of_neg (by rw [h3 a rfl]; simp), ← List.cons_append, List.reverse_append,
      List.dropWhile_append_of_pos (by simpa using h2)]
    obtain ⟨u, b, e⟩ : ∃ u b, a :: t = u ++ [b] := ⟨_, _, (List.dropLast_concat_getLast (l := a :: t) (by simp)).symm⟩
    rw [e] at h4 ⊢
    rw [List.reverse_append, List.reverse_singleton, List.singleton_append, List.dropWhile_cons_of_neg (by rw [h4 b (by simp)]; simp)]
    simp

example : strip "\u00a0\x0bshow 1\t\r".toList = "show 1".toList :=
  C90_blanks "\u00a0\x0b".toList "show 1".toList "\t\r".toList (by decide +kernel) (by decide +kernel) (by decide +kernel) (by decide +kernel)

theorem typed_ends (w : Str) (ws : List Str) : ∃ t t', typed (w :: ws) = '\'' :: t ∧ typed (w :: ws) = t' ++ ['\''] := by
  induction ws generalizing w with
  | nil => exact ⟨_, '\'' :: _, rfl, rfl⟩
  | cons w' ws' ih =>
    obtain ⟨t, t', h1, h2⟩ := ih w'
    refine ⟨_, enquote w ++ ' ' :: t', rfl, ?_⟩
    show enquote w ++ ' ' :: typed (w' :: ws') = _
    rw [h2, List.append_assoc, List.cons_append]

/-- **C90**: any list of words at all can be typed at the prompt: each between single quotes. -/
theorem C90_typed (ws : List Str) : split (strip (typed ws)) = some ws := by
  have : strip (typed ws) = typed ws := by
    cases ws with
    | nil => rfl
    | cons w ws =>
      obtain ⟨t, t', h1, h2⟩ := typed_ends w ws
      exact strip_eq _ _ _ _ _ h1 h2 (by decide) (by decide)
  rw [this]
  exact ((C90_quoting _).1 ws).2 (typed_line ws)

/-! ## Complaints -/

private theorem red_eq : "](red|bold)".toList = ']' :: '(' :: ("red|bold".toList ++ [')']) := by decide +kernel

private theorem red_known : "red|bold".toList ∈ Props.Ansi.known := by decide +kernel

private theorem open_plain : ']' ∉ "#ansi[".toList := by decide +kernel

theorem printable_harmless (e : Env) (m : Str) (h : Ansi.Harmless m) : printable e m = true := by
  unfold printable
  have h1 := Props.Ansi.good_noBracket open_plain (Props.Ansi.good_harmless h (Props.Ansi.good_spec red_known Props.Ansi.good_nil))
  rw [red_eq]
  generalize "#ansi[".toList = a at h1 ⊢
  generalize "red|bold".toList = b at h1 ⊢
  have h2 : Props.Ansi.AllGood (a ++ m ++ (']' :: '(' :: (b ++ [')']))) := by simpa only [List.append_assoc] using h1
  cases e.noAnsi with
  | true => exact Props.Ansi.style_plain _
  | false => exact Props.Ansi.style_good _ h2

theorem harmless_plain {m : Str} (h : ']' ∉ m) : Ansi.Harmless m := by
  rintro ⟨a, b, rfl⟩
  simp at h

theorem harmless_before {m b : Str} (hm : Ansi.Harmless m) (hb : ']' ∉ b) (hb' : b.head? ≠ some '(') : Ansi.Harmless (m ++ b) := by
  rintro ⟨x, y, h⟩
  rcases List.append_eq_append_iff.1 h with ⟨d, rfl, h3⟩ | ⟨d, h3, h4⟩
  · rw [h3] at hb; simp at hb
  · cases d with
    | nil => rw [List.nil_append] at h4; rw [← h4] at hb; simp at hb
    | cons d0 d =>
      simp only [List.cons_append, List.cons.injEq] at h4
      obtain ⟨rfl, h4⟩ := h4
      cases d with
      | nil => rw [List.nil_append] at h4; rw [← h4] at hb'; simp at hb'
      | cons d1 d =>
        simp only [List.cons_append, List.cons.injEq] at h4
        obtain ⟨rfl, rfl⟩ := h4
        exact hm ⟨x, d, h3⟩

theorem harmless_after {a m : Str} (ha : ']' ∉ a) (hm : Ansi.Harmless m) : Ansi.Harmless (a ++ m) := by
  rintro ⟨x, y, h⟩
  rcases List.append_eq_append_iff.1 h with ⟨c, rfl, h2⟩ | ⟨c, h1, h2⟩
  · exact hm ⟨c, y, h2⟩
  · cases c with
    | nil => exact hm ⟨[], y, h2.symm⟩
    | cons c0 c =>
      simp only [List.cons_append, List.cons.injEq] at h2
      obtain ⟨rfl, -⟩ := h2
      rw [h1] at ha
      simp at ha

/-- Plain text around harmless text. -/
theorem harmless_around {a m b : Str} (ha : ']' ∉ a) (hm : Ansi.Harmless m) (hb : ']' ∉ b) (hb' : b.head? ≠ some '(') : Ansi.Harmless (a ++ m ++ b) := by
  rw [List.append_assoc]
  exact harmless_after ha (harmless_before hm hb hb')

theorem decimal_plain (i : Int) : ']' ∉ decimal i := by
  have h : ∀ n, ']' ∉ Nat.toDigits 10 n := fun n hx => absurd (Nat.isDigit_of_mem_toDigits (b := 10) (n := n) (by decide) (by decide) hx) (by decide)
  cases i with
  | ofNat n => exact h n
  | negSucc n =>
    intro hx
    rcases List.mem_cons.1 hx with hx | hx
    · exact absurd hx (by decide)
    · exact h _ hx

/-- What is complained about can be printed. -/
theorem complains_harmless (e : Env) (problem language : Str) (id : Int) (er : Err) (hp : er = .unknownProblem → Ansi.Harmless problem)
    (hl : er = .unknownLanguage → Ansi.Harmless language) (hs : er = .source → Ansi.Harmless e.reason) :
    complains e (some (complaint e problem language id er)) = true := by
  have key : ∀ m, Ansi.Harmless m → complains e (some m) = true := by
    intro m hm
    cases m with
    | nil => rfl
    | cons c m => exact printable_harmless e _ hm
  cases er with
  | invalidSubmission => exact key _ (harmless_around (by decide +kernel) (harmless_plain (decimal_plain id)) (by decide) (by decide))
  | unknownProblem => exact key _ (harmless_around (by decide +kernel) (hp rfl) (by decide) (by decide))
  | unknownLanguage => exact key _ (harmless_around (by decide +kernel) (hl rfl) (by decide) (by decide))
  | source => exact key _ (hs rfl)
  | invalidFileName => exact key _ (harmless_plain (show ']' ∉ "invalid file name".toList by decide +kernel))
  | noLanguage => exact key _ (harmless_plain (show ']' ∉ "no language is selected".toList by decide +kernel))
  | badTime => exact key _ (harmless_plain (show ']' ∉ "--time-limit must be >= 0".toList by decide +kernel))
  | badMemory => exact key _ (harmless_plain (show ']' ∉ "--memory-limit must be >= 0".toList by decide +kernel))
  | badLimit => exact key _ (harmless_plain (show ']' ∉ "--limit must be >= 0".toList by decide +kernel))

theorem unknown_harmless (e : Env) (name : Str) (h : Ansi.Harmless name) : printable e ("Unrecognized command ".toList ++ name) = true := by
  have := harmless_around (a := "Unrecognized command ".toList) (b := []) (by decide +kernel) h (by simp) (by simp)
  rw [List.append_nil] at this
  exact printable_harmless e _ this

/-! ## Statuses -/

theorem execute_none (e : Env) (j : Judge) (name : Str) (args : List Str) : execute e j name args = none ↔ name ∉ commandNames.map String.toList := by
  unfold execute commandNames
  simp only [List.map_cons, List.map_nil, List.mem_cons, List.not_mem_nil, or_false, not_or]
  generalize "problems".toList = n1, "submissions".toList = n2, "submit".toList = n3, "resubmit".toList = n4, "rejudge".toList = n5, "diff".toList = n6,
    "show".toList = n7, "help".toList = n8, "quit".toList = n9
  repeat' split
  all_goals simp_all

/-- The judge stays as it is unless a submission is recorded. -/
theorem execute_judge (e : Env) (j j' : Judge) (name : Str) (args : List Str) (o : Outcome) (h : execute e j name args = some (j', o)) :
    j' = j ∨ (name = "submit".toList ∧ o = .done ∧ ∃ p l f t m b, e.submitArgs args = some (p, l, f, t, m) ∧ Commands.submit e.w j p l f t m = (j', .ok b)) := by
  have hs : ∀ j' o, submitCmd e j args = (j', o) → j' = j ∨ (o = .done ∧ ∃ p l f t m b, e.submitArgs args = some (p, l, f, t, m) ∧
      Commands.submit e.w j p l f t m = (j', .ok b)) := by
    intro j' o h
    unfold submitCmd at h
    cases ha : e.submitArgs args with
    | none => rw [ha] at h; simp only [Prod.mk.injEq] at h; exact .inl h.1.symm
    | some x =>
      obtain ⟨p, l, f, t, m⟩ := x
      rw [ha] at h
      simp only at h
      split at h
      · simp only [Prod.mk.injEq] at h; exact .inl h.1.symm
      · split at h
        · simp only [Prod.mk.injEq] at h; exact .inl h.1.symm
        · split at h
          · rename_i j2 e2 h2
            simp only [Prod.mk.injEq] at h
            have := C49_refused j (.submit e.w p l f t m) e2 (by show (Commands.submit e.w j p l f t m).2 = _; rw [h2])
            have h3 : (Commands.submit e.w j p l f t m).1 = j := this
            rw [h2] at h3
            exact .inl (h.1.symm.trans h3)
          · rename_i j2 b h2
            simp only [Prod.mk.injEq] at h
            exact .inr ⟨h.2.symm, p, l, f, t, m, b, rfl, by rw [h2, h.1]⟩
  have hr : (resubmitCmd e j args).1 = j := by
    unfold resubmitCmd
    cases ha : e.resubmitArgs args with
    | none => rfl
    | some x =>
      obtain ⟨id, p, l, t, m⟩ := x
      obtain ⟨er, h⟩ := C49_resubmit_fails e.w j id p l t m
      simp only [h]
  have hj : (rejudgeCmd e j args).1 = j := by
    unfold rejudgeCmd
    cases ha : e.idArg args with
    | none => rfl
    | some id =>
      have := (C49_rejudge j id).1
      simp only
      generalize Commands.rejudge j id = x at this ⊢
      obtain ⟨a, b⟩ := x
      cases b <;> exact this
  unfold execute at h
  by_cases h3 : name = "submit".toList
  · rw [if_neg (by rw [h3]; decide), if_neg (by rw [h3]; decide), if_pos h3] at h
    rcases hs j' o (Option.some.inj h) with h | h
    · exact .inl h
    · exact .inr ⟨h3, h⟩
  · left
    rw [if_neg h3] at h
    generalize "problems".toList = n1, "submissions".toList = n2, "resubmit".toList = n4, "rejudge".toList = n5, "diff".toList = n6,
      "show".toList = n7, "help".toList = n8, "quit".toList = n9 at h
    generalize resubmitCmd e j args = r1, rejudgeCmd e j args = r2 at h hr hj
    clear hs h3
    repeat' split at h
    all_goals simp_all

theorem ite01 {P Q : Prop} [Decidable P] [Decidable Q] (h : P ↔ Q) : (if P then 0 else 1 : Nat) = if Q then 0 else 1 := by
  by_cases hp : P
  · rw [if_pos hp, if_pos (h.1 hp)]
  · rw [if_neg hp, if_neg (fun hq => hp (h.2 hq))]

theorem submit_ok (w : World) (j j' : Judge) (p : Name) (l f : Option Name) (t : Rat) (m : Int) (b : Begun)
    (h : Commands.submit w j p l f t m = (j', .ok b)) : j' = ⟨j.counter + 1, j.graded ++ [b.sub]⟩ ∧ b.id = j.counter + 1 := by
  unfold Commands.submit at h
  split at h
  · exact nomatch h
  · split at h
    · exact nomatch h
    · unfold record at h
      cases h
      exact ⟨rfl, rfl⟩

/-- Statuses by outcome. -/
def codeOf : Outcome → Nat
  | .done => 0
  | .refused _ => 1
  | .exits => 0
  | .raises => 1
  | .interrupted => 0

theorem oneShot_eq (e : Env) (name : Str) (args : List Str) : oneShot e (name :: args) =
    (match execute e Judge.start name args with
    | none => if printable e ("Unrecognized command ".toList ++ name) then 127 else 1
    | some x => codeOf x.2) := by
  unfold oneShot runCommand
  simp only
  generalize execute e Judge.start name args = x
  cases x with
  | none => cases h : printable e ("Unrecognized command ".toList ++ name) <;> simp [-String.reduceToList, h]
  | some x =>
    obtain ⟨j', o⟩ := x
    cases o with
    | refused m => cases h : complains e m <;> simp [h, codeOf]
    | _ => rfl

/-- **C90**: with a command on the command line, the exit status is 127 exactly for an unknown one (whose name cannot be taken for the end of a coloured text), and
otherwise 0 or 1. -/
theorem C90_unknown (e : Env) (name : Str) (hh : Ansi.Harmless name) (args : List Str) :
    (oneShot e (name :: args) = 127 ↔ name ∉ commandNames.map String.toList) ∧
    (name ∈ commandNames.map String.toList → oneShot e (name :: args) = 0 ∨ oneShot e (name :: args) = 1) := by
  have hn := execute_none e Judge.start name args
  rw [oneShot_eq]
  generalize execute e Judge.start name args = x at hn ⊢
  cases x with
  | none =>
    have := hn.1 rfl
    exact ⟨⟨fun _ => this, fun _ => by simp only [unknown_harmless e name hh, if_true]⟩, fun h => absurd h this⟩
  | some x =>
    obtain ⟨j', o⟩ := x
    have : name ∈ commandNames.map String.toList := Decidable.byContradiction fun h => nomatch hn.2 h
    cases o <;> simp [this, codeOf]

private theorem no_submission (id : Int) : getSubmission Judge.start id = .error .invalidSubmission :=
  (C49_lookup Judge.start id).2 (by rintro ⟨i, -, h⟩; exact absurd h (by simp [Judge.start]))

private theorem source_start (w : World) (a : Name) : sourceOf w Judge.start a =
    (match w.int a with
    | some _ => .error .invalidSubmission
    | none => match w.file a with | none => .error .source | some s => .ok s) := by
  unfold sourceOf
  cases w.int a with
  | none => rfl
  | some id => simp only [no_submission]

/-- **C90**: `submit` with a known language exits with 0 exactly if its arguments can be parsed, the problem is known, the limits are positive and the source can
be had; otherwise with 1. -/
theorem C90_submit_status (e : Env) (hc : e.ctrlC ≠ .typing) (args : List Str) (p l : Name) (f : Option Name) (t : Rat) (m : Int)
    (ha : e.submitArgs args = some (p, some l, f, t, m)) (hl : l ∈ e.w.executors) (hne : l ≠ []) :
    oneShot e ("submit".toList :: args) =
      if p ∈ e.w.problems ∧ 0 < t ∧ 0 < m ∧ (if f = none ∨ f = some [] then e.w.editor l [] else f.bind e.w.file) ≠ none then 0 else 1 := by
  have key := C49_checked_partial e.w Judge.start p l f t m hl hne
  rw [oneShot_eq]
  have hx : execute e Judge.start "submit".toList args = some (submitCmd e Judge.start args) := by
    unfold execute
    rw [if_neg (by decide), if_neg (by decide), if_pos rfl]
  rw [hx]
  simp only [submitCmd, ha]
  have hsub : ∀ er, submitChecks e.w p (some l) f t m = .error er → Commands.submit e.w Judge.start p (some l) f t m = (Judge.start, .error er) := by
    intro er h
    unfold Commands.submit
    rw [h]
  cases hck : submitChecks e.w p (some l) f t m with
  | error er =>
    rw [hsub er hck] at key
    rw [if_neg (by rw [← key]; rintro ⟨b, h⟩; exact nomatch h)]; rfl
  | ok x =>
    simp only
    rw [if_neg (by rintro ⟨-, h⟩; exact hc h)]
    generalize Commands.submit e.w Judge.start p (some l) f t m = r at key ⊢
    obtain ⟨j', b⟩ := r
    cases b with
    | error er => rw [if_neg (by rw [← key]; rintro ⟨b, h⟩; exact nomatch h)]; rfl
    | ok b => rw [if_pos (key.1 ⟨b, rfl⟩)]; rfl

open Classical in
/-- **C90**: a command on the command line has no history: `rejudge` and `resubmit` always exit with 1, and so do `show` and `diff` for a number; for files, `show`
and `diff` exit with 0 exactly if they can be read and rendered. -/
theorem C90_alone (e : Env) (args : List Str) :
    oneShot e ("rejudge".toList :: args) = 1 ∧ oneShot e ("resubmit".toList :: args) = 1 ∧
    oneShot e ("show".toList :: args) =
      (if ∃ a s, e.showArg args = some a ∧ e.w.int a = none ∧ e.w.file a = some s ∧ e.rendered = true then 0 else 1) ∧
    oneShot e ("diff".toList :: args) =
      (if ∃ a b s t, e.diffArgs args = some (a, b) ∧ e.w.int a = none ∧ e.w.int b = none ∧ e.w.file a = some s ∧ e.w.file b = some t ∧ e.rendered = true
        then 0 else 1) := by
  refine ⟨?_, ?_, ?_, ?_⟩
  · rw [oneShot_eq, show execute e Judge.start "rejudge".toList args = some (rejudgeCmd e Judge.start args) from by
      unfold execute; rw [if_neg (by decide), if_neg (by decide), if_neg (by decide), if_neg (by decide), if_pos rfl]]
    unfold rejudgeCmd
    cases e.idArg args with
    | none => rfl
    | some id => simp only [codeOf, Commands.rejudge, no_submission]
  · rw [oneShot_eq, show execute e Judge.start "resubmit".toList args = some (resubmitCmd e Judge.start args) from by
      unfold execute; rw [if_neg (by decide), if_neg (by decide), if_neg (by decide), if_pos rfl]]
    unfold resubmitCmd
    cases e.resubmitArgs args with
    | none => rfl
    | some x =>
      obtain ⟨id, p, l, t, m⟩ := x
      simp only [codeOf, Commands.resubmit, no_submission]
  · rw [oneShot_eq, show execute e Judge.start "show".toList args = some (Judge.start, showCmd e Judge.start args) from by
      unfold execute; rw [if_neg (by decide), if_neg (by decide), if_neg (by decide), if_neg (by decide), if_neg (by decide), if_neg (by decide), if_pos rfl]]
    unfold showCmd
    cases e.showArg args with
    | none => simp [codeOf]
    | some a =>
      simp only [source_start]
      cases hi : e.w.int a with
      | some i => simp [codeOf, printed, hi]
      | none =>
        cases hf : e.w.file a with
        | none => simp [codeOf, printed, hf]
        | some s => cases hr : e.rendered <;> simp [codeOf, printed, hf, hi]
  · rw [oneShot_eq, show execute e Judge.start "diff".toList args = some (Judge.start, diffCmd e Judge.start args) from by
      unfold execute; rw [if_neg (by decide), if_neg (by decide), if_neg (by decide), if_neg (by decide), if_neg (by decide), if_pos rfl]]
    unfold diffCmd
    cases e.diffArgs args with
    | none => simp [codeOf]
    | some x =>
      obtain ⟨a, b⟩ := x
      simp only [source_start]
      cases hi : e.w.int a with
      | some i => simp [codeOf, hi]
      | none =>
        cases hf : e.w.file a with
        | none => simp [codeOf, hf]
        | some s =>
          simp only
          cases hi2 : e.w.int b with
          | some i => simp [codeOf, printed, hi2]
          | none =>
            cases hf2 : e.w.file b with
            | none => simp [codeOf, printed, hf2]
            | some s => cases hr : e.rendered <;> simp [codeOf, printed, hf, hi, hf2, hi2]

open Classical in
/-- **C90**: `problems` and `submissions` exit with 0 exactly if the limit, if any, is positive and (for `problems`) the filter is a regular expression that some
problem matches. -/
theorem C90_list_status (e : Env) (args : List Str) :
    oneShot e ("submissions".toList :: args) = (if ∃ l, e.limitArg args = some l ∧ ∀ n, l = some n → 0 < n then 0 else 1) ∧
    oneShot e ("problems".toList :: args) =
      (if ∃ f l, e.problemsArgs args = some (f, l) ∧ (∀ n, l = some n → 0 < n) ∧
          ((f = none ∨ f = some []) ∧ e.w.problems ≠ [] ∨ ∃ c r k, f = some (c :: r) ∧ e.regex (c :: r) = some k ∧ ∃ p ∈ e.w.problems, k p = true)
        then 0 else 1) := by
  refine ⟨?_, ?_⟩
  · rw [oneShot_eq, show execute e Judge.start "submissions".toList args = some (Judge.start, submissionsCmd e Judge.start args) from by
      unfold execute; rw [if_neg (by decide), if_pos rfl]]
    unfold submissionsCmd
    cases e.limitArg args with
    | none => simp [codeOf]
    | some l =>
      cases l with
      | none => simp [codeOf, printed, Commands.submissions]
      | some n =>
        by_cases hn : n ≤ 0
        · simp [codeOf, printed, Commands.submissions, hn]
        · simp [codeOf, printed, Commands.submissions, hn]
  · rw [oneShot_eq, show execute e Judge.start "problems".toList args = some (Judge.start, problemsCmd e args) from by
      unfold execute; rw [if_pos rfl]]
    have hpr : ∀ (ps : List Name) (keep : Option (Name → Bool)) (l : Option Int), (∀ n, l = some n → 0 < n) →
        ps = (match keep with | none => e.w.problems | some k => e.w.problems.filter k) →
        codeOf (printed true (problemsCmd.message) (Commands.problems e.w keep l)) = if ps ≠ [] then 0 else 1 := by
      intro ps keep l hl hps
      have : ∃ r, Commands.problems e.w keep l = (if ps = [] then .error .unknownProblem else .ok r) := by
        unfold Commands.problems
        cases l with
        | none => exact ⟨ps, by cases keep <;> simp only at hps ⊢ <;> rw [← hps]⟩
        | some n =>
          have h0 := hl n rfl
          refine ⟨ps.take n.toNat, ?_⟩
          have hn : n.toNat ≠ 0 := by omega
          cases keep <;> simp only at hps ⊢ <;> rw [if_neg (by omega), ← hps] <;> simp [hn]
      obtain ⟨r, hr⟩ := this
      rw [hr]
      by_cases h : ps = [] <;> simp [h, printed, codeOf]
    have hgo : ∀ f l, (∀ n, l = some n → 0 < n) → codeOf (problemsCmd.go e f l) =
        (if (f = none ∨ f = some []) ∧ e.w.problems ≠ [] ∨ ∃ c r k, f = some (c :: r) ∧ e.regex (c :: r) = some k ∧ ∃ p ∈ e.w.problems, k p = true
          then 0 else 1) := by
      intro f l hl
      unfold problemsCmd.go
      cases f with
      | none => rw [if_pos (by rfl), hpr _ none l hl rfl]; simp
      | some n =>
        cases n with
        | nil => rw [if_pos (by rfl), hpr _ none l hl rfl]; simp
        | cons c r =>
          rw [if_neg (by simp [falsy])]
          simp only [Option.getD_some]
          cases hk : e.regex (c :: r) with
          | none => simp [hk, codeOf]
          | some k =>
            simp only [hpr _ (some k) l hl rfl]
            apply ite01
            constructor
            · intro h
              obtain ⟨p, hp⟩ := List.exists_mem_of_ne_nil _ h
              rw [List.mem_filter] at hp
              exact .inr ⟨c, r, k, rfl, hk, p, hp⟩
            · rintro (⟨h | h, -⟩ | ⟨c', r', k', h1, h2, p, hp⟩)
              · exact nomatch h
              · exact nomatch h
              · cases h1
                rw [hk] at h2
                cases h2
                exact List.ne_nil_of_mem (List.mem_filter.2 hp)
    unfold problemsCmd
    cases e.problemsArgs args with
    | none => simp [codeOf]
    | some x =>
      obtain ⟨f, l⟩ := x
      cases l with
      | none =>
        simp only [hgo f none (by simp)]
        apply ite01
        constructor
        · exact fun h => ⟨f, none, rfl, by simp, h⟩
        · rintro ⟨f', l', h1, -, h⟩
          cases h1
          exact h
      | some n =>
        by_cases hn : n ≤ 0
        · simp only [if_pos hn, codeOf]
          rw [if_neg]
          rintro ⟨f', l', h1, h2, -⟩
          cases h1
          have := h2 n rfl
          omega
        · have h0 : ∀ n', some n = some n' → 0 < n' := by intro n' h; cases h; omega
          simp only [if_neg hn, hgo f (some n) h0]
          apply ite01
          constructor
          · exact fun h => ⟨f, some n, rfl, h0, h⟩
          · rintro ⟨f', l', h1, -, h⟩
            cases h1
            exact h

/-! ## The session -/

/-- **C90**: a line that breaks the quoting rules ends the session with status 1, whatever it was. `quit` ends it with 0. -/
theorem C90_ends (j : Judge) (text : Str) (e : Env) (rest : List Input) :
    ((¬ ∃ ws, Line (strip text) ws) → session j (.line text e :: rest) = (j, [], .ended 1)) ∧
    (∀ args, Line (strip text) ("quit".toList :: args) → session j (.line text e :: rest) = (j, [], .ended 0)) := by
  refine ⟨fun h => ?_, fun args h => ?_⟩
  · rw [← (C90_quoting _).2] at h
    simp only [session, h]
  · rw [← (C90_quoting _).1] at h
    simp only [session, h]
    have : execute e j "quit".toList args = some (j, .exits) := by
      unfold execute
      rw [if_neg (by decide), if_neg (by decide), if_neg (by decide), if_neg (by decide), if_neg (by decide), if_neg (by decide), if_neg (by decide),
        if_neg (by decide), if_pos rfl]
    simp only [runCommand, this]

/-- **C90**: an empty line and an unknown command are passed over: nothing changes and the session goes on. The name is printed, so it must not look like the end of a
coloured text. -/
theorem C90_passed (j : Judge) (text : Str) (e : Env) (rest : List Input) (ws : List Str) (h : Line (strip text) ws)
    (hu : ∀ name args, ws = name :: args → name ∉ commandNames.map String.toList ∧ Ansi.Harmless name) :
    session j (.line text e :: rest) = ((session j rest).1, 127 :: (session j rest).2.1, (session j rest).2.2) := by
  rw [← (C90_quoting _).1] at h
  simp only [session, h]
  cases ws with
  | nil => rfl
  | cons name args =>
    have := (execute_none e j name args).2 (hu name args rfl).1
    simp only [runCommand, this, unknown_harmless e name (hu name args rfl).2, if_true]

/-- What a line does, by outcome. -/
theorem session_line (j : Judge) (text : Str) (e : Env) (rest : List Input) (name : Str) (args : List Str) (h : Line (strip text) (name :: args)) (j' : Judge)
    (o : Outcome) (hx : execute e j name args = some (j', o)) : session j (.line text e :: rest) =
      (match o with
      | .done => ((session j' rest).1, 0 :: (session j' rest).2.1, (session j' rest).2.2)
      | .refused m => if complains e m then ((session j' rest).1, 1 :: (session j' rest).2.1, (session j' rest).2.2) else (j', [], .ended 1)
      | .exits => (j', [], .ended 0)
      | .raises => (j', [], .ended 1)
      | .interrupted => (j', [], .ended 0)) := by
  rw [← (C90_quoting _).1] at h
  cases o with
  | refused m => cases hm : complains e m <;> simp [session, h, runCommand, hx, hm]
  | _ => simp only [session, h, runCommand, hx]

/-- **C90**: a submission that is accepted is recorded, the session goes on, and it is found under the next number then; Control-C while it is graded makes no
difference. -/
theorem C90_recorded (j : Judge) (hj : j.counter = j.graded.length) (text : Str) (e : Env) (rest : List Input) (args : List Str)
    (h : Line (strip text) ("submit".toList :: args)) (p : Name) (l f : Option Name) (t : Rat) (m : Int) (ha : e.submitArgs args = some (p, l, f, t, m)) (b : Begun)
    (hb : (Commands.submit e.w j p l f t m).2 = .ok b) (hc : e.ctrlC ≠ .typing) :
    ∃ j', session j (.line text e :: rest) = ((session j' rest).1, 0 :: (session j' rest).2.1, (session j' rest).2.2) ∧
      j'.graded = j.graded ++ [b.sub] ∧ j'.counter = j'.graded.length ∧ b.id = j.graded.length + 1 ∧
      getSubmission j' ((j.graded.length : Int) + 1) = .ok b.sub := by
  have hs : (Commands.submit e.w j p l f t m).fst = _ ∧ _ := submit_ok e.w j _ p l f t m b (Prod.ext rfl hb)
  have hx : execute e j "submit".toList args = some ((Commands.submit e.w j p l f t m).1, .done) := by
    unfold execute
    rw [if_neg (by decide), if_neg (by decide), if_pos rfl]
    simp only [submitCmd, ha]
    split
    · rename_i er her
      unfold Commands.submit at hb
      rw [her] at hb
      exact nomatch hb
    · rw [if_neg (by rintro ⟨-, h⟩; exact hc h)]
      generalize Commands.submit e.w j p l f t m = r at hb ⊢
      obtain ⟨j', x⟩ := r
      cases x with
      | error er => exact nomatch hb
      | ok x => rfl
  refine ⟨_, session_line j text e rest _ args h _ _ hx, ?_⟩
  rw [hs.1]
  refine ⟨rfl, by simp [hj], by rw [hs.2, hj], ?_⟩
  exact ((C49_lookup _ _).1 _).2 ⟨j.graded.length, rfl, by simp⟩

/-- **C90**: whatever is typed, a number that stands for a submission keeps standing for it, and a session records nothing but what `submit` accepted. -/
theorem C90_history (ins : List Input) : ∀ j : Judge, j.counter = j.graded.length →
    ∃ new, (session j ins).1.graded = j.graded ++ new ∧ (session j ins).1.counter = (session j ins).1.graded.length ∧
      ∀ s ∈ new, ∃ text e args p l f t m j' j'' b, Input.line text e ∈ ins ∧ Line (strip text) ("submit".toList :: args) ∧
        e.submitArgs args = some (p, l, f, t, m) ∧ Commands.submit e.w j' p l f t m = (j'', .ok b) ∧ b.sub = s := by
  induction ins with
  | nil => intro j hj; exact ⟨[], by simp [session], hj, by simp⟩
  | cons i rest ih =>
    intro j hj
    cases i with
    | eof => exact ⟨[], by simp [session], hj, by simp⟩
    | interrupt => exact ⟨[], by simp [session], hj, by simp⟩
    | line text e =>
      cases hsp : split (strip text) with
      | none => exact ⟨[], by simp [session, hsp], by simpa [session, hsp] using hj, by simp⟩
      | some ws =>
        have hline := ((C90_quoting _).1 ws).1 hsp
        have keep : ∀ j', j' = j → ∀ r, (session j (.line text e :: rest)).1 = r → (r = (session j' rest).1 ∨ r = j') →
            ∃ new, r.graded = j.graded ++ new ∧ r.counter = r.graded.length ∧
              ∀ s ∈ new, ∃ text' e' args p l f t m j' j'' b, Input.line text' e' ∈ (.line text e :: rest) ∧ Line (strip text') ("submit".toList :: args) ∧
                e'.submitArgs args = some (p, l, f, t, m) ∧ Commands.submit e'.w j' p l f t m = (j'', .ok b) ∧ b.sub = s := by
          rintro j' rfl r - (rfl | rfl)
          · obtain ⟨new, h1, h2, h3⟩ := ih j' hj
            refine ⟨new, h1, h2, fun s hs => ?_⟩
            obtain ⟨a1, a2, a3, a4, a5, a6, a7, a8, a9, a10, a11, h4, h5⟩ := h3 s hs
            exact ⟨a1, a2, a3, a4, a5, a6, a7, a8, a9, a10, a11, List.mem_cons_of_mem _ h4, h5⟩
          · exact ⟨[], by simp, hj, by simp⟩
        cases ws with
        | nil => exact keep j rfl _ rfl (.inl (by simp [session, hsp, runCommand]))
        | cons name args =>
          cases hx : execute e j name args with
          | none =>
            cases hp : printable e ("Unrecognized command ".toList ++ name) with
            | true => exact keep j rfl _ rfl (.inl (by simp [session, hsp, runCommand, hx, -String.reduceToList, hp]))
            | false => exact keep j rfl _ rfl (.inr (by simp [session, hsp, runCommand, hx, -String.reduceToList, hp]))
          | some x =>
            obtain ⟨j', o⟩ := x
            have hs := session_line j text e rest name args hline j' o hx
            rcases execute_judge e j j' name args o hx with rfl | ⟨rfl, rfl, p, l, f, t, m, b, ha, hb⟩
            · refine keep j' rfl _ rfl ?_
              rw [hs]
              cases o with
              | done => exact .inl rfl
              | refused m =>
                cases hm : complains e m with
                | true => exact .inl (by simp [hm])
                | false => exact .inr (by simp [hm])
              | exits => exact .inr rfl
              | raises => exact .inr rfl
              | interrupted => exact .inr rfl
            · obtain ⟨hj', -⟩ := submit_ok _ _ _ _ _ _ _ _ _ hb
              obtain ⟨new, h1, h2, h3⟩ := ih j' (by rw [hj']; simp [hj])
              rw [hs]
              refine ⟨b.sub :: new, by simp only; rw [h1, hj']; simp, h2, ?_⟩
              intro s hsm
              rcases List.mem_cons.1 hsm with rfl | hsm
              · exact ⟨text, e, args, p, l, f, t, m, j, j', b, List.mem_cons_self, hline, ha, hb, rfl⟩
              · obtain ⟨a1, a2, a3, a4, a5, a6, a7, a8, a9, a10, a11, h4, h5⟩ := h3 s hsm
                exact ⟨a1, a2, a3, a4, a5, a6, a7, a8, a9, a10, a11, List.mem_cons_of_mem _ h4, h5⟩

/-- **C90**: end of file and Control-C at the prompt end the session with 0. -/
theorem C90_prompt (j : Judge) (rest : List Input) :
    session j (.eof :: rest) = (j, [], .ended 0) ∧ session j (.interrupt :: rest) = (j, [], .ended 0) := ⟨rfl, rfl⟩

/-- **C90**: arguments that cannot be parsed (or ask for help) are refused: nothing changes, the session goes on; on the command line the status is 1. `help` and
`quit` take any arguments. -/
theorem C90_usage (j : Judge) (e : Env) (rest : List Input) (text : Str) (name : Str) (args : List Str) (h : Line (strip text) (name :: args))
    (hn : name = "submit".toList ∧ e.submitArgs args = none ∨ name = "resubmit".toList ∧ e.resubmitArgs args = none ∨
      name = "rejudge".toList ∧ e.idArg args = none ∨ name = "submissions".toList ∧ e.limitArg args = none ∨
      name = "show".toList ∧ e.showArg args = none ∨ name = "diff".toList ∧ e.diffArgs args = none ∨
      name = "problems".toList ∧ e.problemsArgs args = none) :
    session j (.line text e :: rest) = ((session j rest).1, 1 :: (session j rest).2.1, (session j rest).2.2) ∧ oneShot e (name :: args) = 1 ∧
    oneShot e ("help".toList :: args) = 0 ∧ oneShot e ("quit".toList :: args) = 0 := by
  have key : ∀ j, execute e j name args = some (j, .refused none) := by
    intro j
    unfold execute
    rcases hn with ⟨rfl, hn⟩ | ⟨rfl, hn⟩ | ⟨rfl, hn⟩ | ⟨rfl, hn⟩ | ⟨rfl, hn⟩ | ⟨rfl, hn⟩ | ⟨rfl, hn⟩
    · rw [if_neg (by decide), if_neg (by decide), if_pos rfl]
      simp only [submitCmd, hn]
    · rw [if_neg (by decide), if_neg (by decide), if_neg (by decide), if_pos rfl]
      simp only [resubmitCmd, hn]
    · rw [if_neg (by decide), if_neg (by decide), if_neg (by decide), if_neg (by decide), if_pos rfl]
      simp only [rejudgeCmd, hn]
    · rw [if_neg (by decide), if_pos rfl]
      simp only [submissionsCmd, hn]
    · rw [if_neg (by decide), if_neg (by decide), if_neg (by decide), if_neg (by decide), if_neg (by decide), if_neg (by decide), if_pos rfl]
      simp only [showCmd, hn]
    · rw [if_neg (by decide), if_neg (by decide), if_neg (by decide), if_neg (by decide), if_neg (by decide), if_pos rfl]
      simp only [diffCmd, hn]
    · rw [if_pos rfl]
      simp only [problemsCmd, hn]
  refine ⟨session_line j text e rest name args h j _ (key j), by rw [oneShot_eq, key]; rfl, ?_, ?_⟩
  · rw [oneShot_eq, show execute e Judge.start "help".toList args = some (Judge.start, .done) from by
      unfold execute
      rw [if_neg (by decide), if_neg (by decide), if_neg (by decide), if_neg (by decide), if_neg (by decide), if_neg (by decide), if_neg (by decide), if_pos rfl]]
    rfl
  · rw [oneShot_eq, show execute e Judge.start "quit".toList args = some (Judge.start, .exits) from by
      unfold execute
      rw [if_neg (by decide), if_neg (by decide), if_neg (by decide), if_neg (by decide), if_neg (by decide), if_neg (by decide), if_neg (by decide),
        if_neg (by decide), if_pos rfl]]
    rfl

/-- A language that is not known is taken for a file. -/
theorem never_language (w : World) (p : Name) (l f : Option Name) (t : Rat) (m : Int) : submitChecks w p l f t m ≠ .error .unknownLanguage := by
  unfold submitChecks
  cases l with
  | none => simp only; split <;> simp [falsy]
  | some l =>
    by_cases hl : l ∈ w.executors
    · simp only [hl, if_true]
      repeat' split
      all_goals simp_all
    · simp only [hl, if_false]
      repeat' split
      all_goals simp_all [falsy]

/-- **C90**: a submission that is not accepted changes nothing and the session goes on (if the complaint can be printed), unless Control-C is pressed instead of
typing its source, which ends the session with 0. -/
theorem C90_rejected (j : Judge) (e : Env) (rest : List Input) (text : Str) (args : List Str) (h : Line (strip text) ("submit".toList :: args))
    (p : Name) (l f : Option Name) (t : Rat) (m : Int) (ha : e.submitArgs args = some (p, l, f, t, m)) (er : Err)
    (hb : (Commands.submit e.w j p l f t m).2 = .error er) :
    (e.ctrlC ≠ .typing ∨ er ≠ .source → (er = .unknownProblem → Ansi.Harmless p) → (er = .source → Ansi.Harmless e.reason) →
      session j (.line text e :: rest) = ((session j rest).1, 1 :: (session j rest).2.1, (session j rest).2.2)) ∧
    (∀ l', l = some l' → l' ∈ e.w.executors → l' ≠ [] → f = none → p ∈ e.w.problems → 0 < t → 0 < m → e.ctrlC = .typing →
      session j (.line text e :: rest) = (j, [], .ended 0)) := by
  refine ⟨fun hc hp hs => ?_, ?_⟩
  · have hx : execute e j "submit".toList args = some (j, .refused (some (complaint e p (l.getD []) 0 er))) := by
      unfold execute
      rw [if_neg (by decide), if_neg (by decide), if_pos rfl]
      simp only [submitCmd, ha]
      have hj := C49_refused j (.submit e.w p l f t m) er hb
      have hj : (Commands.submit e.w j p l f t m).1 = j := hj
      cases hck : submitChecks e.w p l f t m with
      | error er' =>
        unfold Commands.submit at hb
        rw [hck] at hb
        cases hb
        rfl
      | ok x =>
        simp only
        have her : er = .source := by
          unfold Commands.submit at hb
          rw [hck] at hb
          simp only at hb
          split at hb
          · cases hb; rfl
          · exact nomatch hb
        rw [if_neg (by rintro ⟨-, h⟩; rcases hc with hc | hc; exact hc h; exact hc her)]
        generalize Commands.submit e.w j p l f t m = r at hb hj ⊢
        obtain ⟨j', b⟩ := r
        cases hb
        cases hj
        rfl
    have hl : er ≠ .unknownLanguage := by
      rintro rfl
      unfold Commands.submit at hb
      split at hb
      · rename_i h1
        cases hb
        exact never_language _ _ _ _ _ _ h1
      · split at hb <;> exact nomatch hb
    have := session_line j text e rest _ args h _ _ hx
    simpa only [complains_harmless e p (l.getD []) 0 er hp (fun h => absurd h hl) hs, if_true] using this
  · rintro l' rfl hl hne rfl hp ht hm hc
    have hx : execute e j "submit".toList args = some (j, .interrupted) := by
      unfold execute
      rw [if_neg (by decide), if_neg (by decide), if_pos rfl]
      have hck : submitChecks e.w p (some l') none t m = .ok (l', none) := by
        unfold submitChecks
        have hf : falsy (some l') = false := by cases l' with | nil => exact absurd rfl hne | cons => rfl
        simp only [if_pos hl]
        rw [if_neg (by simp [hp])]
        simp only [hf, Bool.false_eq_true, if_false]
        rw [if_neg (by simp [hl]), if_neg (Rat.not_le.2 ht), if_neg (by omega)]
      simp only [submitCmd, ha, hck]
      rw [if_pos ⟨rfl, hc⟩]
    exact session_line j text e rest _ args h _ _ hx

/-- **C90**: `show` changes nothing; the session goes on, with 0 if the source is there, with 1 if not (and why can be printed), unless the source
cannot be rendered, which ends it. -/
theorem C90_shown (j : Judge) (e : Env) (rest : List Input) (text : Str) (args : List Str) (h : Line (strip text) ("show".toList :: args))
    (a : Name) (ha : e.showArg args = some a) :
    ((∃ src, sourceOf e.w j a = .ok src) → e.rendered = true →
      session j (.line text e :: rest) = ((session j rest).1, 0 :: (session j rest).2.1, (session j rest).2.2)) ∧
    ((∃ src, sourceOf e.w j a = .ok src) → e.rendered = false → session j (.line text e :: rest) = (j, [], .ended 1)) ∧
    ((∀ src, sourceOf e.w j a ≠ .ok src) → Ansi.Harmless e.reason →
      session j (.line text e :: rest) = ((session j rest).1, 1 :: (session j rest).2.1, (session j rest).2.2)) := by
  have hx : execute e j "show".toList args = some (j, printed e.rendered (numbered e a) (sourceOf e.w j a)) := by
    unfold execute
    rw [if_neg (by decide), if_neg (by decide), if_neg (by decide), if_neg (by decide), if_neg (by decide), if_neg (by decide), if_pos rfl]
    simp only [showCmd, ha]
  refine ⟨?_, ?_, ?_⟩
  · rintro ⟨src, hs⟩ hr
    rw [hs, hr] at hx
    exact session_line j text e rest _ args h j .done hx
  · rintro ⟨src, hs⟩ hr
    rw [hs, hr] at hx
    exact session_line j text e rest _ args h j .raises hx
  · intro hs hh
    cases hso : sourceOf e.w j a with
    | error er =>
      rw [hso] at hx
      have her : er ≠ .unknownProblem ∧ er ≠ .unknownLanguage := by
        have hg : ∀ i er, getSubmission j i = .error er → er = .invalidSubmission := by
          intro i er hi
          unfold getSubmission at hi
          repeat' split at hi
          all_goals cases hi
          all_goals rfl
        unfold sourceOf at hso
        split at hso
        · split at hso
          · rename_i h1
            cases hso
            rw [hg _ _ h1]
            exact ⟨by simp, by simp⟩
          · cases hso
        · split at hso <;> cases hso
          exact ⟨by simp, by simp⟩
      have := session_line j text e rest _ args h j (.refused (some (numbered e a er))) hx
      simpa only [numbered, complains_harmless e [] [] _ er (fun h => absurd h her.1) (fun h => absurd h her.2) (fun _ => hh), if_true] using this
    | ok src => exact absurd hso (hs src)

/-- **C90 fails**: an apostrophe typed without a backslash ends the session, and with it the history. -/
theorem C90_quote_fails (j : Judge) (e : Env) (rest : List Input) :
    session j (.line "show it's.py".toList e :: rest) = (j, [], .ended 1) := by
  have : split (strip "show it's.py".toList) = none := by decide +kernel
  simp only [session, this]

/-- **C90 fails**: a blank quoted by a backslash at the end of a line follows the quoting rules, but is cut off first, which ends the session. -/
theorem C90_blank_fails (j : Judge) (e : Env) (rest : List Input) :
    Line "show a\\ ".toList ["show".toList, "a ".toList] ∧ session j (.line "show a\\ ".toList e :: rest) = (j, [], .ended 1) := by
  refine ⟨((C90_quoting _).1 _).1 (by decide +kernel), ?_⟩
  have : split (strip "show a\\ ".toList) = none := by decide +kernel
  simp only [session, this]

/-- **C90 fails**: a command, or the name of a problem, that looks like the end of a coloured text is not refused: it cannot be complained about, which ends the
session; on the command line, the status of such an unknown command is not 127. -/
theorem C90_colour_fails (j : Judge) (e : Env) (hn : e.noAnsi = false) (rest : List Input) :
    session j (.line "a](b)".toList e :: rest) = (j, [], .ended 1) ∧ oneShot e ["a](b)".toList] = 1 ∧
    (∀ p l f t m, e.submitArgs ["a](b)".toList] = some (p, l, f, t, m) → p = "a](b)".toList → p ∉ e.w.problems →
      session j (.line "submit a](b)".toList e :: rest) = (j, [], .ended 1)) := by
  have h1 : split (strip "a](b)".toList) = some ["a](b)".toList] := by decide +kernel
  have h2 : split (strip "submit a](b)".toList) = some ["submit".toList, "a](b)".toList] := by decide +kernel
  have h3 : ∀ j, execute e j "a](b)".toList [] = none := fun j => (execute_none e j _ _).2 (by decide +kernel)
  have h4 : printable e ("Unrecognized command ".toList ++ "a](b)".toList) = false := by
    unfold printable
    rw [hn]
    decide +kernel
  have h5 : complains e (some (complaint e "a](b)".toList [] 0 .unknownProblem)) = false := by
    have h6 : printable e ("unknown problem '".toList ++ "a](b)".toList ++ ['\'']) = false := by
      unfold printable
      rw [hn]
      decide +kernel
    unfold complaint
    generalize hm : "unknown problem '".toList ++ "a](b)".toList ++ ['\''] = m at h6 ⊢
    cases m with
    | nil => exact absurd hm (by decide +kernel)
    | cons => exact h6
  have h7 : ∀ l, complaint e "a](b)".toList l 0 .unknownProblem = complaint e "a](b)".toList [] 0 .unknownProblem := fun _ => rfl
  refine ⟨?_, ?_, ?_⟩
  · simp only [session, h1, runCommand, h3, h4]
    rfl
  · rw [oneShot_eq, h3]
    simp only [h4]
    rfl
  · rintro p l f t m ha rfl hp
    have hck : submitChecks e.w "a](b)".toList l f t m = .error .unknownProblem := by
      unfold submitChecks
      simp only [hp, not_false_eq_true, if_true]
    have hx : execute e j "submit".toList ["a](b)".toList] = some (j, .refused (some (complaint e "a](b)".toList (l.getD []) 0 .unknownProblem))) := by
      unfold execute
      rw [if_neg (by decide), if_neg (by decide), if_pos rfl]
      simp only [submitCmd, ha, hck]
    rw [h7] at hx
    generalize complaint e "a](b)".toList [] 0 .unknownProblem = c at h5 hx
    rw [session_line j "submit a](b)".toList e rest _ _ (((C90_quoting _).1 _).1 h2) _ _ hx]
    simp only [h5]
    rfl

/-- **C90 fails**: Control-C while `submit` is graded only stops the grading; while `rejudge` is, it ends the session. -/
theorem C90_interrupt_fails (j : Judge) (e : Env) (rest : List Input) (text : Str) (args : List Str) (h : Line (strip text) ("rejudge".toList :: args))
    (hc : e.ctrlC = .grading) (id : Int) (ha : e.idArg args = some id) (s : Sub) (hs : getSubmission j id = .ok s) :
    session j (.line text e :: rest) = (j, [], .ended 0) := by
  have : execute e j "rejudge".toList args = some (j, .interrupted) := by
    unfold execute
    rw [if_neg (by decide), if_neg (by decide), if_neg (by decide), if_neg (by decide), if_pos rfl]
    simp only [rejudgeCmd, ha, Commands.rejudge, hs, if_pos hc]
  exact session_line j text e rest _ args h _ _ this

/-- **C90 fails**: a filter that is no regular expression is not refused: it ends the session. -/
theorem C90_filter_fails (j : Judge) (e : Env) (rest : List Input) (text : Str) (args : List Str) (h : Line (strip text) ("problems".toList :: args))
    (c : Char) (r : Name) (ha : e.problemsArgs args = some (some (c :: r), none)) (hr : e.regex (c :: r) = none) :
    session j (.line text e :: rest) = (j, [], .ended 1) := by
  have : execute e j "problems".toList args = some (j, .raises) := by
    unfold execute
    rw [if_pos rfl]
    have : problemsCmd e args = .raises := by
      unfold problemsCmd
      simp only [ha]
      unfold problemsCmd.go
      rw [if_neg (by simp [falsy])]
      simp only [Option.getD_some, hr]
    rw [this]
  exact session_line j text e rest _ args h _ _ this

/-- A world with one problem, one language and one file; arguments are taken as they come. -/
def sampleEnv (ctrlC : CtrlC) : Env where
  w := ⟨["aplusb".toList], ["PY3".toList], fun f => if f = "my file.py".toList then some "print()".toList else none, fun _ _ => none, id, fun a => if a = "1".toList then some 1 else none⟩
  submitArgs := fun args => match args with | [p, l, f] => some (p, some l, some f, 2, 65536) | _ => none
  resubmitArgs := fun _ => none
  idArg := fun args => match args with | [a] => if a = "1".toList then some 1 else none | _ => none
  limitArg := fun _ => some none
  showArg := fun args => args.head?
  diffArgs := fun _ => none
  problemsArgs := fun args => some (args.head?, none)
  regex := fun f => if f = "(".toList then none else some fun _ => true
  rendered := true
  ctrlC := ctrlC
  reason := "[Errno 2] No such file or directory: '/x'".toList
  noAnsi := false

/-- A session: a blank line, an unknown command, a submission with a quoted name, its source, an interrupt of the judging again. -/
example : session Judge.start [.line "  ".toList (sampleEnv .never), .line "Submit".toList (sampleEnv .never),
    .line "submit aplusb PY3 my\\ file.py".toList (sampleEnv .grading), .line "show '1' ".toList (sampleEnv .never),
    .line "submit aplusb PY3 none".toList (sampleEnv .never), .line "rejudge 1".toList (sampleEnv .grading), .eof] =
    (⟨1, [⟨"aplusb".toList, "PY3".toList, "print()".toList, 2, 65536⟩]⟩, [127, 127, 0, 0, 1], .ended 0) := by decide +kernel

/-- The hypotheses of the theorems are met. -/
example : Line (strip "submit aplusb PY3 \"my file.py\"".toList) ["submit".toList, "aplusb".toList, "PY3".toList, "my file.py".toList] ∧
    oneShot (sampleEnv .never) ["submit".toList, "aplusb".toList, "PY3".toList, "my file.py".toList] = 0 ∧
    oneShot (sampleEnv .never) ["problems".toList, "(".toList] = 1 ∧ oneShot (sampleEnv .never) ["rejudge".toList, "1".toList] = 1 ∧
    oneShot (sampleEnv .never) ["list".toList] = 127 ∧ split "a\"b\\\"c\\d\"'e\\' '' f".toList = some ["ab\"c\\de\\".toList, [], "f".toList] :=
  ⟨((C90_quoting _).1 _).1 (by decide +kernel), by decide +kernel, by decide +kernel, by decide +kernel, by decide +kernel, by decide +kernel⟩

theorem harmless_check (s : Str) (h : ∀ i ∈ List.range s.length, (s.drop i).take 2 ≠ [']', '(']) : Ansi.Harmless s := by
  rintro ⟨a, b, rfl⟩
  exact h a.length (by simp) (by simp)

/-- What is complained about here can be printed, brackets and all; that it cannot is met too. -/
example : Ansi.Harmless "list[1]".toList ∧ Ansi.Harmless (sampleEnv .never).reason ∧ (sampleEnv .never).noAnsi = false ∧
    session Judge.start [.line "list[1]".toList (sampleEnv .never), .line "submit a](b) PY3 x".toList (sampleEnv .never)] = (Judge.start, [127], .ended 1) :=
  ⟨harmless_check _ (by decide +kernel), harmless_check _ (by decide +kernel), rfl, by decide +kernel⟩

/-- **C90**: that a submission cannot be submitted again is said with the name of the problem: the one given, or else that of the submission. If this
can be printed, the session goes on with 1; nothing changes. -/
theorem C90_resubmit (j : Judge) (e : Env) (rest : List Input) (text : Str) (args : List Str) (h : Line (strip text) ("resubmit".toList :: args))
    (id : Int) (p l : Option Name) (t : Option Rat) (m : Option Int) (ha : e.resubmitArgs args = some (id, p, l, t, m)) (s : Sub)
    (hs : getSubmission j id = .ok s) (name : Name) (hn : p = some name ∧ name ≠ [] ∨ (p = none ∨ p = some []) ∧ name = s.problem) :
    execute e j "resubmit".toList args = some (j, .refused (some ("unknown problem '".toList ++ name ++ "'".toList))) ∧
    (Ansi.Harmless name → session j (.line text e :: rest) = ((session j rest).1, 1 :: (session j rest).2.1, (session j rest).2.2)) := by
  have hch : chosen j id Sub.problem p = name := by
    unfold chosen
    rcases hn with ⟨rfl, hne⟩ | ⟨rfl | rfl, rfl⟩
    · have : falsy (some name) = false := by cases name with | nil => exact absurd rfl hne | cons => rfl
      simp [this]
    · simp [falsy, hs]
    · simp [falsy, hs]
  have hr : Commands.resubmit e.w j id p l t m = (j, .error .unknownProblem) := by
    unfold Commands.resubmit
    simp only [hs]
    exact if_pos (by simp [builtinId])
  have hx : execute e j "resubmit".toList args = some (j, .refused (some ("unknown problem '".toList ++ name ++ "'".toList))) := by
    unfold execute
    rw [if_neg (by decide), if_neg (by decide), if_neg (by decide), if_pos rfl]
    simp only [resubmitCmd, ha, hr, hch]
    rfl
  refine ⟨hx, fun hh => ?_⟩
  have := session_line j text e rest _ args h _ _ hx
  have hc := complains_harmless e name [] id .unknownProblem (fun _ => hh) (fun h => nomatch h) (fun h => nomatch h)
  have hc : complains e (some ("unknown problem '".toList ++ name ++ "'".toList)) = true := hc
  simpa only [hc, if_true] using this

example : session ⟨1, [⟨"aplusb".toList, "PY3".toList, "print()".toList, 2, 65536⟩]⟩
    [.line "resubmit 1".toList { sampleEnv .never with resubmitArgs := fun _ => some (1, none, none, none, none) }] =
    (⟨1, [⟨"aplusb".toList, "PY3".toList, "print()".toList, 2, 65536⟩]⟩, [1], (session ⟨1, [⟨"aplusb".toList, "PY3".toList, "print()".toList, 2, 65536⟩]⟩ []).2.2) :=
  (C90_resubmit ⟨1, [⟨"aplusb".toList, "PY3".toList, "print()".toList, 2, 65536⟩]⟩
    { sampleEnv .never with resubmitArgs := fun _ => some (1, none, none, none, none) } [] "resubmit 1".toList ["1".toList]
    (((C90_quoting _).1 _).1 (by decide +kernel)) 1 none none none none rfl ⟨"aplusb".toList, "PY3".toList, "print()".toList, 2, 65536⟩
    (by decide +kernel) "aplusb".toList (.inr ⟨.inl rfl, rfl⟩)).2 (harmless_check _ (by decide +kernel))

end Verif.Cli
