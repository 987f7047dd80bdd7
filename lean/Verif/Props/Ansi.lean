import Verif.Spec.Ansi
import Verif.Model.Feedback

/-! # C79, C80: colours in the log and in internal errors -/

namespace Verif.Props

open Verif.Ansi

namespace Ansi

/-- The colour specifications the judge uses. -/
def known : List Str := ["green|bold", "red|bold", "yellow|bold", "white|bold", "magenta|bold", "|underline", "yellow"].map String.toList

/-- Every `](` is followed by one of them. -/
def AllGood (s : Str) : Prop := ∀ post, (']' :: '(' :: post) <:+ s → ∃ g ∈ known, ∃ q, post = g ++ ')' :: q

theorem inline_known (a g : Str) (h : g ∈ known) : (inline a g).isSome = true := by
  simp only [known, List.map_cons, List.map_nil, List.mem_cons, List.not_mem_nil, or_false] at h
  rcases h with rfl | rfl | rfl | rfl | rfl | rfl | rfl <;> rfl

theorem known_noParen (g : Str) (h : g ∈ known) : ')' ∉ g := by
  revert g; decide +kernel

theorem word_some (p s r : Str) (h : word p s = some r) : s = p ++ r := by
  unfold word at h
  split at h
  · next hp =>
    cases h
    obtain ⟨t, rfl⟩ := List.isPrefixOf_iff_prefix.1 hp
    simp
  · cases h

theorem lazily_some {α : Type} (k : Str → Option α) (s : Str) (x : Str × α) (h : lazily k s = some x) :
    ∃ s', s = x.1 ++ s' ∧ k s' = some x.2 ∧ ∀ u c v, x.1 = u ++ c :: v → k (c :: v ++ s') = none := by
  induction s generalizing x with
  | nil =>
    simp only [lazily, Option.map_eq_some_iff] at h
    obtain ⟨a, h1, rfl⟩ := h
    exact ⟨[], rfl, h1, fun u c v h => absurd h (by simp)⟩
  | cons c r ih =>
    simp only [lazily] at h
    split at h
    · next a h1 => cases h; exact ⟨c :: r, rfl, h1, fun u c v h => absurd h (by simp)⟩
    · next h0 =>
      split at h
      · cases h
      · simp only [Option.map_eq_some_iff] at h
        obtain ⟨y, h1, rfl⟩ := h
        obtain ⟨s', e1, e2, e3⟩ := ih y h1
        refine ⟨s', by simp [e1], e2, fun u d v hu => ?_⟩
        cases u with
        | nil =>
          simp only [List.nil_append, List.cons.injEq] at hu
          obtain ⟨rfl, rfl⟩ := hu
          rw [List.cons_append, ← e1]; exact h0
        | cons u0 u =>
          simp only [List.cons_append, List.cons.injEq] at hu
          exact e3 u d v hu.2

theorem tag_some (s a b r : Str) (h : tag s = some (a, b, r)) :
    s = "#ansi[".toList ++ a ++ ']' :: '(' :: (b ++ ')' :: r) ∧ ')' ∉ b := by
  unfold tag at h
  split at h
  · cases h
  · next s1 h1 =>
    have h1 := word_some _ _ _ h1
    split at h
    · cases h
    · next a' b' r' h2 =>
      cases h
      obtain ⟨s2, e1, e2, _⟩ := lazily_some _ _ _ h2
      dsimp only at e1 e2
      split at e2
      · cases e2
      · next s3 h3 =>
        have h3 := word_some _ _ _ h3
        obtain ⟨s4, e3, e4, e5⟩ := lazily_some _ _ _ e2
        have e4 := word_some _ _ _ e4
        dsimp only at e3 e4 e5
        refine ⟨?_, fun hb => ?_⟩
        · rw [h1, e1, h3, e3, e4]; simp
        · obtain ⟨u, v, rfl⟩ := List.append_of_mem hb
          have := e5 u ')' v rfl
          simp [word] at this

theorem first_paren {b g r q : Str} (hb : ')' ∉ b) (hg : ')' ∉ g) (h : b ++ ')' :: r = g ++ ')' :: q) : b = g := by
  induction b generalizing g with
  | nil =>
    cases g with
    | nil => rfl
    | cons c g => simp at h; simp [← h.1] at hg
  | cons c b ih =>
    cases g with
    | nil => simp at h; simp [h.1] at hb
    | cons d g =>
      simp only [List.cons_append, List.cons.injEq] at h
      rw [h.1, ih (fun h => hb (by simp [h])) (fun h => hg (by simp [h])) h.2]

theorem good_suffix {s t : Str} (h : AllGood s) (ht : t <:+ s) : AllGood t := fun post hp => h post (hp.trans ht)

theorem style_good (s : Str) (h : AllGood s) : (style false s).isSome = true := by
  fun_induction style false s with
  | case1 => rfl
  | case2 c s' _ ih => simpa using ih (good_suffix h (List.suffix_cons _ _))
  | case3 c s' a b r ht hn =>
    obtain ⟨he, hb⟩ := tag_some _ _ _ _ ht
    obtain ⟨g, hg, q, hq⟩ := h (b ++ ')' :: r) (by rw [he]; exact List.suffix_append _ _)
    rw [first_paren hb (known_noParen g hg) hq] at hn
    have := inline_known a g hg
    simp_all
  | case4 c s' a b r ht t hn ih =>
    obtain ⟨he, hb⟩ := tag_some _ _ _ _ ht
    have hr : r <:+ c :: s' := by
      rw [he]
      refine ⟨"#ansi[".toList ++ a ++ ']' :: '(' :: (b ++ [')']), by simp⟩
    simpa using ih (good_suffix h hr)

theorem good_nil : AllGood [] := fun post h => absurd (List.suffix_nil.1 h) (by simp)

theorem good_cons {c : Char} {s : Str} (h : AllGood s) (hc : c = ']' → ∀ r, s ≠ '(' :: r) : AllGood (c :: s) := by
  intro post hp
  rcases List.suffix_cons_iff.1 hp with e | e
  · simp only [List.cons.injEq] at e
    exact absurd e.2.symm (hc e.1.symm post)
  · exact h post e

theorem good_noBracket {p s : Str} (hp : ']' ∉ p) (h : AllGood s) : AllGood (p ++ s) := by
  induction p with
  | nil => exact h
  | cons c p ih =>
    exact good_cons (ih fun h => hp (by simp [h])) (fun e => absurd (e ▸ List.mem_cons_self) hp)

/-- A text without `](` before a `]`. -/
theorem good_harmless {p s : Str} (hp : Harmless p) (h : AllGood (']' :: s)) : AllGood (p ++ ']' :: s) := by
  induction p with
  | nil => exact h
  | cons c p ih =>
    refine good_cons (ih fun ⟨a, b, e⟩ => hp ⟨c :: a, b, by simp [e]⟩) ?_
    rintro rfl r hr
    cases p with
    | nil => simp at hr
    | cons d p =>
      have hd : d = '(' := by injection hr
      exact hp ⟨[], p, by simp [hd]⟩

theorem good_spec {g s : Str} (hg : g ∈ known) (h : AllGood s) : AllGood (']' :: '(' :: (g ++ ')' :: s)) := by
  have hb : ']' ∉ g ++ [')'] := by revert g; decide +kernel
  have h2 : AllGood ('(' :: (g ++ ')' :: s)) := by
    have := good_noBracket (p := '(' :: (g ++ [')'])) (s := s) (by simpa using hb) h
    simpa using this
  intro post hp
  rcases List.suffix_cons_iff.1 hp with e | e
  · simp only [List.cons.injEq, true_and] at e
    exact ⟨g, hg, s, e⟩
  · exact h2 post e

/-- A coloured code. -/
def CodeLike (t : Str) : Prop := ∃ label g, ']' ∉ label ∧ g ∈ known ∧ t = label ++ ']' :: '(' :: (g ++ [')'])

theorem good_code {t s : Str} (ht : CodeLike t) (h : AllGood s) : AllGood (t ++ s) := by
  obtain ⟨l, g, hl, hg, rfl⟩ := ht
  have := good_noBracket hl (good_spec hg h)
  simpa using this

def names : List String := ["AC", "IE", "TLE", "MLE", "OLE", "RTE", "IR", "WA", "SC"]

theorem code_name (x : String) (h : x ∈ names) : ∃ t, codeTag x.toList = some t ∧ CodeLike t := by
  simp only [names, List.mem_cons, List.not_mem_nil, or_false] at h
  rcases h with rfl | rfl | rfl | rfl | rfl | rfl | rfl | rfl | rfl
  · exact ⟨_, rfl, "#ansi[AC".toList, "green|bold".toList, by decide +kernel, by decide +kernel, by decide +kernel⟩
  · exact ⟨_, rfl, "#ansi[IE".toList, "red|bold".toList, by decide +kernel, by decide +kernel, by decide +kernel⟩
  · exact ⟨_, rfl, "#ansi[TLE".toList, "white|bold".toList, by decide +kernel, by decide +kernel, by decide +kernel⟩
  · exact ⟨_, rfl, "#ansi[MLE".toList, "yellow|bold".toList, by decide +kernel, by decide +kernel, by decide +kernel⟩
  · exact ⟨_, rfl, "#ansi[OLE".toList, "yellow|bold".toList, by decide +kernel, by decide +kernel, by decide +kernel⟩
  · exact ⟨_, rfl, "#ansi[RTE".toList, "yellow|bold".toList, by decide +kernel, by decide +kernel, by decide +kernel⟩
  · exact ⟨_, rfl, "#ansi[IR".toList, "yellow|bold".toList, by decide +kernel, by decide +kernel, by decide +kernel⟩
  · exact ⟨_, rfl, "#ansi[WA".toList, "red|bold".toList, by decide +kernel, by decide +kernel, by decide +kernel⟩
  · exact ⟨_, rfl, "#ansi[--".toList, "magenta|bold".toList, by decide +kernel, by decide +kernel, by decide +kernel⟩

theorem loop_names (flag : Int) (l : List (String × Nat)) (x : String) (h : x ∈ Result.readableLoop flag l) : x ∈ l.map (·.1) := by
  fun_induction Result.readableLoop flag l <;> grind

theorem codes_names (flag : Int) : Result.readableCodes flag ≠ [] ∧ ∀ x ∈ Result.readableCodes flag, x ∈ names := by
  have h := fun x => loop_names flag Result.displayOrder x
  unfold Result.readableCodes
  split
  · simp [names]
  · next hn =>
    refine ⟨fun e => hn e, fun x hx => ?_⟩
    have := h x hx
    revert this
    simp only [Result.displayOrder, names]
    simp
    grind

theorem tags (l : List String) (h : ∀ x ∈ l, x ∈ names) : ∃ ts, (l.mapM fun x => codeTag x.toList) = some ts ∧ ts.length = l.length ∧
    ∀ t ∈ ts, CodeLike t := by
  induction l with
  | nil => exact ⟨[], rfl, rfl, by simp⟩
  | cons x l ih =>
    obtain ⟨t, h1, h2⟩ := code_name x (h x (by simp))
    obtain ⟨ts, h3, h4, h5⟩ := ih fun y hy => h y (by simp [hy])
    refine ⟨t :: ts, ?_, by simp [h4], ?_⟩
    · rw [List.mapM_cons, h1, h3]; rfl
    · simpa using ⟨h2, h5⟩

theorem good_join (ts : List Str) (h : ∀ t ∈ ts, CodeLike t) (s : Str) (hs : AllGood s) : AllGood (join ts ++ s) := by
  induction ts with
  | nil => exact hs
  | cons t ts ih =>
    have ih := ih fun y hy => h y (by simp [hy])
    cases ts with
    | nil => exact good_code (h t (by simp)) hs
    | cons u ts =>
      rw [join]
      · rw [List.append_assoc, List.append_assoc]
        exact good_code (h t (by simp)) (good_noBracket (by decide +kernel) ih)
      · simp

/-- The line of a result whose feedback is harmless. -/
theorem good_line (r : Res) (hn : Number r.number) (hu : ∀ s, AllGood s → AllGood (r.usage ++ s)) (hf : Harmless r.feedback) :
    ∃ l, line r = some l ∧ AllGood l := by
  obtain ⟨h0, h1⟩ := codes_names r.flag
  obtain ⟨ts, h2, h3, h4⟩ := tags _ h1
  unfold line
  rw [h2]
  cases ts with
  | nil => exact absurd (List.length_eq_zero_iff.1 h3.symm) h0
  | cons t ts =>
    refine ⟨_, rfl, ?_⟩
    have hpad : ']' ∉ (if r.batch then "  ".toList else []) := by cases r.batch <;> decide +kernel
    have haux : AllGood (if ts.isEmpty then [] else '{' :: join ts ++ "}".toList) := by
      split
      · exact good_nil
      · exact good_cons (good_join ts (fun y hy => h4 y (by simp [hy])) _ (good_noBracket (p := "}".toList) (s := []) (by decide +kernel) good_nil)) (by simp)
    have hfb : AllGood ((if r.feedback.isEmpty then [] else "(#ansi[".toList ++ r.feedback ++ "](|underline)) ".toList) ++
        (if ts.isEmpty then [] else '{' :: join ts ++ "}".toList)) := by
      split
      · exact haux
      · rw [List.append_assoc, List.append_assoc]
        refine good_noBracket (by decide +kernel) ?_
        refine good_harmless hf ?_
        exact good_spec (g := "|underline".toList) (by decide +kernel) (good_noBracket (p := ") ".toList) (by decide +kernel) haux)
    have hinfo : AllGood (if Result.hasCode r.flag Result.SC then [] else r.usage ++
        (if r.feedback.isEmpty then [] else "(#ansi[".toList ++ r.feedback ++ "](|underline)) ".toList) ++
        (if ts.isEmpty then [] else '{' :: join ts ++ "}".toList)) := by
      split
      · exact good_nil
      · rw [List.append_assoc]; exact hu _ hfb
    simp only [List.append_assoc, List.cons_append]
    refine good_noBracket hpad (good_noBracket (by decide +kernel) (good_noBracket hn (good_cons (good_code (h4 t (by simp)) (good_cons ?_ (fun e => absurd e (by decide)))) (fun e => absurd e (by decide)))))
    simpa only [List.append_assoc, List.cons_append] using hinfo

theorem style_plain (s : Str) : (style true s).isSome = true := by
  fun_induction style true s <;> simp_all

theorem good_usage {u s : Str} (hu : Usage u) (h : AllGood s) : AllGood (u ++ s) := by
  obtain ⟨n, hn, rfl⟩ := hu
  have := good_noBracket (p := '[' :: n) (s := ']' :: ' ' :: s) (by simpa [Number] using hn)
    (good_cons (good_cons h (by simp)) (by simp))
  simpa using this

theorem line_some (r : Res) : ∃ l, line r = some l := by
  obtain ⟨h0, h1⟩ := codes_names r.flag
  obtain ⟨ts, h2, h3, h4⟩ := tags _ h1
  unfold line
  rw [h2]
  cases ts with
  | nil => exact absurd (List.length_eq_zero_iff.1 h3.symm) h0
  | cons t ts => exact ⟨_, rfl⟩

/-! ## Removing colours -/

theorem escape_eq : escape = esc := by decide

theorem digit_eq (c : Char) : digit c = isDigit c := rfl

instance (s : Str) : Decidable (Stops s) := by cases s <;> unfold Stops <;> infer_instance
instance (p : Str) : Decidable (Short p) := by unfold Short; infer_instance
instance (l : List Str) : Decidable (Known l) := by unfold Known; split <;> infer_instance
instance decUsual : (l : List Piece) → Decidable (Usual l)
  | [] => isTrue trivial
  | .text t :: l => @instDecidableAnd _ _ inferInstance (decUsual l)
  | .sgr ps :: l => @instDecidableAnd _ _ inferInstance (decUsual l)
  | .erase :: l => @instDecidableAnd _ _ inferInstance (decUsual l)
  | .eraseN n :: l => @instDecidableAnd _ _ inferInstance (decUsual l)

theorem two_suffix (s : Str) : two s <:+ s := by
  fun_cases two s <;> simp_all [List.suffix_cons_iff]
theorem three_suffix (s : Str) : three s <:+ s := by
  fun_cases three s <;> simp_all [List.suffix_cons_iff]
theorem letter_suffix (s : Str) : letter s <:+ s := by
  fun_cases letter s <;> simp_all [List.suffix_cons_iff]
theorem params_suffix (s : Str) : params s <:+ s := by
  fun_cases params s
  · exact ((three_suffix _).trans (two_suffix _)).trans ((List.suffix_cons _ _).trans (List.suffix_cons _ _))
  · exact ((three_suffix _).trans (two_suffix _)).trans (List.suffix_cons _ _)
  · exact List.suffix_refl _
  · exact List.nil_suffix
  · exact List.suffix_refl _
  · exact List.suffix_refl _

theorem rest_suffix (r : Str) : letter (params r) <:+ r := (letter_suffix _).trans (params_suffix _)

theorem strip_sublist (s : Str) : (stripAnsi s).Sublist s := by
  fun_induction stripAnsi s with
  | case1 => exact List.Sublist.refl _
  | case2 c => exact List.Sublist.refl _
  | case3 a b r h ih => exact (ih.trans (rest_suffix r).sublist).trans ((List.sublist_cons_self _ _).trans (List.sublist_cons_self _ _))
  | case4 a b r h ih => exact ih.cons₂ a

theorem strip_text (t s : Str) (ht : esc ∉ t) : stripAnsi (t ++ s) = t ++ stripAnsi s := by
  induction t with
  | nil => rfl
  | cons c t ih =>
    have hc : c ≠ esc := fun e => ht (by simp [e])
    have ih := ih fun h => ht (by simp [h])
    cases hts : t ++ s with
    | nil =>
      rw [hts] at ih
      rw [List.cons_append, hts, stripAnsi]
      simp only [List.append_eq_nil_iff] at hts
      obtain ⟨rfl, rfl⟩ := hts
      simp [stripAnsi]
    | cons d u =>
      rw [List.cons_append, hts, stripAnsi, if_neg (fun h => hc h.1), List.cons_append, ← ih, hts]

theorem strip_esc (r : Str) : stripAnsi (esc :: '[' :: r) = stripAnsi (letter (params r)) := by
  rw [stripAnsi, if_pos ⟨rfl, rfl⟩]

theorem first_digit {c : Char} (h : isDigit c = true) : isFirst c = true := by simp [isFirst, h]

theorem not_first_m : isFirst 'm' = false := by decide
theorem not_first_semi : isFirst ';' = false := by decide

theorem not_first {c : Char} (h : ¬ (digit c = true ∨ c = ',' ∨ ('A' ≤ c ∧ c ≤ 'Z'))) : isFirst c = false := by
  rw [digit_eq] at h
  rw [Bool.eq_false_iff]
  intro e
  refine h ?_
  simpa [isFirst, or_assoc] using e

theorem short_cases {p : Str} (h : Short p) : (∃ a, p = [a] ∧ isDigit a = true) ∨ ∃ a b, p = [a, b] ∧ isDigit a = true ∧ isDigit b = true := by
  obtain ⟨h1 | h1, h2⟩ := h
  · obtain ⟨a, rfl⟩ := List.length_eq_one_iff.1 h1
    exact Or.inl ⟨a, rfl, h2 a (by simp)⟩
  · obtain ⟨a, b, rfl⟩ : ∃ a b, p = [a, b] := by
      match p, h1 with
      | [a, b], _ => exact ⟨a, b, rfl⟩
    exact Or.inr ⟨a, b, rfl, h2 a (by simp), h2 b (by simp)⟩

theorem known_params (ps : List Str) (h : Known ps) (s : Str) : letter (params (params' ps ++ 'm' :: s)) = s := by
  have hm : isFirst 'm' = false := by decide
  have hs : isFirst ';' = false := by decide
  have dm : isDigit 'm' = false := by decide
  have ds : isDigit ';' = false := by decide
  match ps, h with
  | [], _ => cases s <;> simp [params', params, letter, hm]
  | [p], h =>
    obtain ⟨a, rfl, ha⟩ | ⟨a, b, rfl, ha, hb⟩ := short_cases h
    · simp [params', params, letter, hm, first_digit ha, two, three]
    · simp [params', params, letter, hm, first_digit ha, first_digit hb, two, three]
  | [p, q], ⟨h1, h2⟩ =>
    obtain ⟨a, rfl, ha⟩ | ⟨a, b, rfl, ha, hb⟩ := short_cases h1 <;> obtain ⟨c, rfl, hc⟩ | ⟨c, d, rfl, hc, hd⟩ := short_cases h2
    all_goals simp_all [params', params, letter, first_digit, two, three]
  | [p, q, r], ⟨h1, h2, h3, h4⟩ =>
    obtain ⟨x, y, z, rfl⟩ : ∃ x y z, r = [x, y, z] := by
      match r, h3 with
      | [x, y, z], _ => exact ⟨x, y, z, rfl⟩
    obtain ⟨a, rfl, ha⟩ | ⟨a, b, rfl, ha, hb⟩ := short_cases h1 <;> obtain ⟨c, rfl, hc⟩ | ⟨c, d, rfl, hc, hd⟩ := short_cases h2
    all_goals simp_all [digit_eq, params', params, letter, first_digit, two, three]

theorem erase_stops (s : Str) (h : Stops s) : letter (params ('K' :: s)) = s := by
  have hK : isFirst 'K' = true := by decide
  cases s with
  | nil => simp [params, letter, hK]
  | cons c r =>
    obtain ⟨h1, h2, h3, h4⟩ := h
    replace h1 := not_first h1
    simp only [digit_eq] at h4
    have hk : c ≠ 'K' := fun e => by rw [e, hK] at h1; cases h1
    have ht : two (c :: r) = c :: r := by
      by_cases hc : c = ';'
      · subst hc
        have h4 := h4 rfl
        cases r with
        | nil => rfl
        | cons d r =>
          have := h4 d (by simp)
          cases r <;> simp [two, this]
      · unfold two; split <;> simp_all
    have ht' : three (c :: r) = c :: r := by
      by_cases hc : c = ';'
      · subst hc
        have h4 := h4 rfl
        cases r with
        | nil => rfl
        | cons d r =>
          have := h4 d (by simp)
          unfold three; split <;> simp_all
      · unfold three; split <;> simp_all
    rw [params, if_pos hK, if_neg (by simp [h1]), ht, ht', letter, if_neg (by simp [h2, h3, hk])]

theorem stops_rest (s : Str) (h : Stops s) : letter (three (two s)) = s := by
  cases s with
  | nil => rfl
  | cons c r =>
    have h1 := erase_stops (c :: r) h
    have hK : isFirst 'K' = true := by decide
    rw [params, if_pos hK, if_neg (by simp [not_first h.1])] at h1
    exact h1

theorem eraseN_stops (n s : Str) (h : Short n) (hs : n.length = 1 → Stops s) : letter (params (n ++ 'K' :: s)) = s := by
  have hK : isFirst 'K' = true := by decide
  obtain ⟨a, rfl, ha⟩ | ⟨a, b, rfl, ha, hb⟩ := short_cases h
  · simpa [params, first_digit ha, hK] using stops_rest s (hs rfl)
  · simp [params, first_digit ha, first_digit hb, two, three, letter]

theorem strip_usual (l : List Piece) (h : Usual l) : stripAnsi (render l) = plain l := by
  induction l with
  | nil => simp [render, plain, stripAnsi]
  | cons p l ih =>
    cases p with
    | text t => rw [render, Piece.render, strip_text _ _ h.1, plain, ih h.2]
    | sgr ps =>
      rw [render, Piece.render]
      simp only [List.cons_append, List.append_assoc, List.nil_append]
      rw [escape_eq, strip_esc, known_params ps h.1, ih h.2, plain]; simp
    | erase =>
      rw [render, Piece.render]
      simp only [List.cons_append, List.nil_append]
      rw [escape_eq, strip_esc, erase_stops _ h.1, ih h.2, plain]; simp
    | eraseN n =>
      rw [render, Piece.render]
      simp only [List.cons_append, List.append_assoc, List.nil_append]
      rw [escape_eq, strip_esc, eraseN_stops n _ h.1.1 h.1.2, ih h.2, plain]; simp

theorem strip_clean (s : Str) (h : ∀ post, (esc :: post) <:+ s → ∃ r, post = '[' :: r) : esc ∉ stripAnsi s := by
  fun_induction stripAnsi s with
  | case1 => simp
  | case2 c =>
    simp only [List.mem_cons, List.not_mem_nil, or_false]
    rintro rfl
    obtain ⟨r, hr⟩ := h [] (List.suffix_refl _)
    cases hr
  | case3 a b r hab ih =>
    exact ih fun post hp => h post (hp.trans ((rest_suffix r).trans ((List.suffix_cons _ _).trans (List.suffix_cons _ _))))
  | case4 a b r hab ih =>
    simp only [List.mem_cons, not_or]
    refine ⟨?_, ih fun post hp => h post (hp.trans (List.suffix_cons _ _))⟩
    rintro rfl
    obtain ⟨q, hq⟩ := h (b :: r) (List.suffix_refl _)
    simp only [List.cons.injEq] at hq
    exact hab ⟨rfl, hq.1⟩

end Ansi

open Ansi

/-- Results are queued for the site whatever the log makes of them, if no feedback contains `](`. (Full property: for every feedback;
see `C79_thread_fails`.) -/
theorem C79_thread_partial (noAnsi : Bool) (rs : List Res) (hn : ∀ r ∈ rs, Number r.number ∧ Usage r.usage) (hf : ∀ r ∈ rs, Harmless r.feedback) :
    thread noAnsi rs = rs.map .queued := by
  induction rs with
  | nil => rfl
  | cons r rs ih =>
    obtain ⟨h1, h2⟩ := hn r (by simp)
    obtain ⟨l, hl, hg⟩ := good_line r h1 (fun s hs => good_usage h2 hs) (hf r (by simp))
    have hs : (style noAnsi l).isSome = true := by
      cases noAnsi
      · exact style_good l hg
      · exact style_plain l
    obtain ⟨x, hx⟩ := Option.isSome_iff_exists.1 hs
    rw [thread, hl, Option.bind_some, hx]
    simp only [List.map_cons]
    rw [ih (fun y hy => hn y (by simp [hy])) fun y hy => hf y (by simp [hy])]

/-- Without colours (`--no-ansi`) every result is queued. -/
theorem C79_noAnsi (rs : List Res) : thread true rs = rs.map .queued := by
  induction rs with
  | nil => rfl
  | cons r rs ih =>
    obtain ⟨l, hl⟩ := line_some r
    obtain ⟨x, hx⟩ := Option.isSome_iff_exists.1 (style_plain l)
    rw [thread, hl, Option.bind_some, hx]
    simp only [List.map_cons]
    rw [ih]

/-- A Java program that writes a line like that of the sandbox agent chooses its feedback (C69); with a bracket and a name of a colour that
does not exist in it, the result of the program is replaced by an internal error. -/
theorem C79_thread_fails : ∃ (err : Str) (p : Feedback.Proc) (f : Str), Feedback.parseJava none err p = some f ∧
    thread false [{ flag := 2, feedback := f }] = [.internalError] ∧ thread true [{ flag := 2, feedback := f }] ≠ [.internalError] :=
  ⟨"7257b50d-e37a-4664-b1a5-b1340b4206c0: x](evil)\n".toList,
   ⟨false, true, false, false, false, true, 0, none⟩, "x](evil)".toList, by decide +kernel, by decide +kernel, by decide +kernel⟩

/-- A feedback that looks almost like a tag, and results as they are logged. -/
example : Harmless "#ansi[x] (red)]\n".toList ∧ Number ({ flag := 1 : Res }).number ∧ Usage ({ flag := 1 : Res }).usage ∧
    thread false [{ flag := 1, feedback := "#ansi[x] (red)]\n".toList }, { flag := 32 }, { flag := 0 }] =
      [.queued { flag := 1, feedback := "#ansi[x] (red)]\n".toList }, .queued { flag := 32 }, .queued { flag := 0 }] := by
  refine ⟨fun ⟨a, b, e⟩ => ?_, by unfold Number; decide +kernel, ⟨"0.010s (0.010s) | 1024kb".toList, by unfold Number; decide +kernel, by decide +kernel⟩,
    by decide +kernel⟩
  have h : ∀ n, ("#ansi[x] (red)]\n".toList.drop n).take 2 ≠ [']', '('] := by
    intro n
    rcases Nat.lt_or_ge n 20 with hn | hn
    · revert n; decide +kernel
    · rw [List.drop_eq_nil_of_le (Nat.le_trans (by decide +kernel) hn)]; simp
  exact h a.length (by rw [e]; simp)

/-- Stripping leaves a message as it is except for its colours, if these are of the usual kinds and no erase is followed by something that
can be taken for a part of it. (Full property: for all colours and erases; see `C80_erase_fails` and `C80_colour_fails`.) -/
theorem C80_strip_partial (l : List Piece) (h : Usual l) : stripAnsi (render l) = plain l := strip_usual l h

/-- A message of GCC. -/
example : Usual [.sgr ["01".toList], .erase, .text "a.cpp:1:5:".toList, .sgr [], .erase, .text " ".toList, .sgr ["01".toList, "31".toList], .erase,
      .text "error: ".toList, .sgr [], .erase, .text "‘".toList, .sgr ["01".toList], .erase, .text "f".toList, .eraseN "00".toList,
      .text "Kx".toList] ∧
    stripAnsi "\x1b[01m\x1b[Ka.cpp:1:5:\x1b[m\x1b[K \x1b[01;31m\x1b[Kerror: \x1b[m\x1b[K‘\x1b[01m\x1b[Kf\x1b[00KKx".toList = "a.cpp:1:5: error: ‘fKx".toList := by
  exact ⟨by decide +kernel, by decide +kernel⟩

/-- Text without colours is left alone; whatever the message, nothing is added or moved. -/
theorem C80_text (s : Str) : (stripAnsi s).Sublist s ∧ (escape ∉ s → stripAnsi s = s) := by
  refine ⟨strip_sublist s, fun h => ?_⟩
  have := strip_text s [] h
  simpa [stripAnsi] using this

/-- If escapes only begin sequences, none is left. -/
theorem C80_clean (s : Str) (h : ∀ post, (escape :: post) <:+ s → ∃ r, post = '[' :: r) : escape ∉ stripAnsi s := strip_clean s h

/-- Such a message, though its colour is not known. -/
example : ∀ post, (escape :: post) <:+ "a\x1b[1;2;3mb".toList → ∃ r, post = '[' :: r := by
  intro post h
  have e : "a\x1b[1;2;3mb".toList = ['a', escape, '[', '1', ';', '2', ';', '3', 'm', 'b'] := by decide +kernel
  rw [e] at h
  simp [List.suffix_cons_iff, escape] at h
  exact ⟨_, h⟩

private theorem digit_eq (c : Char) : isDigit c = digit c := rfl

private theorem first_iff {c : Char} (h : isFirst c = true) : digit c = true ∨ c = ',' ∨ ('A' ≤ c ∧ c ≤ 'Z') := by
  simp only [isFirst, Bool.or_eq_true, beq_iff_eq, Bool.and_eq_true, decide_eq_true_eq] at h
  rcases h with (h | h) | h
  · exact Or.inl h
  · exact Or.inr (Or.inl h)
  · exact Or.inr (Or.inr h)

private theorem two_part (s : Str) : ∃ q, s = q ++ two s ∧ (q = [] ∨ ∃ n, q = ';' :: n ∧ Short n) := by
  fun_cases two s
  · rename_i a b r ha hb
    exact ⟨[';', a, b], rfl, Or.inr ⟨[a, b], rfl, Or.inr rfl, by simpa using ⟨ha, hb⟩⟩⟩
  · rename_i a b r ha hb
    exact ⟨[';', a], rfl, Or.inr ⟨[a], rfl, Or.inl rfl, by simpa [← digit_eq] using ha⟩⟩
  · exact ⟨[], rfl, Or.inl rfl⟩
  · rename_i a ha
    exact ⟨[';', a], rfl, Or.inr ⟨[a], rfl, Or.inl rfl, by simpa [← digit_eq] using ha⟩⟩
  · exact ⟨[], rfl, Or.inl rfl⟩
  · exact ⟨[], rfl, Or.inl rfl⟩

private theorem three_part (s : Str) : ∃ q, s = q ++ three s ∧ (q = [] ∨ ∃ n, q = ';' :: n ∧ n.length = 3 ∧ ∀ c ∈ n, digit c = true) := by
  fun_cases three s
  · rename_i a b c r h
    simp only [Bool.and_eq_true] at h
    exact ⟨[';', a, b, c], rfl, Or.inr ⟨[a, b, c], rfl, rfl, by simpa using ⟨h.1.1, h.1.2, h.2⟩⟩⟩
  · exact ⟨[], rfl, Or.inl rfl⟩
  · exact ⟨[], rfl, Or.inl rfl⟩

private theorem letter_part (s : Str) : ∃ l, s = l ++ letter s ∧ (l = [] ∨ l ∈ [['m'], ['|'], ['K']]) := by
  fun_cases letter s
  · rename_i c r h
    simp only [Bool.or_eq_true, decide_eq_true_eq] at h
    exact ⟨[c], rfl, Or.inr (by simp; tauto)⟩
  · exact ⟨[], rfl, Or.inl rfl⟩
  · exact ⟨[], rfl, Or.inl rfl⟩

private theorem tail_part (p s : Str) (hp : (p.length = 1 ∨ p.length = 2) ∧ ∀ c ∈ p, isFirst c = true) :
    ∃ x, p ++ s = x ++ letter (three (two s)) ∧ Code x := by
  obtain ⟨q, e1, hq⟩ := two_part s
  obtain ⟨r, e2, hr⟩ := three_part (two s)
  obtain ⟨l, e3, hl⟩ := letter_part (three (two s))
  refine ⟨p ++ (q ++ (r ++ l)), ?_, .params p q r l ⟨hp.1, fun c hc => first_iff (hp.2 c hc)⟩ hq hr hl⟩
  conv => lhs; rw [e1, e2, e3]
  simp

private theorem code_part (s : Str) : ∃ x, s = x ++ letter (params s) ∧ Code x := by
  have bare : ∀ s, ∃ x, s = x ++ letter s ∧ Code x := fun s => by
    obtain ⟨l, e, hl⟩ := letter_part s
    exact ⟨l, e, .bare l hl⟩
  fun_cases params s
  · rename_i a b r ha hb
    exact tail_part [a, b] r ⟨Or.inr rfl, by simpa using ⟨ha, hb⟩⟩
  · rename_i a b r ha hb
    exact tail_part [a] (b :: r) ⟨Or.inl rfl, by simpa using ha⟩
  · exact bare _
  · rename_i a ha
    exact tail_part [a] [] ⟨Or.inl rfl, by simpa using ha⟩
  · exact bare _
  · exact bare _

/-- Whatever the message: sequences that the expression matches are taken out, and every other character stays. -/
theorem C80_removed (s : Str) : Removed s (stripAnsi s) := by
  fun_induction stripAnsi s with
  | case1 => exact .nil
  | case2 c => exact .keep c [] [] (by simp) .nil
  | case3 a b r h ih =>
    obtain ⟨x, e, hx⟩ := code_part r
    obtain ⟨rfl, rfl⟩ := h
    have := Removed.code x _ _ hx ih
    rw [← e] at this
    exact this
  | case4 a b r h ih => exact .keep a _ _ (fun e hb => h ⟨e, by simpa using hb⟩) ih

/-- Something is taken out of `ESC [ x`, and the letter stays. -/
example : stripAnsi [escape, '[', 'x'] = ['x'] ∧ Removed [escape, '[', 'x'] ['x'] ∧ ¬ Removed [escape, '[', 'x'] [] := by
  have h : stripAnsi [escape, '[', 'x'] = ['x'] := by decide +kernel
  have hr := C80_removed [escape, '[', 'x']
  rw [h] at hr
  refine ⟨h, hr, fun h => ?_⟩
  generalize e : [escape, '[', 'x'] = s at h
  cases h with
  | nil => cases e
  | code p s t hp hs =>
    injection e with _ e
    injection e with _ e
    have hs : s = [] := by
      cases hs with
      | nil => rfl
      | code p' s' t hp' hs' => have := congrArg List.length e; simp at this; omega
    rw [hs, List.append_nil] at e
    subst e
    generalize e : ['x'] = s at hp
    cases hp with
    | bare l hl => subst e; simp at hl
    | params p q r l hp hq hr hl =>
      obtain ⟨hlen, hp⟩ := hp
      cases p with
      | nil => simp at hlen
      | cons c p =>
        simp only [List.cons_append, List.cons.injEq] at e
        have := hp c (by simp)
        rw [← e.1] at this
        revert this
        decide

/-- The first letter of a name is lost after an erase: GCC's `main`, or a name with a capital. -/
theorem C80_erase_fails : stripAnsi (render [.sgr ["01".toList], .erase, .text "main".toList]) = "ain".toList ∧
    stripAnsi (render [.sgr ["01".toList], .erase, .text "Solver".toList]) = "olver".toList ∧
    plain [.sgr ["01".toList], .erase, .text "Solver".toList] = "Solver".toList := by decide +kernel

/-- Part of a colour is left when it has three short parameters or a long second one. -/
theorem C80_colour_fails : stripAnsi (render [.sgr ["1".toList, "31".toList, "42".toList], .text "x".toList]) = ";42mx".toList ∧
    stripAnsi (render [.sgr ["0".toList, "107".toList], .text "x".toList]) = "7mx".toList := by decide +kernel

end Verif.Props
