import Verif.Spec.Loader
/-! # C74: the executors the judge offers -/

namespace Verif.Props

open Verif.Loader

namespace Ld

/-! ### Names -/

theorem split_last : ∀ s : List Char, ',' ∉ s → split s = [s]
  | [], _ => rfl
  | c :: s, h => by
    simp only [List.mem_cons, not_or] at h
    unfold split
    rw [if_neg fun e => h.1 e.symm, split_last s h.2]

theorem split_comma (t : List Char) : ∀ x : List Char, ',' ∉ x → split (x ++ ',' :: t) = x :: split t
  | [], _ => by simp [split]
  | c :: s, h => by
    simp only [List.mem_cons, not_or] at h
    rw [List.cons_append, split, if_neg fun e => h.1 e.symm, split_comma t s h.2]

theorem first_comma (s : List Char) : ',' ∉ s ∨ ∃ x t, s = x ++ ',' :: t ∧ ',' ∉ x := by
  induction s with
  | nil => left; simp
  | cons c s ih =>
    by_cases hc : c = ','
    · right; exact ⟨[], s, by simp [hc], by simp⟩
    · rcases ih with h | ⟨x, t, rfl, h⟩
      · left; simp only [List.mem_cons, not_or]; exact ⟨fun e => hc e.symm, h⟩
      · right; refine ⟨c :: x, t, rfl, ?_⟩; simp only [List.mem_cons, not_or]; exact ⟨fun e => hc e.symm, h⟩

def Between (s n : List Char) : Prop := ∃ pre post, s = pre ++ n ++ post ∧ ',' ∉ n ∧
    (pre = [] ∨ ∃ p, pre = p ++ [',']) ∧ (post = [] ∨ ∃ p, post = ',' :: p)

theorem append_comma {x t n post : List Char} (hx : ',' ∉ x) (hn : ',' ∉ n) (h : x ++ ',' :: t = n ++ post)
    (hp : post = [] ∨ ∃ p, post = ',' :: p) : n = x ∧ post = ',' :: t := by
  rcases hp with rfl | ⟨p, rfl⟩
  · exfalso; apply hn; rw [List.append_nil] at h; rw [← h]; simp
  · have := split_comma t x hx
    rw [h, split_comma p n hn] at this
    have e := (List.cons.inj this).1
    subst e
    exact ⟨rfl, List.append_cancel_left h.symm⟩

theorem mem_split (n : Name) : ∀ (k : Nat) (s : List Char), s.length ≤ k → (n ∈ split s ↔ Between s n) := by
  intro k
  induction k with
  | zero =>
    intro s hs
    cases List.length_eq_zero_iff.1 (Nat.le_zero.1 hs)
    simp only [split, List.mem_singleton]
    constructor
    · rintro rfl; exact ⟨[], [], by simp⟩
    · rintro ⟨pre, post, h, -⟩
      have := congrArg List.length h
      simp only [List.length_nil, List.length_append] at this
      exact List.length_eq_zero_iff.1 (by omega)
  | succ k ih =>
    intro s hs
    rcases first_comma s with h | ⟨x, t, rfl, hx⟩
    · rw [split_last s h, List.mem_singleton]
      constructor
      · rintro rfl; exact ⟨[], [], by simp, h, .inl rfl, .inl rfl⟩
      · rintro ⟨pre, post, rfl, -, h2, h3⟩
        rcases h2 with rfl | ⟨p, rfl⟩
        · rcases h3 with rfl | ⟨q, rfl⟩
          · simp
          · simp at h
        · simp at h
    · rw [split_comma t x hx, List.mem_cons, ih t (by simp at hs; omega)]
      constructor
      · rintro (rfl | ⟨pre, post, rfl, h1, h2, h3⟩)
        · exact ⟨[], ',' :: t, by simp, hx, .inl rfl, .inr ⟨t, rfl⟩⟩
        · refine ⟨x ++ ',' :: pre, post, by simp, h1, .inr ?_, h3⟩
          rcases h2 with rfl | ⟨p, rfl⟩
          · exact ⟨x, rfl⟩
          · exact ⟨x ++ ',' :: p, by simp⟩
      · rintro ⟨pre, post, h, h1, h2, h3⟩
        rcases h2 with rfl | ⟨p, rfl⟩
        · left
          exact (append_comma hx h1 (by simpa using h) h3).1
        · right
          rcases first_comma p with hp | ⟨y, q, rfl, hy⟩
          · obtain ⟨rfl, e⟩ := append_comma (t := t) hx hp (post := ',' :: (n ++ post)) (by simpa using h) (.inr ⟨_, rfl⟩)
            refine ⟨[], post, ?_, h1, .inl rfl, h3⟩
            simpa using (List.cons.inj e).2.symm
          · obtain ⟨rfl, e⟩ := append_comma (t := t) hx hy (post := ',' :: (q ++ ',' :: (n ++ post))) (by simpa using h)
              (.inr ⟨_, rfl⟩)
            refine ⟨q ++ [','], post, ?_, h1, .inr ⟨q, rfl⟩, h3⟩
            simpa using (List.cons.inj e).2.symm

theorem names_iff (arg : Option (List Char)) (n : Name) : n ∈ names arg ↔ Listed arg n := by
  unfold Listed
  cases arg with
  | none => simp [names]
  | some s =>
    cases s with
    | nil => simp [names]
    | cons c s =>
      simp only [names]
      rw [mem_split n _ _ (Nat.le_refl _)]
      constructor
      · rintro ⟨pre, post, h⟩; exact ⟨_, pre, post, rfl, by simp, h⟩
      · rintro ⟨s', pre, post, h, -, h'⟩; cases h; exact ⟨pre, post, h'⟩

theorem split_ne (s : List Char) : split s ≠ [] := by
  rcases first_comma s with h | ⟨x, t, rfl, hx⟩
  · rw [split_last s h]; simp
  · rw [split_comma t x hx]; simp

theorem names_nil (arg : Option (List Char)) : names arg = [] ↔ ¬Given arg := by
  unfold Given
  cases arg with
  | none => simp [names]
  | some s =>
    cases s with
    | nil => simp [names]
    | cons c s => simp [names, split_ne]

theorem takeWhile_split (f : Char → Bool) : ∀ (n r : List Char), (∀ c ∈ n, f c = true) → (∀ c t, r = c :: t → f c = false) →
    (n ++ r).takeWhile f = n ∧ (n ++ r).dropWhile f = r
  | [], [], _, _ => by simp
  | [], c :: r, _, h => by have := h c r rfl; simp [this]
  | a :: n, r, hn, h => by
    obtain ⟨h1, h2⟩ := takeWhile_split f n r (fun c hc => hn c (.tail _ hc)) h
    simp [hn a (.head _), h1, h2]

theorem mem_takeWhile {f : Char → Bool} {c : Char} : ∀ {s : List Char}, c ∈ s.takeWhile f → f c = true
  | a :: s, h => by
    rw [List.takeWhile_cons] at h
    split at h
    · next ha => rcases List.mem_cons.1 h with rfl | h
                 · exact ha
                 · exact mem_takeWhile h
    · exact nomatch h

theorem upper_iff (c : Char) : upperOrDigit c = true ↔ ('A' ≤ c ∧ c ≤ 'Z') ∨ ('0' ≤ c ∧ c ≤ '9') := by
  simp [upperOrDigit]

theorem stem_iff (f n : Name) : stem f = some n ↔ n ≠ [] ∧ (∀ c ∈ n, upperOrDigit c = true) ∧
    (f = n ++ ".py".toList ∨ f = n ++ ".py\n".toList) := by
  unfold stem
  dsimp only
  constructor
  · intro h
    split at h
    · next hs =>
      cases h
      refine ⟨hs.1, fun c hc => mem_takeWhile hc, ?_⟩
      rcases hs.2 with h | h
      · left; rw [← h, List.takeWhile_append_dropWhile]
      · right; rw [← h, List.takeWhile_append_dropWhile]
    · exact nomatch h
  · rintro ⟨h1, h2, h | h⟩
    · obtain ⟨a, b⟩ := takeWhile_split upperOrDigit n ".py".toList h2 (by rintro c t ⟨rfl, -⟩; decide)
      rw [h, a, b, if_pos ⟨h1, .inl rfl⟩]
    · obtain ⟨a, b⟩ := takeWhile_split upperOrDigit n ".py\n".toList h2 (by rintro c t ⟨rfl, -⟩; decide)
      rw [h, a, b, if_pos ⟨h1, .inr rfl⟩]

theorem insert_perm (n : Name) : ∀ l, (Loader.insert n l).Perm (n :: l)
  | [] => .refl _
  | m :: l => by
    rw [Loader.insert]
    split
    · exact .refl _
    · exact ((insert_perm n l).cons m).trans (.swap n m l)

theorem sorted_perm : ∀ l, (sorted l).Perm l
  | [] => .refl _
  | n :: l => (insert_perm n _).trans ((sorted_perm l).cons n)

theorem mem_distinct (n : Name) : ∀ l, n ∈ distinct l ↔ n ∈ l
  | [] => Iff.rfl
  | m :: l => by
    rw [distinct]
    split
    · next h =>
      rw [mem_distinct n l, List.mem_cons]
      exact ⟨.inr, fun h' => h'.elim (fun e => e ▸ h) id⟩
    · rw [List.mem_cons, List.mem_cons, mem_distinct n l]

theorem nodup_distinct : ∀ l, (distinct l).Nodup
  | [] => .nil
  | m :: l => by
    rw [distinct]
    split
    · exact nodup_distinct l
    · next h => exact List.nodup_cons.2 ⟨fun h' => h ((mem_distinct m l).1 h'), nodup_distinct l⟩

theorem mem_available (listing only exclude : List Name) (n : Name) : n ∈ available listing only exclude ↔
    HasFile listing n ∧ (only ≠ [] → n ∈ only) ∧ n ∉ exclude ∧ n ≠ "BASH".toList := by
  unfold available
  dsimp only
  rw [(sorted_perm _).mem_iff, mem_distinct, List.mem_filter]
  have hf : n ∈ listing.filterMap stem ↔ HasFile listing n := by
    rw [List.mem_filterMap]
    unfold HasFile
    constructor
    · rintro ⟨f, hf, h⟩
      obtain ⟨h1, h2, h3⟩ := (stem_iff f n).1 h
      refine ⟨h1, fun c hc => (upper_iff c).1 (h2 c hc), ?_⟩
      rcases h3 with rfl | rfl
      · exact .inl hf
      · exact .inr hf
    · rintro ⟨h1, h2, h3 | h3⟩
      · exact ⟨_, h3, (stem_iff _ n).2 ⟨h1, fun c hc => (upper_iff c).2 (h2 c hc), .inl rfl⟩⟩
      · exact ⟨_, h3, (stem_iff _ n).2 ⟨h1, fun c hc => (upper_iff c).2 (h2 c hc), .inr rfl⟩⟩
  have ho : n ∈ (if only = [] then listing.filterMap stem else (listing.filterMap stem).filter (· ∈ only)) ↔
      HasFile listing n ∧ (only ≠ [] → n ∈ only) := by
    split
    · next h => simp [hf, h]
    · next h => rw [List.mem_filter, hf]; simp [h]
  rw [ho]
  simp [unsupported, and_assoc]

theorem nodup_available (listing only exclude : List Name) : (available listing only exclude).Nodup := by
  unfold available
  exact (sorted_perm _).nodup_iff.2 (nodup_distinct _)

/-! ### Versions -/

theorem digit_iff (c : Char) : digit c = true ↔ '0' ≤ c ∧ c ≤ '9' := by simp [digit]

theorem runs_digit {c : Char} (h : digit c = true) (cur : List Char) : ∀ s, runs cur (c :: s) = runs (c :: cur) s
  | [] => by simp [runs, h]
  | d :: s => by rw [runs, if_pos h]

theorem runs_digits : ∀ (d : List Char), (∀ c ∈ d, digit c = true) → ∀ cur s, runs cur (d ++ s) = runs (d.reverse ++ cur) s
  | [], _, _, _ => rfl
  | c :: d, h, cur, s => by
    rw [List.cons_append, runs_digit (h c (.head _)), runs_digits d (fun x hx => h x (.tail _ hx))]
    simp

theorem runs_dot {d : Char} (h : digit d = true) (cur s : List Char) : runs cur ('.' :: d :: s) = cur.reverse :: runs [d] s := by
  rw [runs, if_neg (by decide), if_pos ⟨rfl, h⟩]

theorem runs_ended (cur : List Char) : ∀ s, Ended s → runs cur s = [cur.reverse]
  | [], _ => rfl
  | [c], h => by
    have := h.1 c [] rfl
    rw [← digit_iff] at this
    simp [runs, this]
  | c :: d :: s, h => by
    have h1 := h.1 c _ rfl
    rw [← digit_iff] at h1
    rw [runs, if_neg h1, if_neg]
    rintro ⟨rfl, h2⟩
    exact h.2 d s rfl ((digit_iff d).1 h2)

theorem ended_or (s : List Char) : Ended s ∨ (∃ c t, s = c :: t ∧ digit c = true) ∨ ∃ c t, s = '.' :: c :: t ∧ digit c = true := by
  simp only [digit_iff]
  by_cases h1 : ∃ c t, s = c :: t ∧ '0' ≤ c ∧ c ≤ '9'
  · exact .inr (.inl h1)
  · by_cases h2 : ∃ c t, s = '.' :: c :: t ∧ '0' ≤ c ∧ c ≤ '9'
    · exact .inr (.inr h2)
    · exact .inl ⟨fun c t h hc => h1 ⟨c, t, h, hc⟩, fun c t h hc => h2 ⟨c, t, h, hc⟩⟩

/-- A part of a version. -/
def Part (p : List Char) : Prop := p ≠ [] ∧ ∀ c ∈ p, '0' ≤ c ∧ c ≤ '9'

theorem runs_ne (cur : List Char) : ∀ s, runs cur s ≠ [] := by
  intro s
  fun_induction runs cur s <;> simp_all

theorem runs_shape : ∀ (k : Nat) (cur s : List Char), s.length ≤ k → Part cur.reverse →
    ∃ post, cur.reverse ++ s = dotted (runs cur s) ++ post ∧ Ended post ∧ ∀ p ∈ runs cur s, Part p := by
  intro k
  induction k with
  | zero =>
    intro cur s hs hp
    cases List.length_eq_zero_iff.1 (Nat.le_zero.1 hs)
    exact ⟨[], by simp [runs, dotted], ⟨by simp, by simp⟩, by simpa [runs] using hp⟩
  | succ k ih =>
    intro cur s hs hp
    rcases ended_or s with h | ⟨c, t, rfl, h⟩ | ⟨c, t, rfl, h⟩
    · rw [runs_ended cur s h]
      exact ⟨s, by simp [dotted], h, by simpa using hp⟩
    · rw [runs_digit h]
      have hp' : Part (c :: cur).reverse := by
        refine ⟨by simp, ?_⟩
        intro x hx
        simp only [List.reverse_cons, List.mem_append, List.mem_singleton] at hx
        rcases hx with hx | rfl
        · exact hp.2 x hx
        · exact (digit_iff x).1 h
      obtain ⟨post, h1, h2, h3⟩ := ih (c :: cur) t (by simp at hs; omega) hp'
      exact ⟨post, by rw [← h1]; simp, h2, h3⟩
    · rw [runs_dot h]
      have hp' : Part [c].reverse := ⟨by simp, by simpa using (digit_iff c).1 h⟩
      obtain ⟨post, h1, h2, h3⟩ := ih [c] t (by simp at hs; omega) hp'
      refine ⟨post, ?_, h2, ?_⟩
      · cases hr : runs [c] t with
        | nil => exact absurd hr (runs_ne _ _)
        | cons x xs =>
          rw [hr] at h1
          simp only [dotted]
          rw [List.append_assoc, List.cons_append, ← h1]
          simp
      · simp only [List.mem_cons, forall_eq_or_imp]
        exact ⟨hp, h3⟩

/-- What is found from the beginning of a version on. -/
theorem runs_parts (post : List Char) : ∀ (ps : List (List Char)) (c : Char) (p : List Char),
    (∀ q ∈ (c :: p) :: ps, Part q) → ∃ s, c :: s = dotted ((c :: p) :: ps) ++ post ∧ ps.length < (runs [c] s).length ∧
      (Ended post → runs [c] s = (c :: p) :: ps)
  | [], c, p, h => by
    refine ⟨p ++ post, by simp [dotted], ?_, ?_⟩
    · have := runs_ne [c] (p ++ post)
      have := List.length_pos_iff.2 this
      simpa using this
    · intro he
      have hp : ∀ x ∈ p, digit x = true := fun x hx => (digit_iff x).2 ((h _ (.head _)).2 x (.tail _ hx))
      rw [runs_digits p hp, runs_ended _ _ he]
      simp
  | q :: ps, c, p, h => by
    have hp : ∀ x ∈ p, digit x = true := fun x hx => (digit_iff x).2 ((h _ (.head _)).2 x (.tail _ hx))
    cases q with
    | nil => exact absurd rfl (h [] (by simp)).1
    | cons d q =>
      obtain ⟨s, h1, h2, h3⟩ := runs_parts post ps d q fun x hx => h x (.tail _ hx)
      have hd : digit d = true := (digit_iff d).2 ((h (d :: q) (by simp)).2 d (.head _))
      refine ⟨p ++ '.' :: d :: s, ?_, ?_, ?_⟩
      · rw [h1]; simp [dotted]
      · rw [runs_digits p hp, runs_dot hd]
        simp only [List.length_cons]
        omega
      · intro he
        rw [runs_digits p hp, runs_dot hd, h3 he]
        simp

theorem at_start {least : Nat} {c : Char} {s : List Char} {parts : List (List Char)} {post : List Char}
    (h : VersionAt least (c :: s) [] parts post) : digit c = true ∧ least ≤ (runs [c] s).length ∧
      (Ended post → runs [c] s = parts) := by
  obtain ⟨h1, h2, h3, h4⟩ := h
  cases parts with
  | nil => exact absurd rfl h2
  | cons p ps =>
    cases p with
    | nil => exact absurd rfl (h4 [] (by simp)).1
    | cons d p =>
      obtain ⟨s', e, hl, hr⟩ := runs_parts post ps d p h4
      rw [List.nil_append, ← e] at h1
      simp only [List.cons.injEq] at h1
      obtain ⟨rfl, rfl⟩ := h1
      refine ⟨(digit_iff c).2 ((h4 (c :: p) (by simp)).2 c (.head _)), ?_, hr⟩
      simp only [List.length_cons] at h3
      omega

theorem start_at {least : Nat} {c : Char} {s : List Char} (hc : digit c = true) (hl : least ≤ (runs [c] s).length) :
    ∃ post, VersionAt least (c :: s) [] (runs [c] s) post ∧ Ended post := by
  obtain ⟨post, h1, h2, h3⟩ := runs_shape _ [c] s (Nat.le_refl _) ⟨by simp, by simpa using (digit_iff c).1 hc⟩
  exact ⟨post, ⟨by simpa using h1, runs_ne _ _, hl, h3⟩, h2⟩

theorem number_eq (p : List Char) : number p = Nat.ofDigitChars 10 p 0 := rfl

theorem shift {least : Nat} {c : Char} {s pre : List Char} {parts : List (List Char)} {post : List Char} :
    VersionAt least (c :: s) (c :: pre) parts post ↔ VersionAt least s pre parts post := by
  simp [VersionAt]

theorem cons_pre {least : Nat} {c d : Char} {s pre : List Char} {parts : List (List Char)} {post : List Char}
    (h : VersionAt least (c :: s) (d :: pre) parts post) : d = c := by
  have := h.1
  simp only [List.cons_append, List.cons.injEq] at this
  exact this.1.symm

/-- The first version in a text, as long as possible. -/
def First (least : Nat) (text : List Char) (v : Version) : Prop :=
  ∃ pre parts post, VersionAt least text pre parts post ∧ Ended post ∧ v = parts.map (fun p => Nat.ofDigitChars 10 p 0) ∧
    ∀ pre' parts' post', VersionAt least text pre' parts' post' → pre.length ≤ pre'.length

theorem parse_iff (least : Nat) (v : Version) : ∀ text, parseVersion least text = some v ↔ First least text v
  | [] => by
    simp only [parseVersion]
    constructor
    · exact fun h => nomatch h
    · rintro ⟨pre, parts, post, ⟨h1, h2, h3, h4⟩, -⟩
      cases parts with
      | nil => exact absurd rfl h2
      | cons p ps =>
        have hp := (h4 p (by simp)).1
        have hl : p = [] := by
          have := congrArg List.length h1
          cases ps <;> simp [dotted] at this
          · exact List.length_eq_zero_iff.1 (by omega)
        exact absurd hl hp
  | c :: s => by
    rw [parseVersion]
    by_cases hh : digit c = true ∧ least ≤ (runs [c] s).length
    · rw [if_pos hh]
      obtain ⟨post, h1, h2⟩ := start_at hh.1 hh.2
      constructor
      · intro h
        cases h
        exact ⟨[], _, post, h1, h2, rfl, by simp⟩
      · rintro ⟨pre, parts, post', hv, he, rfl, hm⟩
        have := hm _ _ _ h1
        cases pre with
        | cons d pre => simp at this
        | nil => rw [(at_start hv).2.2 he]; rfl
    · rw [if_neg hh, parse_iff least v s]
      have hno : ∀ parts post, ¬VersionAt least (c :: s) [] parts post := fun parts post h =>
        hh ⟨(at_start h).1, (at_start h).2.1⟩
      constructor
      · rintro ⟨pre, parts, post, hv, he, hn, hm⟩
        refine ⟨c :: pre, parts, post, shift.2 hv, he, hn, ?_⟩
        intro pre' parts' post' h'
        cases pre' with
        | nil => exact absurd h' (hno _ _)
        | cons d pre' =>
          cases cons_pre h'
          have := hm _ _ _ (shift.1 h')
          simpa using this
      · rintro ⟨pre, parts, post, hv, he, hn, hm⟩
        cases pre with
        | nil => exact absurd hv (hno _ _)
        | cons d pre =>
          cases cons_pre hv
          refine ⟨pre, parts, post, shift.1 hv, he, hn, ?_⟩
          intro pre' parts' post' h'
          have := hm _ _ _ (shift.2 h')
          simpa using this

theorem parse_ne {least : Nat} {text : List Char} {v : Version} (h : parseVersion least text = some v) : v ≠ [] := by
  obtain ⟨_, parts, _, hv, _, rfl, _⟩ := (parse_iff least v text).1 h
  intro h
  exact hv.2.1 (List.map_eq_nil_iff.1 h)

theorem parse_none (least : Nat) (text : List Char) : parseVersion least text = none ↔
    ∀ pre parts post, ¬VersionAt least text pre parts post := by
  induction text with
  | nil =>
    simp only [parseVersion, true_iff]
    rintro pre parts post ⟨h1, h2, h3, h4⟩
    cases parts with
    | nil => exact h2 rfl
    | cons p ps =>
      have hp := (h4 p (by simp)).1
      have := congrArg List.length h1
      cases ps <;> simp [dotted] at this
      · exact hp (List.length_eq_zero_iff.1 (by omega))
  | cons c s ih =>
    rw [parseVersion]
    by_cases hh : digit c = true ∧ least ≤ (runs [c] s).length
    · rw [if_pos hh]
      obtain ⟨post, h1, -⟩ := start_at hh.1 hh.2
      exact ⟨nofun, fun h => absurd h1 (h _ _ _)⟩
    · rw [if_neg hh, ih]
      constructor
      · intro h pre parts post h'
        cases pre with
        | nil => exact hh ⟨(at_start h').1, (at_start h').2.1⟩
        | cons d pre => cases cons_pre h'; exact h _ _ _ (shift.1 h')
      · intro h pre parts post h'
        exact h _ _ _ (shift.2 h')

theorem tryFlags_iff (least : Nat) (run : List Name → Out) (v : Version) : ∀ fs,
    (∃ o, tryFlags least run fs = .ok o ∧ o.getD [] = v) ↔ Reports least run fs v
  | [] => by
    simp only [tryFlags]
    constructor
    · rintro ⟨o, h, rfl⟩; cases h; exact .none
    · intro h; cases h; exact ⟨none, rfl, rfl⟩
  | f :: fs => by
    have ih := tryFlags_iff least run v fs
    rw [tryFlags]
    cases hr : run f with
    | failed =>
      dsimp only
      rw [ih]
      constructor
      · exact .skip hr
      · intro h
        cases h with
        | skip _ h => exact h
        | blank h => rw [hr] at h; cases h
        | here h => rw [hr] at h; cases h
    | raised =>
      dsimp only
      constructor
      · rintro ⟨_, h, _⟩; cases h
      · intro h
        cases h with
        | skip h => rw [hr] at h; cases h
        | blank h => rw [hr] at h; cases h
        | here h => rw [hr] at h; cases h
    | text t =>
      dsimp only
      cases hp : parseVersion least t with
      | none =>
        dsimp only
        rw [ih]
        constructor
        · exact .blank hr hp
        · intro h
          cases h with
          | skip h => rw [hr] at h; cases h
          | blank _ _ h => exact h
          | here h h' => rw [hr] at h; cases h; rw [hp] at h'; cases h'
      | some x =>
        cases x with
        | nil => exact absurd rfl (parse_ne hp)
        | cons a x =>
          dsimp only
          constructor
          · rintro ⟨o, h, rfl⟩; cases h; exact .here hr hp
          · intro h
            cases h with
            | skip h => rw [hr] at h; cases h
            | blank h h' => rw [hr] at h; cases h; rw [hp] at h'; cases h'
            | here h h' => rw [hr] at h; cases h; rw [hp] at h'; cases h'; exact ⟨_, rfl, rfl⟩

/-! ### Self-test -/

theorem inBin_iff (h prog p : Name) : BinOf h prog p ↔ p = inBin h prog := by
  have hl : (∃ d, h = d ++ ['/']) ↔ h.getLast? = some '/' := by
    rw [List.getLast?_eq_some_iff]
  unfold inBin
  have e : "bin/".toList = ['b', 'i', 'n', '/'] := by decide
  rw [e]
  constructor
  · rintro (⟨h1, h2⟩ | h1 | h1)
    · rw [if_neg]
      · simp
      · rintro (hx | hx)
        · obtain ⟨d, hd⟩ := hl.2 hx; exact h2 d hd
        · exact h1 hx
    · rw [if_pos (.inl (hl.1 h1))]; simp
    · rw [if_pos (.inr h1), h1]; simp
  · rintro rfl
    by_cases h1 : h = []
    · have := BinOf.empty (prog := prog) h1
      simpa [h1] using this
    · by_cases h2 : h.getLast? = some '/'
      · have := BinOf.slash (prog := prog) (hl.2 h2)
        rw [if_pos (.inl h2)]; simpa using this
      · have := BinOf.plain (prog := prog) h1 (fun d hd => h2 (hl.1 ⟨d, hd⟩))
        rw [if_neg (fun hx => hx.elim h2 h1)]; simpa using this

theorem command_iff (w : World) (c : Cls) (p : Name) : command w c = some p ↔ CommandIs w c p := by
  unfold command path
  cases hh : c.home with
  | none =>
    dsimp only
    constructor
    · intro h
      cases hr : w.runtime c.command with
      | none => rw [hr] at h; cases h
      | some o => rw [hr] at h; exact .direct (by rw [hr]; exact congrArg some h)
    · rintro (h | ⟨k, g, h, h1, h2, h3, h4⟩)
      · rw [h]; rfl
      · rw [hh] at h1; cases h1
  | some kp =>
    obtain ⟨key, prog⟩ := kp
    dsimp only
    cases hr : w.runtime c.command with
    | some o =>
      dsimp only
      constructor
      · rintro rfl; exact .direct hr
      · rintro (h | ⟨k, g, h, h1, h2, h3, h4⟩)
        · rw [hr] at h; cases h; rfl
        · rw [hr] at h2; cases h2
    | none =>
      dsimp only
      constructor
      · intro h
        cases hk : w.runtime key with
        | none => rw [hk] at h; cases h
        | some o =>
          rw [hk] at h
          cases o with
          | none => cases h
          | some d => cases h; exact .home key prog d hh hr hk ((inBin_iff _ _ _).2 rfl)
      · rintro (h | ⟨k, g, h, h1, h2, h3, h4⟩)
        · rw [hr] at h; cases h
        · rw [hh] at h1; cases h1; rw [h3, (inBin_iff _ _ _).1 h4]; rfl

theorem pathOf_iff (w : World) (c : Cls) (r p : Name) :
    (if r = c.command then command w c else path w r) = some p ↔ PathOf w c r p := by
  unfold PathOf
  by_cases h : r = c.command
  · rw [if_pos h, command_iff]; simp [h]
  · rw [if_neg h, path]
    cases hr : w.runtime r with
    | none => simp [h]
    | some o => simp [h]

theorem probe_iff (w : World) (c : Cls) : ∀ (rs : List Name) (v : Versions), probe w c rs = .ok v ↔ Answers w c rs v
  | [], v => by
    constructor
    · intro h; cases h; exact .nil
    · intro h; cases h; rfl
  | r :: rs, v => by
    rw [probe]
    constructor
    · intro h
      cases hp : (if r = c.command then command w c else path w r) with
      | none => rw [hp] at h; cases h
      | some p =>
        rw [hp] at h
        dsimp only at h
        cases ht : tryFlags c.least (w.run p) (c.flags r) with
        | error e => rw [ht] at h; cases h
        | ok o =>
          rw [ht] at h
          dsimp only at h
          cases hq : probe w c rs with
          | error e => rw [hq] at h; cases h
          | ok vs =>
            rw [hq] at h
            cases h
            exact .cons ((pathOf_iff w c r p).1 hp) ((tryFlags_iff _ _ _ _).1 ⟨o, ht, rfl⟩) ((probe_iff w c rs vs).1 hq)
    · intro h
      cases h with
      | cons hp hr ha =>
        obtain ⟨o, ho, rfl⟩ := (tryFlags_iff _ _ _ _).2 hr
        rw [(pathOf_iff w c r _).2 hp]
        dsimp only
        rw [ho]
        dsimp only
        rw [(probe_iff w c rs _).2 ha]

theorem space_iff (c : Char) : space c = true ↔ c ∈ [' ', '\t', '\n', '\r', Char.ofNat 11, Char.ofNat 12] := by
  unfold space
  simp only [Bool.or_eq_true, decide_eq_true_eq, Bool.and_eq_true, List.mem_cons, List.not_mem_nil, or_false]
  constructor
  · rintro (rfl | ⟨h1, h2⟩)
    · simp
    · have h1 : 9 ≤ c.toNat := h1
      have h2 : c.toNat ≤ 13 := h2
      have e : ∀ d : Char, c.toNat = d.toNat → c = d := fun d h => Char.toNat_inj.1 h
      have : c.toNat = 9 ∨ c.toNat = 10 ∨ c.toNat = 11 ∨ c.toNat = 12 ∨ c.toNat = 13 := by omega
      rcases this with h | h | h | h | h
      · exact .inr (.inl (e '\t' h))
      · exact .inr (.inr (.inl (e '\n' h)))
      · exact .inr (.inr (.inr (.inr (.inl (e (Char.ofNat 11) h)))))
      · exact .inr (.inr (.inr (.inr (.inr (e (Char.ofNat 12) h)))))
      · exact .inr (.inr (.inr (.inl (e '\r' h))))
  · rintro (rfl | rfl | rfl | rfl | rfl | rfl) <;> decide

theorem dropWhile_all (f : Char → Bool) : ∀ (a r : List Char), (∀ c ∈ a, f c = true) → (a ++ r).dropWhile f = r.dropWhile f
  | [], _, _ => rfl
  | c :: a, r, h => by
    rw [List.cons_append, List.dropWhile_cons, if_pos (h c (.head _))]
    exact dropWhile_all f a r fun x hx => h x (.tail _ hx)

theorem strip_iff (s : List Char) : strip s = message ↔ Echoes s := by
  unfold Echoes strip
  constructor
  · intro h
    have h1 : s = s.takeWhile space ++ s.dropWhile space := List.takeWhile_append_dropWhile.symm
    generalize hd : s.dropWhile space = d at h h1
    have h2 : d.reverse = d.reverse.takeWhile space ++ d.reverse.dropWhile space := List.takeWhile_append_dropWhile.symm
    have h3 : d = (d.reverse.dropWhile space).reverse ++ (d.reverse.takeWhile space).reverse := by
      have := congrArg List.reverse h2
      rwa [List.reverse_reverse, List.reverse_append] at this
    rw [h] at h3
    refine ⟨s.takeWhile space, (d.reverse.takeWhile space).reverse, ?_, ?_⟩
    · rw [List.append_assoc]
      show s = _ ++ (message ++ _)
      rw [← h3, ← h1]
    · intro c hc
      rw [← space_iff]
      rcases List.mem_append.1 hc with hc | hc
      · exact mem_takeWhile hc
      · exact mem_takeWhile (List.mem_reverse.1 hc)
  · rintro ⟨a, b, rfl, h⟩
    have ha : ∀ c ∈ a, space c = true := fun c hc => (space_iff c).2 (h c (List.mem_append_left _ hc))
    have hb : ∀ c ∈ b.reverse, space c = true := fun c hc =>
      (space_iff c).2 (h c (List.mem_append_right _ (List.mem_reverse.1 hc)))
    rw [List.append_assoc, dropWhile_all _ _ _ ha]
    have e1 : ("echo: Hello, World!".toList ++ b).dropWhile space = "echo: Hello, World!".toList ++ b := rfl
    rw [e1, List.reverse_append, dropWhile_all _ _ _ hb]
    rfl

theorem getVersions_fresh {w : World} {c : Cls} {n : Name} {cache : Cache} (hf : cache.lookup n = none) :
    (∃ x, getVersions w c n cache = .ok x) ↔ (c.fixed = none → Asks w c) := by
  unfold getVersions Asks
  simp only [← probe_iff]
  cases hx : c.fixed with
  | some v => simp
  | none =>
    dsimp only
    rw [hf]
    cases hp : probe w c c.versionable with
    | error e => simp
    | ok v => simp

theorem selfTest_iff {w : World} {c : Cls} {n : Name} {cache : Cache} (hf : cache.lookup n = none) :
    (selfTest w c n cache).1 = true ↔ Passes w c n := by
  unfold selfTest
  cases ht : c.hasTest with
  | false => simp only [Bool.not_false, if_true, true_iff]; exact .without ht
  | true =>
    simp only [Bool.not_true, Bool.false_eq_true, if_false]
    cases hr : w.test n with
    | raised =>
      refine ⟨fun h => (nomatch h), ?_⟩
      rintro (h | ⟨ir, rte, ole, out, h, h', -⟩)
      · rw [ht] at h; cases h
      · rw [hr] at h'; cases h'
    | ran tle mle ir rte ole out err fr =>
      dsimp only
      have back : ∀ P : Prop, (Passes w c n → P) ↔ (tle = false → mle = false → err = [] → fr = false → Echoes out →
          (c.fixed = none → Asks w c) → P) := by
        intro P
        constructor
        · rintro h rfl rfl rfl rfl he ha
          exact h (.ran ir rte ole out ht hr he ha)
        · intro h hp
          rcases hp with h' | ⟨ir', rte', ole', out', _, h1, h2, h3⟩
          · rw [ht] at h'; cases h'
          · rw [hr] at h1; cases h1; exact h rfl rfl rfl rfl h2 h3
      cases tle with
      | true => simp only [if_true]; exact ⟨fun h => (nomatch h), (back _).2 (fun h => (nomatch h))⟩
      | false =>
        cases mle with
        | true => simp only [if_true, Bool.false_eq_true, if_false]; exact ⟨fun h => (nomatch h), (back _).2 (fun _ h => (nomatch h))⟩
        | false =>
          simp only [Bool.false_eq_true, if_false]
          have hv := getVersions_fresh (w := w) (c := c) hf
          cases hg : getVersions w c n cache with
          | error e =>
            rw [hg] at hv
            have hn : ¬(c.fixed = none → Asks w c) := fun h => by obtain ⟨x, hx⟩ := hv.2 h; cases hx
            exact ⟨fun h => (nomatch h), (back _).2 (fun _ _ _ _ _ h => absurd h hn)⟩
          | ok x =>
            rw [hg] at hv
            have ha := hv.1 ⟨x, rfl⟩
            dsimp only
            constructor
            · intro h
              cases fr with
              | true => cases h
              | false =>
                simp only [Bool.false_eq_true, if_false, Bool.and_eq_true, beq_iff_eq, List.isEmpty_iff] at h
                obtain ⟨h1, rfl⟩ := h
                exact .ran ir rte ole out ht hr ((strip_iff out).1 h1) ha
            · rw [back]
              rintro - - rfl rfl he -
              simp [(strip_iff out).2 he]

theorem getVersions_cache {w : World} {c : Cls} {n : Name} {cache : Cache} (m : Name) (h : m ≠ n) (x : Versions × Cache)
    (hx : getVersions w c n cache = .ok x) : x.2.lookup m = cache.lookup m := by
  unfold getVersions at hx
  split at hx
  · cases hx; rfl
  · split at hx
    · cases hx; rfl
    · split at hx
      · cases hx
      · cases hx
        have : (m == n) = false := by simpa using h
        simp [List.lookup_cons, this]

theorem selfTest_cache {w : World} {c : Cls} {n : Name} {cache : Cache} (m : Name) (h : m ≠ n) :
    (selfTest w c n cache).2.lookup m = cache.lookup m := by
  unfold selfTest
  split
  · rfl
  · split
    · rfl
    · split
      · rfl
      · split
        · rfl
        · dsimp only
          split
          · rfl
          · next x hx => exact getVersions_cache m h _ hx

/-! ### Loading -/

/-- A need that is met. -/
def Met (w : World) : Name × Need → Prop
  | (k, .key) => w.runtime k ≠ none
  | (k, _) => Works w k

theorem checks_true (w : World) (c : Cls) : ∀ ks, checks w c ks = .ok true ↔
    (∀ x ∈ ks, Met w x) ∧ ∃ p, CommandIs w c p ∧ w.isFile p = true
  | [] => by
    simp only [checks, List.not_mem_nil, false_implies, implies_true, true_and, ← command_iff]
    cases command w c with
    | none => simp
    | some p => simp
  | (k, need) :: ks => by
    have ih := checks_true w c ks
    rw [checks.eq_def]
    dsimp only
    simp only [List.mem_cons, forall_eq_or_imp, and_assoc]
    rw [← ih]
    cases hr : w.runtime k with
    | none => cases need <;> simp [Met, Works, hr]
    | some o =>
      cases o with
      | none => cases need <;> simp [Met, Works, hr]
      | some p => cases need <;> simp [Met, Works, hr] <;> cases w.isFile p <;> simp

theorem installed_iff (w : World) (c : Cls) : checks w c c.needs = .ok true ↔ Installed w c := by
  rw [checks_true]
  unfold Installed
  constructor
  · rintro ⟨h, hp⟩
    refine ⟨fun k hk => h _ hk, fun k hk => ?_, hp⟩
    rcases hk with hk | hk
    · exact h _ hk
    · exact h _ hk
  · rintro ⟨h1, h2, hp⟩
    refine ⟨?_, hp⟩
    rintro ⟨k, need⟩ hx
    cases need with
    | key => exact h1 k hx
    | file => exact h2 k (.inl hx)
    | soft => exact h2 k (.inr hx)

theorem checks_error (w : World) (c : Cls) : ∀ ks, (∃ e, checks w c ks = .error e) ↔
    ∃ pre k post, ks = pre ++ (k, Need.file) :: post ∧ (∀ x ∈ pre, Met w x) ∧ w.runtime k = some none
  | [] => by
    simp only [checks]
    constructor
    · rintro ⟨e, h⟩; split at h <;> cases h
    · rintro ⟨pre, k, post, h, -⟩; simp at h
  | (k, need) :: ks => by
    have ih := checks_error w c ks
    have up : ∀ (_ : Met w (k, need)), (∃ pre k' post, ks = pre ++ (k', Need.file) :: post ∧ (∀ x ∈ pre, Met w x) ∧
        w.runtime k' = some none) → ∃ pre k' post, (k, need) :: ks = pre ++ (k', Need.file) :: post ∧ (∀ x ∈ pre, Met w x) ∧
        w.runtime k' = some none := by
      rintro hm ⟨pre, k', post, rfl, h1, h2⟩
      refine ⟨(k, need) :: pre, k', post, rfl, ?_, h2⟩
      simp only [List.mem_cons, forall_eq_or_imp]
      exact ⟨hm, h1⟩
    have down : ¬(need = .file ∧ w.runtime k = some none) → (∃ pre k' post, (k, need) :: ks = pre ++ (k', Need.file) :: post ∧
        (∀ x ∈ pre, Met w x) ∧ w.runtime k' = some none) → Met w (k, need) ∧ ∃ pre k' post, ks = pre ++ (k', Need.file) :: post ∧
        (∀ x ∈ pre, Met w x) ∧ w.runtime k' = some none := by
      rintro hn ⟨pre, k', post, h, h1, h2⟩
      cases pre with
      | nil => simp only [List.nil_append, List.cons.injEq, Prod.mk.injEq] at h; exact absurd ⟨h.1.2, h.1.1 ▸ h2⟩ hn
      | cons x pre =>
        simp only [List.cons_append, List.cons.injEq] at h
        obtain ⟨rfl, h⟩ := h
        exact ⟨h1 _ (.head _), pre, k', post, h, fun y hy => h1 y (.tail _ hy), h2⟩
    rw [checks.eq_def]
    dsimp only
    cases hr : w.runtime k with
    | none =>
      constructor
      · rintro ⟨e, h⟩; cases need <;> cases h
      · intro h
        have := (down (by rw [hr]; simp) h).1
        cases need <;> simp [Met, Works, hr] at this
    | some o =>
      cases need with
      | key =>
        dsimp only
        rw [ih]
        exact ⟨up (by simp [Met, hr]), fun h => (down (by simp) h).2⟩
      | file =>
        cases o with
        | none => exact ⟨fun _ => ⟨[], k, ks, rfl, by simp, hr⟩, fun _ => ⟨(), rfl⟩⟩
        | some p =>
          dsimp only
          by_cases hp : w.isFile p = true
          · rw [if_pos hp, ih]
            exact ⟨up ⟨p, hr, hp⟩, fun h => (down (by rw [hr]; simp) h).2⟩
          · rw [if_neg hp]
            constructor
            · rintro ⟨e, h⟩; cases h
            · intro h
              obtain ⟨q, h1, h2⟩ := (down (by rw [hr]; simp) h).1
              rw [hr] at h1; cases h1; exact absurd h2 hp
      | soft =>
        cases o with
        | none =>
          constructor
          · rintro ⟨e, h⟩; cases h
          · intro h
            obtain ⟨q, h1, h2⟩ := (down (by simp) h).1
            rw [hr] at h1; cases h1
        | some p =>
          dsimp only
          by_cases hp : w.isFile p = true
          · rw [if_pos hp, ih]
            exact ⟨up ⟨p, hr, hp⟩, fun h => (down (by simp) h).2⟩
          · rw [if_neg hp]
            constructor
            · rintro ⟨e, h⟩; cases h
            · intro h
              obtain ⟨q, h1, h2⟩ := (down (by simp) h).1
              rw [hr] at h1; cases h1; exact absurd h2 hp

/-- It is taken. -/
def Taken (skip : Bool) (w : World) (c : Cls) (n : Name) : Prop := Installed w c ∧ (skip = true ∨ Passes w c n)

theorem init_ok {skip : Bool} {w : World} {c : Cls} {n : Name} {s s' : State} {res : Bool} (hf : s.cache.lookup n = none)
    (h : initCls skip w c n s = .ok (res, s')) : (res = true ↔ Taken skip w c n) ∧ s'.loaded = s.loaded ∧
      ∀ m, m ≠ n → s'.cache.lookup m = s.cache.lookup m := by
  unfold initCls at h
  unfold Taken
  rw [← installed_iff]
  cases hc : checks w c c.needs with
  | error e => rw [hc] at h; cases h
  | ok b =>
    rw [hc] at h
    cases b with
    | false => cases h; exact ⟨by simp, rfl, fun _ _ => rfl⟩
    | true =>
      dsimp only at h
      have key : ∀ (r : Bool) (cache : Cache), (r, cache) = (if skip = true then (true, s.cache) else selfTest w c n s.cache) →
          (r = true ↔ skip = true ∨ Passes w c n) ∧ ∀ m, m ≠ n → cache.lookup m = s.cache.lookup m := by
        intro r cache hrc
        cases skip with
        | true => cases hrc; exact ⟨by simp, fun _ _ => rfl⟩
        | false =>
          simp only [Bool.false_eq_true, if_false] at hrc
          have h1 := selfTest_iff (w := w) (c := c) hf
          rw [← hrc] at h1
          refine ⟨by simpa using h1, fun m hm => ?_⟩
          have h2 := selfTest_cache (w := w) (c := c) (cache := s.cache) m hm
          rw [← hrc] at h2
          exact h2
      generalize (if skip = true then (true, s.cache) else selfTest w c n s.cache) = rc at h key
      obtain ⟨r, cache⟩ := rc
      obtain ⟨k1, k2⟩ := key r cache rfl
      dsimp only at h
      split at h
      · next hg =>
        split at h
        · next v l cache' hv =>
          cases h
          refine ⟨by simpa using k1, rfl, fun m hm => ?_⟩
          have := getVersions_cache m hm _ hv
          exact this.trans (k2 m hm)
        · cases h
      · cases h
        exact ⟨by simpa using k1, rfl, k2⟩

theorem loadOne_ok {skip : Bool} {w : World} {imp : Name → Imported} {n : Name} {s s' : State} (hf : s.cache.lookup n = none)
    (h : loadOne skip w imp n s = .ok s') : (∀ m c, (m, c) ∈ s'.loaded ↔ (m, c) ∈ s.loaded ∨
        (m = n ∧ imp n = .cls c ∧ Taken skip w c n)) ∧ ∀ m, m ≠ n → s'.cache.lookup m = s.cache.lookup m := by
  unfold loadOne at h
  cases hi : imp n with
  | importError => rw [hi] at h; cases h; exact ⟨by simp, fun _ _ => rfl⟩
  | raised => rw [hi] at h; cases h
  | nothing => rw [hi] at h; cases h; exact ⟨by simp, fun _ _ => rfl⟩
  | cls c =>
    rw [hi] at h
    dsimp only at h
    cases hc : initCls skip w c n s with
    | error e => rw [hc] at h; cases h
    | ok x =>
      obtain ⟨res, s''⟩ := x
      rw [hc] at h
      obtain ⟨h1, h2, h3⟩ := init_ok hf hc
      cases res with
      | false =>
        cases h
        have hn : ¬Taken skip w c n := fun ht => nomatch h1.2 ht
        refine ⟨fun m d => ?_, h3⟩
        show (m, d) ∈ s''.loaded ↔ _
        rw [h2]
        constructor
        · exact .inl
        · rintro (h | ⟨rfl, h, ht⟩)
          · exact h
          · cases h; exact absurd ht hn
      | true =>
        cases h
        have hn : Taken skip w c n := h1.1 rfl
        refine ⟨fun m d => ?_, h3⟩
        show (m, d) ∈ s''.loaded ++ [(n, c)] ↔ _
        rw [h2]
        simp only [List.mem_append, List.mem_singleton, Prod.mk.injEq]
        constructor
        · rintro (h | ⟨rfl, rfl⟩)
          · exact .inl h
          · exact .inr ⟨rfl, rfl, hn⟩
        · rintro (h | ⟨rfl, h, -⟩)
          · exact .inl h
          · cases h; exact .inr ⟨rfl, rfl⟩

theorem loadAll_ok {skip : Bool} {w : World} {imp : Name → Imported} : ∀ (ns : List Name) (s s' : State), ns.Nodup →
    (∀ n ∈ ns, s.cache.lookup n = none) → loadAll skip w imp ns s = .ok s' →
    ∀ m c, (m, c) ∈ s'.loaded ↔ (m, c) ∈ s.loaded ∨ (m ∈ ns ∧ imp m = .cls c ∧ Taken skip w c m)
  | [], s, s', _, _, h => by cases h; simp
  | n :: ns, s, s', hd, hf, h => by
    rw [loadAll] at h
    cases ho : loadOne skip w imp n s with
    | error e => rw [ho] at h; cases h
    | ok s1 =>
      rw [ho] at h
      dsimp only at h
      obtain ⟨h1, h2⟩ := loadOne_ok (hf n (.head _)) ho
      rw [List.nodup_cons] at hd
      intro m c
      rw [loadAll_ok ns s1 s' hd.2 (fun k hk => by
        rw [h2 k (by rintro rfl; exact hd.1 hk)]; exact hf k (.tail _ hk)) h, h1]
      simp only [List.mem_cons]
      constructor
      · rintro ((h | ⟨rfl, h, h'⟩) | ⟨h, h', h''⟩)
        · exact .inl h
        · exact .inr ⟨.inl rfl, h, h'⟩
        · exact .inr ⟨.inr h, h', h''⟩
      · rintro (h | ⟨rfl | h, h', h''⟩)
        · exact .inl (.inl h)
        · exact .inl (.inr ⟨rfl, h', h''⟩)
        · exact .inr ⟨h, h', h''⟩

theorem again {w : World} {c : Cls} {n : Name} {cache cache' : Cache} {v : Versions}
    (h : getVersions w c n cache = .ok (v, cache')) (w' : World) : getVersions w' c n cache' = .ok (v, cache') := by
  unfold getVersions at h ⊢
  cases hx : c.fixed with
  | some x => rw [hx] at h; cases h; rfl
  | none =>
    rw [hx] at h
    dsimp only at h ⊢
    cases hl : cache.lookup n with
    | some x => rw [hl] at h; cases h; rw [hl]
    | none =>
      rw [hl] at h
      dsimp only at h
      cases hp : probe w c c.versionable with
      | error e => rw [hp] at h; cases h
      | ok x => rw [hp] at h; cases h; simp [List.lookup_cons]

theorem selfTest_versions {w : World} {c : Cls} {n : Name} {cache : Cache} (ht : c.hasTest = true)
    (h : (selfTest w c n cache).1 = true) : ∃ v, getVersions w c n cache = .ok (v, (selfTest w c n cache).2) := by
  unfold selfTest at h ⊢
  rw [ht] at h ⊢
  simp only [Bool.not_true, Bool.false_eq_true, if_false] at h ⊢
  split at h
  · cases h
  · split at h
    · cases h
    · split at h
      · cases h
      · next h1 h2 =>
        simp only [h1, h2, if_false]
        cases hg : getVersions w c n cache with
        | error e => rw [hg] at h; cases h
        | ok x => exact ⟨x.1, rfl⟩

theorem versions_ne {w : World} {c : Cls} {n : Name} {cache : Cache} (hf : cache.lookup n = none) (hc : c.gcc = true)
    (hu : Usual c) (x : Versions × Cache) (h : getVersions w c n cache = .ok x) : x.1 ≠ [] := by
  obtain ⟨h1, h2⟩ := hu.2 hc
  unfold getVersions at h
  cases hx : c.fixed with
  | some v => rw [hx] at h; cases h; rintro rfl; exact h2 hx
  | none =>
    rw [hx] at h
    dsimp only at h
    rw [hf] at h
    dsimp only at h
    cases hp : probe w c c.versionable with
    | error e => rw [hp] at h; cases h
    | ok v =>
      rw [hp] at h; cases h
      have := (probe_iff w c _ _).1 hp
      rintro rfl
      generalize hv : c.versionable = l at this h1
      cases this
      exact h1 rfl

/-- What keeps the judge from starting. -/
def Breaks (skip : Bool) (w : World) (imp : Name → Imported) (n : Name) : Prop :=
  imp n = .raised ∨ ∃ c, imp n = .cls c ∧
    ((∃ pre k post, c.needs = pre ++ (k, Need.file) :: post ∧ (∀ x ∈ pre, Met w x) ∧ w.runtime k = some none) ∨
     (c.gcc = true ∧ skip = true ∧ Installed w c ∧ c.fixed = none ∧ ¬Asks w c))

theorem init_error {skip : Bool} {w : World} {c : Cls} {n : Name} {s : State} (hf : s.cache.lookup n = none) (hu : Usual c) :
    (∃ e, initCls skip w c n s = .error e) ↔
      (∃ pre k post, c.needs = pre ++ (k, Need.file) :: post ∧ (∀ x ∈ pre, Met w x) ∧ w.runtime k = some none) ∨
      (c.gcc = true ∧ skip = true ∧ Installed w c ∧ c.fixed = none ∧ ¬Asks w c) := by
  rw [← checks_error, ← installed_iff]
  unfold initCls
  cases hc : checks w c c.needs with
  | error e => exact ⟨fun _ => .inl ⟨e, rfl⟩, fun _ => ⟨e, rfl⟩⟩
  | ok b =>
    cases b with
    | false =>
      constructor
      · rintro ⟨e, h⟩; cases h
      · rintro (⟨e, h⟩ | ⟨-, -, h, -⟩) <;> cases h
    | true =>
      dsimp only
      cases hg : c.gcc with
      | false =>
        simp only [Bool.false_and, Bool.false_eq_true, if_false]
        constructor
        · rintro ⟨e, h⟩; cases h
        · rintro (⟨e, h⟩ | ⟨h, -⟩) <;> cases h
      | true =>
        simp only [Bool.true_and]
        have hne := versions_ne (w := w) hf hg hu
        cases skip with
        | true =>
          simp only [if_true]
          have hv := getVersions_fresh (w := w) (c := c) hf
          cases hq : getVersions w c n s.cache with
          | error e =>
            rw [hq] at hv
            have hn : ¬(c.fixed = none → Asks w c) := fun h => by obtain ⟨x, hx⟩ := hv.2 h; cases hx
            dsimp only
            refine ⟨fun _ => .inr ⟨trivial, trivial, trivial, ?_, fun h => hn fun _ => h⟩, fun _ => ⟨(), rfl⟩⟩
            cases hx : c.fixed with
            | none => rfl
            | some v => rw [hx] at hn; exact absurd (fun h => by cases h) hn
          | ok x =>
            rw [hq] at hv
            have ha := hv.1 ⟨x, rfl⟩
            obtain ⟨v, cache⟩ := x
            cases v with
            | nil => exact absurd rfl (hne _ hq)
            | cons a v =>
              dsimp only
              constructor
              · rintro ⟨e, h⟩; cases h
              · rintro (⟨e, h⟩ | ⟨-, -, -, h, h'⟩)
                · cases h
                · exact absurd (ha h) h'
        | false =>
          simp only [Bool.false_eq_true, if_false]
          cases hr : (selfTest w c n s.cache).1 with
          | false =>
            simp only [Bool.false_eq_true, if_false]
            constructor
            · rintro ⟨e, h⟩; cases h
            · rintro (⟨e, h⟩ | ⟨-, h, -⟩) <;> cases h
          | true =>
            simp only [if_true]
            obtain ⟨v, hv⟩ := selfTest_versions hu.1 hr
            have hn := hne _ hv
            rw [again hv w]
            cases v with
            | nil => exact absurd rfl hn
            | cons a v =>
              constructor
              · rintro ⟨e, h⟩; cases h
              · rintro (⟨e, h⟩ | ⟨-, h, -⟩) <;> cases h

theorem loadOne_error {skip : Bool} {w : World} {imp : Name → Imported} {n : Name} {s : State} (hf : s.cache.lookup n = none)
    (hu : ∀ c, imp n = .cls c → Usual c) : (∃ e, loadOne skip w imp n s = .error e) ↔ Breaks skip w imp n := by
  unfold loadOne Breaks
  cases hi : imp n with
  | importError => simp
  | raised => simp
  | nothing => simp
  | cls c =>
    have := init_error (skip := skip) (w := w) hf (hu c hi)
    simp only [reduceCtorEq, false_or, Imported.cls.injEq, exists_eq_left']
    rw [← this]
    cases hc : initCls skip w c n s with
    | error e => simp
    | ok x => simp

theorem loadAll_error {skip : Bool} {w : World} {imp : Name → Imported} (hu : ∀ n c, imp n = .cls c → Usual c) :
    ∀ (ns : List Name) (s : State), ns.Nodup → (∀ n ∈ ns, s.cache.lookup n = none) →
    ((∃ e, loadAll skip w imp ns s = .error e) ↔ ∃ n ∈ ns, Breaks skip w imp n)
  | [], s, _, _ => by simp [loadAll]
  | n :: ns, s, hd, hf => by
    rw [loadAll]
    have h1 := loadOne_error (skip := skip) (w := w) (imp := imp) (hf n (.head _)) (hu n)
    rw [List.nodup_cons] at hd
    cases ho : loadOne skip w imp n s with
    | error e =>
      rw [ho] at h1
      exact ⟨fun _ => ⟨n, .head _, h1.1 ⟨e, rfl⟩⟩, fun _ => ⟨e, rfl⟩⟩
    | ok s1 =>
      rw [ho] at h1
      dsimp only
      rw [loadAll_error hu ns s1 hd.2 fun k hk => by
        rw [(loadOne_ok (hf n (.head _)) ho).2 k (by rintro rfl; exact hd.1 hk)]; exact hf k (.tail _ hk)]
      constructor
      · rintro ⟨m, hm, hb⟩; exact ⟨m, .tail _ hm, hb⟩
      · rintro ⟨m, hm, hb⟩
        rcases List.mem_cons.1 hm with rfl | hm
        · obtain ⟨e, he⟩ := h1.2 hb; cases he
        · exact ⟨m, hm, hb⟩

/-- What the cache has about an executor that was taken after its self-test. -/
def Known (w : World) (s : State) : Prop := ∀ n c, (n, c) ∈ s.loaded → c.fixed = none →
  ∃ v, s.cache.lookup n = some v ∧ Answers w c c.versionable v

theorem getVersions_known {w : World} {c : Cls} {n : Name} {cache cache' : Cache} {v : Versions} (hf : cache.lookup n = none)
    (hx : c.fixed = none) (h : getVersions w c n cache = .ok (v, cache')) :
    cache'.lookup n = some v ∧ Answers w c c.versionable v := by
  unfold getVersions at h
  rw [hx] at h
  dsimp only at h
  rw [hf] at h
  dsimp only at h
  cases hp : probe w c c.versionable with
  | error e => rw [hp] at h; cases h
  | ok x => rw [hp] at h; cases h; exact ⟨by simp [List.lookup_cons], (probe_iff _ _ _ _).1 hp⟩

theorem loadAll_known {w : World} {imp : Name → Imported} (hu : ∀ n c, imp n = .cls c → Usual c) :
    ∀ (ns : List Name) (s s' : State), ns.Nodup → (∀ n ∈ ns, s.cache.lookup n = none) → (∀ n c, (n, c) ∈ s.loaded → n ∉ ns) →
    Known w s → loadAll false w imp ns s = .ok s' → Known w s'
  | [], s, s', _, _, _, hk, h => by cases h; exact hk
  | n :: ns, s, s', hd, hf, hl, hk, h => by
    rw [loadAll] at h
    cases ho : loadOne false w imp n s with
    | error e => rw [ho] at h; cases h
    | ok s1 =>
      rw [ho] at h
      dsimp only at h
      have hd' := List.nodup_cons.1 hd
      obtain ⟨h1, h2⟩ := loadOne_ok (hf n (.head _)) ho
      refine loadAll_known hu ns s1 s' hd'.2 (fun k hk' => ?_) ?_ ?_ h
      · rw [h2 k (by rintro rfl; exact hd'.1 hk')]; exact hf k (.tail _ hk')
      · intro m c hm hmn
        rcases (h1 m c).1 hm with hm | ⟨rfl, -⟩
        · exact hl m c hm (.tail _ hmn)
        · exact hd'.1 hmn
      · intro m c hm hx
        rcases (h1 m c).1 hm with hm' | ⟨rfl, hi, ht⟩
        · obtain ⟨v, hv, ha⟩ := hk m c hm' hx
          have : m ≠ n := by rintro rfl; exact hl m c hm' (.head _)
          exact ⟨v, by rw [h2 m this]; exact hv, ha⟩
        · -- taken just now
          have hfm := hf m (.head _)
          have hp : Passes w c m := by
            rcases ht.2 with h | h
            · cases h
            · exact h
          have hst := (selfTest_iff (cache := s.cache) hfm).2 hp
          obtain ⟨v, hv⟩ := selfTest_versions (hu m c hi).1 hst
          obtain ⟨hk1, hk2⟩ := getVersions_known hfm hx hv
          refine ⟨v, ?_, hk2⟩
          unfold loadOne initCls at ho
          rw [hi] at ho
          dsimp only at ho
          rw [(installed_iff w c).2 ht.1] at ho
          simp only [Bool.false_eq_true, if_false, hst, Bool.and_true] at ho
          rw [again hv w] at ho
          split at ho
          · cases ho
          · next hh =>
            cases ho
            split at hh
            · split at hh
              · next heq => cases hh; cases heq; exact hk1
              · cases hh
            · cases hh; exact hk1

theorem handshake_known {w w' : World} : ∀ (l : List (Name × Cls)) (cache : Cache),
    (∀ n c, (n, c) ∈ l → c.fixed = none → ∃ v, cache.lookup n = some v ∧ Answers w c c.versionable v) →
    ∃ r, handshake w' l cache = .ok (r, cache) ∧ r.map (·.1) = l.map (·.1) ∧
      ∀ n v, (n, v) ∈ r → ∃ c, (n, c) ∈ l ∧ (c.fixed = some v ∨ c.fixed = none ∧ Answers w c c.versionable v)
  | [], cache, _ => ⟨[], rfl, rfl, by simp⟩
  | (n, c) :: l, cache, h => by
    obtain ⟨r, h1, h2, h3⟩ := handshake_known (w' := w') l cache fun m d hm => h m d (.tail _ hm)
    have hv : ∃ v, getVersions w' c n cache = .ok (v, cache) ∧ (c.fixed = some v ∨ c.fixed = none ∧ Answers w c c.versionable v) := by
      unfold getVersions
      cases hx : c.fixed with
      | some v => exact ⟨v, rfl, .inl rfl⟩
      | none =>
        obtain ⟨v, hv, ha⟩ := h n c (.head _) hx
        dsimp only
        rw [hv]
        exact ⟨v, rfl, .inr ⟨rfl, ha⟩⟩
    obtain ⟨v, hv, ha⟩ := hv
    refine ⟨(n, v) :: r, ?_, by simp [h2], ?_⟩
    · rw [handshake, hv]
      dsimp only
      rw [h1]
    · intro m x hm
      rcases List.mem_cons.1 hm with h' | h'
      · cases h'; exact ⟨c, .head _, ha⟩
      · obtain ⟨d, hd, he⟩ := h3 m x h'
        exact ⟨d, .tail _ hd, he⟩

theorem greater_iff (v : Version) : greater v [4, 9] = true ↔ Later v := by
  unfold Later
  rcases v with _ | ⟨a, _ | ⟨b, _ | ⟨c, t⟩⟩⟩
  · simp [greater]
  · simp [greater]; grind
  · simp [greater]; grind
  · constructor
    · intro h
      simp only [greater] at h
      split at h
      · subst_vars
        split at h
        · subst_vars; exact .inr (.inr ⟨c :: t, by simp, rfl⟩)
        · exact .inr (.inl ⟨b, c :: t, rfl, by simpa using h⟩)
      · exact .inl ⟨a, b :: c :: t, rfl, by simpa using h⟩
    · rintro (⟨_, _, h, h'⟩ | ⟨_, _, h, h'⟩ | ⟨_, -, h⟩) <;> cases h <;> simp [greater] <;> grind

/-- The cache knows nothing of the executor, or what its programs say. -/
def Good (w : World) (c : Cls) (n : Name) (cache : Cache) : Prop :=
  cache.lookup n = none ∨ ∃ v, cache.lookup n = some v ∧ Answers w c c.versionable v

theorem getVersions_good {w : World} {c : Cls} {n : Name} {cache cache' : Cache} {v : Versions} (hx : c.fixed = none)
    (hg : Good w c n cache) (h : getVersions w c n cache = .ok (v, cache')) :
    Answers w c c.versionable v ∧ Good w c n cache' := by
  rcases hg with hf | ⟨u, hu, ha⟩
  · obtain ⟨h1, h2⟩ := getVersions_known hf hx h
    exact ⟨h2, .inr ⟨v, h1, h2⟩⟩
  · unfold getVersions at h
    rw [hx] at h
    dsimp only at h
    rw [hu] at h
    cases h
    exact ⟨ha, .inr ⟨_, hu, ha⟩⟩

theorem selfTest_good {w : World} {c : Cls} {n : Name} {cache : Cache} (hx : c.fixed = none) (hg : Good w c n cache) :
    Good w c n (selfTest w c n cache).2 := by
  unfold selfTest
  split
  · exact hg
  · split
    · exact hg
    · split
      · exact hg
      · split
        · exact hg
        · dsimp only
          split
          · exact hg
          · next heq => exact (getVersions_good hx hg heq).2

theorem init_color {skip : Bool} {w : World} {c : Cls} {n : Name} {s s' : State} {res : Bool} (hf : s.cache.lookup n = none)
    (h : initCls skip w c n s = .ok (res, s')) : (∀ m, m ≠ n → s'.color.lookup m = s.color.lookup m) ∧
      (res = true → c.gcc = true → c.fixed = none → ∃ r v rest, Answers w c c.versionable ((r, v) :: rest) ∧
        s'.color.lookup n = some (greater v [4, 9])) := by
  unfold initCls at h
  split at h
  · cases h
  · cases h; exact ⟨fun _ _ => rfl, nofun⟩
  · dsimp only at h
    have hg : c.fixed = none → Good w c n (if skip = true then (true, s.cache) else selfTest w c n s.cache).2 := by
      intro hx
      split
      · exact .inl hf
      · exact selfTest_good hx (.inl hf)
    generalize (if skip = true then (true, s.cache) else selfTest w c n s.cache) = rc at h hg
    obtain ⟨r, cache⟩ := rc
    dsimp only at h hg
    split at h
    · split at h
      · next hv =>
        cases h
        refine ⟨fun m hm => ?_, fun _ _ hx => ?_⟩
        · have : (m == n) = false := by simpa using hm
          simp [List.lookup_cons, this]
        · exact ⟨_, _, _, (getVersions_good hx (hg hx) hv).1, by simp [List.lookup_cons]⟩
      · cases h
    · next hn =>
      cases h
      refine ⟨fun _ _ => rfl, fun h1 h2 => ?_⟩
      rw [h1, h2] at hn
      exact absurd rfl hn

theorem loadAll_color {skip : Bool} {w : World} {imp : Name → Imported} :
    ∀ (ns : List Name) (s s' : State), ns.Nodup → (∀ n ∈ ns, s.cache.lookup n = none) → (∀ n c, (n, c) ∈ s.loaded → n ∉ ns) →
    (∀ n c, (n, c) ∈ s.loaded → c.gcc = true → c.fixed = none → ∃ r v rest, Answers w c c.versionable ((r, v) :: rest) ∧
        s.color.lookup n = some (greater v [4, 9])) →
    loadAll skip w imp ns s = .ok s' →
    ∀ n c, (n, c) ∈ s'.loaded → c.gcc = true → c.fixed = none → ∃ r v rest, Answers w c c.versionable ((r, v) :: rest) ∧
        s'.color.lookup n = some (greater v [4, 9])
  | [], s, s', _, _, _, hk, h => by cases h; exact hk
  | n :: ns, s, s', hd, hf, hl, hk, h => by
    rw [loadAll] at h
    cases ho : loadOne skip w imp n s with
    | error e => rw [ho] at h; cases h
    | ok s1 =>
      rw [ho] at h
      dsimp only at h
      have hd' := List.nodup_cons.1 hd
      obtain ⟨h1, h2⟩ := loadOne_ok (hf n (.head _)) ho
      refine loadAll_color ns s1 s' hd'.2 (fun k hk' => ?_) ?_ ?_ h
      · rw [h2 k (by rintro rfl; exact hd'.1 hk')]; exact hf k (.tail _ hk')
      · intro m c hm hmn
        rcases (h1 m c).1 hm with hm | ⟨rfl, -⟩
        · exact hl m c hm (.tail _ hmn)
        · exact hd'.1 hmn
      · intro m c hm hg hx
        unfold loadOne at ho
        cases hi : imp n with
        | importError =>
          rw [hi] at ho; cases ho; exact hk m c hm hg hx
        | raised => rw [hi] at ho; cases ho
        | nothing => rw [hi] at ho; cases ho; exact hk m c hm hg hx
        | cls d =>
          rw [hi] at ho
          dsimp only at ho
          cases hc : initCls skip w d n s with
          | error e => rw [hc] at ho; cases ho
          | ok x =>
            obtain ⟨res, s2⟩ := x
            rw [hc] at ho
            obtain ⟨k1, k2⟩ := init_color (hf n (.head _)) hc
            obtain ⟨-, k3, -⟩ := init_ok (hf n (.head _)) hc
            have old : (m, c) ∈ s.loaded → ∃ r v rest, Answers w c c.versionable ((r, v) :: rest) ∧
                s2.color.lookup m = some (greater v [4, 9]) := by
              intro hm'
              obtain ⟨r, v, rest, ha, hv⟩ := hk m c hm' hg hx
              exact ⟨r, v, rest, ha, by rw [k1 m (by rintro rfl; exact hl m c hm' (.head _))]; exact hv⟩
            cases res with
            | false => cases ho; exact old (k3 ▸ hm)
            | true =>
              cases ho
              have hm2 : (m, c) ∈ s2.loaded ++ [(n, d)] := hm
              rw [k3] at hm2
              rcases List.mem_append.1 hm2 with hm' | hm'
              · exact old hm'
              · cases List.mem_singleton.1 hm'
                exact k2 rfl hg hx

end Ld

open Ld

/-- C74.  The modules loaded are those with a file, that `-e` (if given) names, that `-x` does not name, apart from `BASH`; each
once. -/
theorem C74_available (a : Args) (listing : List Name) :
    (∀ n, n ∈ available listing (names a.only) (names a.exclude) ↔ HasFile listing n ∧ Wanted a n) ∧
    (available listing (names a.only) (names a.exclude)).Nodup := by
  refine ⟨fun n => ?_, nodup_available _ _ _⟩
  rw [mem_available, names_iff, names_iff]
  unfold Wanted
  rw [show names a.only ≠ [] ↔ Given a.only from by rw [Ne, names_nil]; exact Classical.not_not]

/-- C74.  If the judge starts, the executors it offers are exactly those with a file that are wanted, can be imported, have all they
need, and pass their self-test unless self-tests are skipped. -/
theorem C74_offered (a : Args) (w : World) (imp : Name → Imported) (listing : List Name) (s : State)
    (h : loadExecutors a w imp listing = .ok s) (n : Name) (c : Cls) : (n, c) ∈ s.loaded ↔
      HasFile listing n ∧ Wanted a n ∧ imp n = .cls c ∧ Installed w c ∧ (a.skip = true ∨ Passes w c n) := by
  obtain ⟨h1, h2⟩ := C74_available a listing
  rw [loadAll_ok _ {} s h2 (fun _ _ => rfl) h, h1]
  simp [Taken, and_assoc]

/-- C74.  The self-test of an executor not yet asked for its versions is passed exactly if nothing raises an exception, the
program ends within its limits, prints the message, white space aside, and nothing to standard error. -/
theorem C74_selftest (w : World) (c : Cls) (n : Name) (cache : Cache) (hf : cache.lookup n = none) :
    (selfTest w c n cache).1 = true ↔ Passes w c n :=
  selfTest_iff hf

/-- C74.  The judge fails to start exactly if a wanted module raises something other than `ImportError`, needs a file whose key has
no value, or is a C or C++ one, self-tests are skipped, and its compiler cannot be asked for its version. -/
theorem C74_starts (a : Args) (w : World) (imp : Name → Imported) (listing : List Name)
    (hu : ∀ n c, imp n = .cls c → Usual c) :
    (∃ e, loadExecutors a w imp listing = .error e) ↔ ∃ n, HasFile listing n ∧ Wanted a n ∧ Breaks a.skip w imp n := by
  obtain ⟨h1, h2⟩ := C74_available a listing
  rw [loadExecutors, loadAll_error hu _ {} h2 (fun _ _ => rfl)]
  simp only [h1, and_assoc]

/-- C74.  A version is the first run of numbers and dots in the output that has at least two (for C, C++ and Java: one) numbers, as
long as possible. -/
theorem C74_version (least : Nat) (text : List Char) (v : Version) : parseVersion least text = some v ↔
    ∃ pre parts post, VersionAt least text pre parts post ∧ Ended post ∧
      v = parts.map (fun p => Nat.ofDigitChars 10 p 0) ∧
      ∀ pre' parts' post', VersionAt least text pre' parts' post' → pre.length ≤ pre'.length :=
  parse_iff least v text

/-- C74.  There is none exactly if the output has nothing of that shape. -/
theorem C74_version_none (least : Nat) (text : List Char) : parseVersion least text = none ↔
    ∀ pre parts post, ¬VersionAt least text pre parts post :=
  parse_none least text

/-- C74.  The versions reported are, in the order of the class's programs, what the first flag with a version in its output says,
and empty if none says any. -/
theorem C74_reports (w : World) (c : Cls) (v : Versions) : probe w c c.versionable = .ok v ↔ Answers w c c.versionable v :=
  probe_iff w c _ v

/-- C74.  Unless self-tests are skipped, every handshake names exactly the executors offered, with the versions their programs had
at the start, whatever has become of the programs since. -/
theorem C74_handshake (a : Args) (ha : a.skip = false) (w w' : World) (imp : Name → Imported) (listing : List Name) (s : State)
    (hu : ∀ n c, imp n = .cls c → Usual c) (h : loadExecutors a w imp listing = .ok s) :
    ∃ r, handshake w' s.loaded s.cache = .ok (r, s.cache) ∧ r.map (·.1) = s.loaded.map (·.1) ∧
      ∀ n v, (n, v) ∈ r → ∃ c, (n, c) ∈ s.loaded ∧ (c.fixed = some v ∨ c.fixed = none ∧ Answers w c c.versionable v) := by
  rw [loadExecutors, ha] at h
  exact handshake_known _ _ (loadAll_known hu _ {} s (nodup_available _ _ _) (fun _ _ => rfl) (by simp) (by intro n c h; simp at h) h)

/-- C74.  Whether the compiler of C or C++ is asked to colour its messages depends on the version its first program reports: it
is if that is later than 4.9. -/
theorem C74_color (a : Args) (w : World) (imp : Name → Imported) (listing : List Name) (s : State)
    (h : loadExecutors a w imp listing = .ok s) (n : Name) (c : Cls) (hl : (n, c) ∈ s.loaded) (hg : c.gcc = true)
    (hx : c.fixed = none) : ∃ r v rest b, Answers w c c.versionable ((r, v) :: rest) ∧ s.color.lookup n = some b ∧
      (b = true ↔ Later v) := by
  obtain ⟨r, v, rest, h1, h2⟩ := loadAll_color _ {} s (nodup_available _ _ _) (fun _ _ => rfl) (by simp) (by simp) h n c hl hg hx
  exact ⟨r, v, rest, _, h1, h2, greater_iff v⟩

namespace LdEx

def s (x : String) : Name := x.toList

/-- C++, python and Mono, the latter two without their special cases. -/
def cpp : Cls := { gcc := true, least := 1, command := s "g++17", versionable := [s "g++17"], flags := fun _ => [[s "-dumpversion"]] }
def py : Cls := { command := s "python3", versionable := [s "python3"], flags := fun _ => [[s "-V"]] }
def mono : Cls := { command := s "mono-csc", needs := [(s "mono", .file)], versionable := [s "mono-csc"],
                    flags := fun _ => [[s "--version"]] }

def imp (n : Name) : Imported :=
  if n = s "CPP17" then .cls cpp else if n = s "PY3" then .cls py else if n = s "MONOCS" then .cls mono else .importError

def listing : List Name := ["__init__.py", "PY3.py", "CPP17.py", "MONOCS.py", "BASH.py", "gcc_executor.py", "TEXT.py"].map s

def good : Test := .ran false false false false false (s "echo: Hello, World!\n") [] false

/-- `g++` and python are installed, Mono is not. -/
def w : World where
  runtime k := if k = s "g++17" then some (some (s "/usr/bin/g++")) else if k = s "python3" then some (some (s "/usr/bin/python3")) else none
  isFile p := p = s "/usr/bin/g++" || p = s "/usr/bin/python3"
  run p _ := if p = s "/usr/bin/g++" then .text (s "10\n") else .text (s "Python 3.9.2\n")
  test _ := good

/-- Its programs cannot be executed any more. -/
def broken : World := { w with run := fun _ _ => .raised }

def loadedNames (r : M State) : Option (List Name) :=
  match r with
  | .ok s => some (s.loaded.map (·.1))
  | .error _ => none

def said (w : World) (r : M State) : Option (List (Name × Versions)) :=
  match r with
  | .ok s =>
    match handshake w s.loaded s.cache with
    | .ok x => some x.1
    | .error _ => none
  | .error _ => none

example : available listing [] [] = ["CPP17", "MONOCS", "PY3", "TEXT"].map s := by decide +kernel
example : loadedNames (loadExecutors {} w imp listing) = some [s "CPP17", s "PY3"] := by decide +kernel
example : loadedNames (loadExecutors { only := some (s "PY3,TEXT") } w imp listing) = some [s "PY3"] := by decide +kernel
example : said broken (loadExecutors {} w imp listing) = some [(s "CPP17", [(s "g++17", [10])]), (s "PY3", [(s "python3", [3, 9, 2])])] := by
  decide +kernel
example : parseVersion 2 (s "gcc 7 (Debian 10.2.1-6.) 10.2") = some [10, 2, 1] := by decide +kernel
example : (loadExecutors {} w imp listing).toOption.map (·.color) = some [(s "CPP17", true)] := by decide +kernel
example : parseVersion 2 (s "version 12.") = none := by decide +kernel
example : ∀ n c, imp n = .cls c → Usual c := by
  intro n c h
  unfold imp at h
  split at h
  · cases h; exact ⟨rfl, fun _ => ⟨by simp [cpp], by simp [cpp]⟩⟩
  · split at h
    · cases h; exact ⟨rfl, nofun⟩
    · split at h
      · cases h; exact ⟨rfl, nofun⟩
      · cases h

end LdEx

open LdEx

/-- C74.  A test program that prints the message and then crashes passes the self-test. -/
theorem C74_crash_fails : ∃ w : World, w.test (s "PY3") = .ran false false true true false (s "echo: Hello, World!\n") [] false ∧
    loadedNames (loadExecutors {} w imp listing) = some [s "CPP17", s "PY3"] :=
  ⟨{ w with test := fun _ => .ran false false true true false (s "echo: Hello, World!\n") [] false }, rfl, by decide +kernel⟩

/-- C74.  A compiler of C or C++ that cannot be executed only keeps its own executor from being offered, unless self-tests are
skipped: then the judge does not start. -/
theorem C74_broken_fails : loadedNames (loadExecutors {} broken imp listing) = some [] ∧
    loadedNames (loadExecutors { skip := true } broken imp listing) = none := by
  constructor <;> decide +kernel

/-- C74.  With other such programs and self-tests skipped the judge starts, but it cannot connect to any site. -/
theorem C74_connect_fails : loadedNames (loadExecutors { skip := true, only := some (s "PY3") } broken imp listing) = some [s "PY3"] ∧
    said broken (loadExecutors { skip := true, only := some (s "PY3") } broken imp listing) = none := by
  constructor <;> decide +kernel

/-- C74.  The key `mono` without a value in the configuration keeps the judge from starting. -/
theorem C74_null_fails : loadedNames (loadExecutors {} { w with runtime := fun k => if k = s "mono" then some none else w.runtime k }
    imp listing) = none := by
  decide +kernel

/-- C74.  With a blank after the comma the second executor of `-e` is not loaded, and nothing is said about it. -/
theorem C74_blank_fails : loadedNames (loadExecutors { only := some (s "CPP17, PY3") } w imp listing) = some [s "CPP17"] := by
  decide +kernel

end Verif.Props
