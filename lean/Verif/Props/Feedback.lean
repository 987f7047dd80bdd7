import Verif.Model.Feedback

/-! # C69: what the user is told about a failed case -/

namespace Verif.Props

open Verif.Feedback

namespace Fb

/-- Letters and digits of ASCII, the underscore and the colon. -/
def NameChar (c : Char) : Prop := c.isAlphanum = true ∨ c = '_' ∨ c = ':'

/-- The text ends here, or the line does, maybe with a carriage return. -/
def EndsLine (post : Str) : Prop := ∃ cr rest : Str, post = cr ++ rest ∧ (cr = [] ∨ cr = ['\r']) ∧ (rest = [] ∨ ∃ t, rest = '\n' :: t)

/-- The C++ runtime's message about `g`, at the end of a line, `pre` characters into the text. -/
def Says (err pre g post : Str) : Prop :=
  err = pre ++ "terminate called after throwing an instance of '".toList ++ g ++ '\'' :: post ∧ g ≠ [] ∧
    (∀ c ∈ g, NameChar c) ∧ EndsLine post

theorem cppChar_iff (c : Char) : cppChar c = true ↔ NameChar c := by
  unfold cppChar NameChar Char.isAlphanum Char.isAlpha Char.isUpper Char.isLower Char.isDigit
  simp only [Bool.or_eq_true, Bool.and_eq_true, decide_eq_true_eq, beq_iff_eq, Char.le_def, ge_iff_le]
  simp only [show 'A'.val = 65 from rfl, show 'Z'.val = 90 from rfl, show 'a'.val = 97 from rfl, show 'z'.val = 122 from rfl,
    show '0'.val = 48 from rfl, show '9'.val = 57 from rfl, or_assoc]

theorem lineEnd_iff (post : Str) : lineEnd post = true ↔ EndsLine post := by
  unfold EndsLine
  constructor
  · intro h
    unfold lineEnd at h
    split at h
    · exact ⟨[], [], rfl, .inl rfl, .inl rfl⟩
    · exact ⟨['\r'], [], rfl, .inr rfl, .inl rfl⟩
    · exact ⟨['\r'], _, rfl, .inr rfl, .inr ⟨_, rfl⟩⟩
    · exact ⟨[], _, rfl, .inl rfl, .inr ⟨_, rfl⟩⟩
    · exact nomatch h
  · rintro ⟨cr, rest, rfl, rfl | rfl, rfl | ⟨t, rfl⟩⟩ <;> rfl

theorem Says_iff (err pre g post : Str) : Says err pre g post ↔
    err = pre ++ cppHead ++ g ++ '\'' :: post ∧ g ≠ [] ∧ (∀ c ∈ g, cppChar c = true) ∧ lineEnd post = true := by
  unfold Says
  simp only [lineEnd_iff, cppChar_iff]
  rfl

theorem prefix_split (p s : Str) : p.isPrefixOf s = true ↔ ∃ r, s = p ++ r := by
  rw [List.isPrefixOf_iff_prefix]
  constructor
  · rintro ⟨r, rfl⟩; exact ⟨r, rfl⟩
  · rintro ⟨r, rfl⟩; exact ⟨r, rfl⟩

theorem mem_tw {f : Char → Bool} {s : Str} {c : Char} (h : c ∈ s.takeWhile f) : f c = true := by
  induction s with
  | nil => exact nomatch h
  | cons a s ih =>
    rw [List.takeWhile_cons] at h
    split at h
    · rcases List.mem_cons.1 h with rfl | h
      · assumption
      · exact ih h
    · exact nomatch h

theorem takeWhile_append (f : Char → Bool) (g : Str) (c : Char) (r : Str) (hg : ∀ x ∈ g, f x = true) (hc : f c = false) :
    (g ++ c :: r).takeWhile f = g ∧ (g ++ c :: r).dropWhile f = c :: r := by
  induction g with
  | nil => simp [hc]
  | cons a g ih =>
    have ha := hg a (.head _)
    obtain ⟨h1, h2⟩ := ih fun x hx => hg x (.tail _ hx)
    simp [ha, h1, h2]

theorem cppAt_iff (s g : Str) : cppAt s = some g ↔ ∃ post, Says s [] g post := by
  simp only [Says_iff]
  unfold cppAt
  constructor
  · intro h
    split at h
    · next hp =>
      obtain ⟨r, rfl⟩ := (prefix_split _ _).1 hp
      rw [List.drop_left] at h
      dsimp only at h
      split at h
      · next r' hr =>
        split at h
        · next hg =>
          cases h
          refine ⟨r', ?_, hg.1, ?_, hg.2⟩
          · rw [List.nil_append, List.append_assoc, ← hr, List.takeWhile_append_dropWhile]
          · exact fun c hc => mem_tw hc
        · exact nomatch h
      · exact nomatch h
    · exact nomatch h
  · rintro ⟨post, rfl, hg, hc, hl⟩
    have hp : cppHead.isPrefixOf ([] ++ cppHead ++ g ++ '\'' :: post) = true :=
      (prefix_split _ _).2 ⟨g ++ '\'' :: post, by simp⟩
    rw [if_pos hp]
    rw [show [] ++ cppHead ++ g ++ '\'' :: post = cppHead ++ (g ++ '\'' :: post) from by simp, List.drop_left]
    obtain ⟨h1, h2⟩ := takeWhile_append cppChar g '\'' post hc (by decide)
    dsimp only
    rw [h1, h2]
    simp [hg, hl]

theorem cppLast_iff (s g : Str) : cppLast s = some g ↔
    ∃ pre post, Says s pre g post ∧ ∀ pre' g' post', Says s pre' g' post' → pre'.length ≤ pre.length := by
  induction s generalizing g with
  | nil =>
    simp only [cppLast]
    constructor
    · exact fun h => nomatch h
    · rintro ⟨pre, post, ⟨h, -⟩, -⟩
      have := congrArg List.length h
      simp at this
  | cons c s ih =>
    have up : ∀ pre g post, Says s pre g post ↔ Says (c :: s) (c :: pre) g post := by
      intro pre g post
      simp [Says]
    simp only [cppLast]
    cases hl : cppLast s with
    | some g' =>
      obtain ⟨pre, post, hs, hm⟩ := (ih g').1 hl
      dsimp only
      constructor
      · intro h
        cases h
        refine ⟨c :: pre, post, (up _ _ _).1 hs, ?_⟩
        intro pre' g'' post' h'
        cases pre' with
        | nil => simp
        | cons d pre' =>
          have hd : d = c := by have := h'.1; simp only [List.cons_append, List.cons.injEq] at this; exact this.1.symm
          subst hd
          have := hm pre' g'' post' ((up _ _ _).2 h')
          simpa using this
      · rintro ⟨pre', post', hs', hm'⟩
        have h1 := hm' _ _ _ ((up _ _ _).1 hs)
        cases pre' with
        | nil => simp at h1
        | cons d pre' =>
          have hd : d = c := by have := hs'.1; simp only [List.cons_append, List.cons.injEq] at this; exact this.1.symm
          subst hd
          have hs'' := (up _ _ _).2 hs'
          refine congrArg some ?_
          have := (ih g).2 ⟨pre', post', hs'', fun a b d hh => by
            have := hm' _ _ _ ((up _ _ _).1 hh); simpa using this⟩
          rw [hl] at this
          exact Option.some.inj this
    | none =>
      have hno : ∀ pre g post, ¬ Says s pre g post := by
        intro pre g post h
        have hne : ∃ n : Nat, (∃ pre g post, Says s pre g post ∧ pre.length = n) := ⟨_, pre, g, post, h, rfl⟩
        -- the largest one
        have hbound : ∀ pre g post, Says s pre g post → pre.length ≤ s.length := by
          rintro pre g post ⟨rfl, -⟩
          simp
        have : ∃ pre g post, Says s pre g post ∧ ∀ pre' g' post', Says s pre' g' post' → pre'.length ≤ pre.length := by
          have key : ∀ k : Nat, ∀ pre g post, Says s pre g post → s.length - pre.length ≤ k →
              ∃ pre g post, Says s pre g post ∧ ∀ pre' g' post', Says s pre' g' post' → pre'.length ≤ pre.length := by
            intro k
            induction k with
            | zero =>
              intro pre g post h hk
              refine ⟨pre, g, post, h, fun pre' g' post' h' => ?_⟩
              have := hbound _ _ _ h'
              have := hbound _ _ _ h
              omega
            | succ k ihk =>
              intro pre g post h hk
              by_cases hb : ∃ pre' g' post', Says s pre' g' post' ∧ pre.length < pre'.length
              · obtain ⟨pre', g', post', h', hlt⟩ := hb
                have := hbound _ _ _ h'
                exact ihk pre' g' post' h' (by omega)
              · refine ⟨pre, g, post, h, fun pre' g' post' h' => Nat.not_lt.1 fun hlt => hb ⟨pre', g', post', h', hlt⟩⟩
          exact key _ pre g post h (Nat.le_refl _)
        obtain ⟨pre, g, post, h, hm⟩ := this
        have := (ih g).2 ⟨pre, post, h, hm⟩
        rw [hl] at this
        exact nomatch this
      dsimp only
      rw [cppAt_iff]
      have only : ∀ pre' g' post', Says (c :: s) pre' g' post' → pre' = [] := by
        intro pre' g' post' h'
        cases pre' with
        | nil => rfl
        | cons d pre' =>
          have hd : d = c := by have := h'.1; simp only [List.cons_append, List.cons.injEq] at this; exact this.1.symm
          subst hd
          exact absurd ((up _ _ _).2 h') (hno _ _ _)
      constructor
      · rintro ⟨post, h⟩
        exact ⟨[], post, h, fun pre' g' post' h' => by rw [only _ _ _ h']; exact Nat.le_refl _⟩
      · rintro ⟨pre, post, h, -⟩
        cases only _ _ _ h
        exact ⟨post, h⟩

/-- No match begins inside another one. -/
theorem cpp_inside (g : Str) (hg : ∀ c ∈ g, cppChar c = true) (k : Nat) (hk : 0 < k) (hk' : k < (cppHead ++ g ++ ['\'']).length)
    (post : Str) : cppHead.isPrefixOf ((cppHead ++ g ++ '\'' :: post).drop k) = false := by
  have hlen : cppHead.length = 48 := by decide
  by_cases h : k < 48
  · -- it would begin inside the fixed text
    have fixed : ∀ k : Fin 48, 0 < k.val → (cppHead.take (48 - k.val)).isPrefixOf (cppHead.drop k.val) = false := by decide
    have hf := fixed ⟨k, h⟩ hk
    dsimp only at hf
    rw [Bool.eq_false_iff] at hf ⊢
    intro hc
    apply hf
    obtain ⟨r, hr⟩ := (prefix_split _ _).1 hc
    rw [prefix_split]
    refine ⟨[], ?_⟩
    have hd : (cppHead ++ g ++ '\'' :: post).drop k = cppHead.drop k ++ (g ++ '\'' :: post) := by
      rw [List.append_assoc, List.drop_append_of_le_length (by omega)]
    rw [hd] at hr
    have h2 := congrArg (List.take (48 - k)) hr
    rw [List.take_append_of_le_length (by simp [hlen]), List.take_append_of_le_length (by omega)] at h2
    rw [List.take_of_length_le (by simp [hlen])] at h2
    simpa using h2
  · -- inside the name or at the quote: the first letter and the space after the first word do not fit
    rw [Bool.eq_false_iff]
    intro hc
    obtain ⟨r, hr⟩ := (prefix_split _ _).1 hc
    have hd : (cppHead ++ g ++ '\'' :: post).drop k = (g ++ '\'' :: post).drop (k - 48) := by
      rw [List.append_assoc, List.drop_append, hlen, List.drop_eq_nil_of_le (by omega), List.nil_append]
    rw [hd] at hr
    have hk2 : k - 48 ≤ g.length := by simp [hlen] at hk'; omega
    rw [List.drop_append_of_le_length hk2] at hr
    generalize hq : g.drop (k - 48) = q at hr
    have hqc : ∀ c ∈ q, cppChar c = true := fun c hcq => hg c (List.mem_of_mem_drop (hq ▸ hcq))
    -- the head contains a space before its quote
    have h1 : (q ++ '\'' :: post).takeWhile cppChar = q := (takeWhile_append _ _ _ _ hqc (by decide)).1
    have h2 : (q ++ '\'' :: post).dropWhile cppChar = '\'' :: post := (takeWhile_append _ _ _ _ hqc (by decide)).2
    have h3 : (cppHead ++ r).dropWhile cppChar = " called after throwing an instance of '".toList ++ r := by
      rw [show cppHead = "terminate".toList ++ (' ' :: "called after throwing an instance of '".toList) from by decide, List.append_assoc]
      exact (takeWhile_append cppChar "terminate".toList ' ' _ (by decide) (by decide)).2
    rw [hr, h3] at h2
    exact absurd (congrArg List.head? h2) (by simp)

theorem dropSys_prefix (n : Str) : dropSys ("sys_".toList ++ n) = n := by
  rw [show "sys_".toList ++ n = 's' :: 'y' :: 's' :: '_' :: n from rfl, dropSys, if_pos]
  · rfl
  · exact (prefix_split _ _).2 ⟨n, rfl⟩

/-! ### Python -/

theorem excLine_shape {word : Char → Bool} {l g : Str} (h : excLine word l = some g) :
    ∃ c r, g = c :: r ∧ idStart c = true ∧ ∀ x ∈ r, word x = true := by
  unfold excLine at h
  split at h
  · exact nomatch h
  · next c r =>
    split at h
    · next hc =>
      split at h
      · cases h; exact ⟨c, _, rfl, hc, fun x hx => mem_tw hx⟩
      · split at h
        · cases h; exact ⟨c, _, rfl, hc, fun x hx => mem_tw hx⟩
        · exact nomatch h
    · exact nomatch h

theorem excAfter_shape {word : Char → Bool} : ∀ {ls : List Str} {g : Str} {r : List Str},
    excAfter word ls = some (g, r) → ∃ l, excLine word l = some g
  | [], _, _, h => nomatch h
  | [_], _, _, h => nomatch h
  | _ :: l :: r, g, r', h => by
    simp only [excAfter] at h
    cases he : excLine word l with
    | some g' => rw [he] at h; cases h; exact ⟨l, he⟩
    | none => rw [he] at h; exact excAfter_shape h

theorem pyLast_shape {word : Char → Bool} : ∀ (n : Nat) (ls : List Str) (last : Option Str) (g : Str), ls.length ≤ n →
    pyLast word last ls = some g → last = some g ∨ ∃ l, excLine word l = some g := by
  intro n
  induction n with
  | zero =>
    intro ls last g hn h
    cases List.length_eq_zero_iff.1 (Nat.le_zero.1 hn)
    rw [pyLast] at h
    exact .inl h
  | succ n ih =>
    intro ls last g hn h
    cases ls with
    | nil => rw [pyLast] at h; exact .inl h
    | cons l r =>
      rw [pyLast] at h
      simp only [List.length_cons] at hn
      split at h
      · split at h
        · next g' r' he =>
          have hl := excAfter_shorter word r g' r' he
          rcases ih r' (some g') g (by omega) h with h' | h'
          · cases h'
            exact .inr (excAfter_shape he)
          · exact .inr h'
        · exact .inl h
      · exact ih r last g (by omega) h

/-- A traceback as python prints it, after anything else: the header, lines that are not the end, the line with the exception. -/
theorem excAfter_finds {word : Char → Bool} (frames : List Str) (e g : Str) (tail : List Str)
    (hf : ∀ l ∈ frames, excLine word l = none) (he : excLine word e = some g) :
    ∀ (first : Str), excAfter word (first :: (frames ++ e :: tail)) = some (g, tail) := by
  induction frames with
  | nil => intro first; simp [excAfter, he]
  | cons f frames ih =>
    intro first
    simp only [List.cons_append, excAfter, hf f (.head _)]
    exact ih (fun l hl => hf l (.tail _ hl)) f

/-- A match that begins in `pre` ends in `pre`, or at the end of the traceback after it. -/
theorem excAfter_through {word : Char → Bool} (hd : Str) (frames : List Str) (e g : Str) (tail : List Str)
    (hh : excLine word hd = none) (hf : ∀ l ∈ frames, excLine word l = none) (he : excLine word e = some g) :
    ∀ (pre : List Str), (∃ g' a b, pre = a ++ b ∧ a ≠ [] ∧
        excAfter word (pre ++ hd :: (frames ++ e :: tail)) = some (g', b ++ hd :: (frames ++ e :: tail))) ∨
      excAfter word (pre ++ hd :: (frames ++ e :: tail)) = some (g, tail)
  | [] => .inr (excAfter_finds frames e g tail hf he hd)
  | [x] => by
    right
    have := excAfter_finds (word := word) (hd :: frames) e g tail (by
      intro l hl
      rcases List.mem_cons.1 hl with rfl | hl
      · exact hh
      · exact hf l hl) he x
    simpa using this
  | x :: y :: pre => by
    simp only [List.cons_append, excAfter]
    cases hy : excLine word y with
    | some g' => exact .inl ⟨g', [x, y], pre, rfl, by simp, rfl⟩
    | none =>
      dsimp only
      rcases excAfter_through hd frames e g tail hh hf he (y :: pre) with ⟨g', a, b, h1, h2, h3⟩ | h
      · refine .inl ⟨g', x :: a, b, by rw [h1]; rfl, by simp, ?_⟩
        rw [← h3]; rfl
      · exact .inr h

theorem pyLast_finds {word : Char → Bool} (frames : List Str) (e g : Str) (hne : frames ≠ [])
    (hh : excLine word header = none)
    (hf : ∀ l ∈ frames, excLine word l = none) (he : excLine word e = some g) (tail : List Str)
    (ht : ∀ l ∈ tail, header.isSuffixOf l = false) :
    ∀ (n : Nat) (pre : List Str) (last : Option Str), pre.length ≤ n →
      pyLast word last (pre ++ header :: (frames ++ e :: tail)) = some g := by
  have endT : ∀ (tail : List Str), (∀ l ∈ tail, header.isSuffixOf l = false) → pyLast word (some g) tail = some g := by
    intro tail
    induction tail with
    | nil => intro _; rw [pyLast]
    | cons l tail ih =>
      intro ht
      rw [pyLast, if_neg (by rw [ht l (.head _)]; exact Bool.false_ne_true)]
      exact ih fun x hx => ht x (.tail _ hx)
  have base : ∀ last, pyLast word last (header :: (frames ++ e :: tail)) = some g := by
    intro last
    rw [pyLast, if_pos (List.isSuffixOf_iff_suffix.2 (List.suffix_refl _))]
    cases frames with
    | nil => exact absurd rfl hne
    | cons f frames =>
      have h := excAfter_finds (word := word) frames e g tail (fun l hl => hf l (.tail _ hl)) he f
      split
      · next g' r' he' =>
        rw [List.cons_append, h] at he'
        cases he'
        exact endT tail ht
      · next he' =>
        rw [List.cons_append, h] at he'
        exact nomatch he'
  intro n
  induction n with
  | zero =>
    intro pre last hn
    cases List.length_eq_zero_iff.1 (Nat.le_zero.1 hn)
    exact base last
  | succ n ih =>
    intro pre last hn
    cases pre with
    | nil => exact base last
    | cons l pre =>
      rw [List.cons_append, pyLast]
      simp only [List.length_cons] at hn
      split
      · have h := excAfter_through (word := word) header frames e g tail hh hf he pre
        split
        · next g' r' he' =>
          rcases h with ⟨g'', a, b, h1, h2, h3⟩ | h
          · rw [h3] at he'
            cases he'
            refine ih b _ ?_
            have := congrArg List.length h1
            simp only [List.length_append] at this
            have : 0 < a.length := List.length_pos_iff.2 h2
            omega
          · rw [h] at he'
            cases he'
            exact endT tail ht
        · next he' =>
          rcases h with ⟨g'', a, b, h1, h2, h3⟩ | h
          · rw [h3] at he'; exact nomatch he'
          · rw [h] at he'; exact nomatch he'
      · exact ih pre last (by omega)

/-- Text from lines. -/
def unlines : List Str → Str
  | [] => []
  | [l] => l
  | l :: r => l ++ '\n' :: unlines r

theorem lines_ne (s : Str) : lines s ≠ [] := by
  induction s with
  | nil => simp [lines]
  | cons c s ih =>
    simp only [lines]
    split
    · split <;> simp
    · next h => exact absurd h ih

theorem lines_nonl (l : Str) (h : '\n' ∉ l) : lines l = [l] := by
  induction l with
  | nil => rfl
  | cons c l ih =>
    simp only [lines, ih fun hc => h (.tail _ hc)]
    rw [if_neg (by rintro rfl; exact h (.head _))]

theorem lines_append (l s : Str) (h : '\n' ∉ l) : lines (l ++ '\n' :: s) = l :: lines s := by
  induction l with
  | nil =>
    rw [List.nil_append, lines]
    cases hs : lines s with
    | nil => exact absurd hs (lines_ne s)
    | cons a r => simp
  | cons c l ih =>
    rw [List.cons_append, lines, ih fun hc => h (.tail _ hc)]
    dsimp only
    rw [if_neg (by rintro rfl; exact h (.head _))]

theorem lines_unlines : ∀ (ls : List Str), ls ≠ [] → (∀ l ∈ ls, '\n' ∉ l) → lines (unlines ls) = ls
  | [], h, _ => absurd rfl h
  | [l], _, h => lines_nonl l (h l (.head _))
  | l :: m :: r, _, h => by
    rw [unlines, lines_append l _ (h l (.head _)), lines_unlines (m :: r) (by simp) fun x hx => h x (.tail _ hx)]
    simp

end Fb

open Fb

/-- C69.  A program stopped for a forbidden call is always reported with the name of that call, whatever else happened to it. -/
theorem C69_fault (strsignal : Nat → Str) (parse : Str → Proc → Option Str) (err : Str) (p : Proc) (name : Str)
    (hp : p.fault = some ("sys_".toList ++ name)) (f : Str) (h : feedback strsignal parse err p = some f) :
    f = name ++ " syscall disallowed".toList := by
  unfold feedback at h
  dsimp only at h
  split at h
  · exact nomatch h
  · rw [hp] at h
    dsimp only at h
    rw [dropSys_prefix] at h
    exact (Option.some.inj h).symm

/-- C69.  Nothing is said about a program that ended normally or was over a limit. -/
theorem C69_quiet (strsignal : Nat → Str) (parse : Str → Proc → Option Str) (err : Str) (p : Proc) (hf : p.fault = none)
    (h : (p.ir = false ∧ p.rte = false) ∨ p.tle = true ∨ p.mle = true ∨ p.ole = true) :
    feedback strsignal parse err p = some [] := by
  have hfail : ((p.ir || p.rte) && !(p.tle || p.mle || p.ole)) = false := by
    rcases h with ⟨h1, h2⟩ | h | h | h <;> simp [*]
  unfold feedback
  dsimp only
  rw [hfail, hf]
  rfl

/-- C69.  Otherwise a failed program is reported with what the language's runtime said, or as not started, or with its signal. -/
theorem C69_failed (strsignal : Nat → Str) (parse : Str → Proc → Option Str) (err : Str) (p : Proc) (hf : p.fault = none)
    (h : p.ir = true ∨ p.rte = true) (hl : p.tle = false ∧ p.mle = false ∧ p.ole = false) (x : Str)
    (hx : parse err p = some x) :
    (x ≠ [] → feedback strsignal parse err p = some x) ∧
    (x = [] → p.initialized = false → feedback strsignal parse err p = some "failed initializing".toList) ∧
    (x = [] → p.initialized = true → contains "error while loading shared libraries".toList err = false → p.signal ≠ 0 →
      feedback strsignal parse err p = some (strsignal p.signal)) := by
  obtain ⟨h1, h2, h3⟩ := hl
  have hfail : ((p.ir || p.rte) && !(p.tle || p.mle || p.ole)) = true := by rcases h with h | h <;> simp [*]
  unfold feedback
  dsimp only
  rw [hfail, hf, if_pos rfl, hx]
  dsimp only
  refine ⟨fun hn => ?_, fun hn hi => ?_, fun hn hi hc hs => ?_⟩
  · cases x with
    | nil => exact absurd rfl hn
    | cons a x => rfl
  · subst hn; simp [hi]
  · subst hn
    simp only [List.isEmpty_nil, Bool.and_self, if_true, hi, hc]
    simp [hs]

/-- C69.  For C and C++ the runtime's message names the exception: the last one at the end of a line counts, unless there is too
much text or too long a name. -/
theorem C69_cpp (bytes : Nat) (err : Str) (p : Proc) (g : Str) (hg : g ≠ []) : parseCpp bytes err p = some g ↔
    bytes ≤ 2048 ∧ g.length ≤ 40 ∧ ∃ pre post, Says err pre g post ∧
      ∀ pre' g' post', Says err pre' g' post' → pre'.length ≤ pre.length := by
  unfold parseCpp
  constructor
  · intro h
    split at h
    · cases h; exact absurd rfl hg
    · next hne =>
      cases hl : cppLast err with
      | none => rw [hl] at h; cases h; exact absurd rfl hg
      | some g' =>
        rw [hl] at h
        simp only [Option.some.injEq] at h
        split at h
        · exact absurd h.symm hg
        · next hlen =>
          subst h
          exact ⟨by omega, by omega, (cppLast_iff err g').1 hl⟩
  · rintro ⟨h1, h2, h3⟩
    have hl := (cppLast_iff err g).2 h3
    have hne : err ≠ [] := by rintro rfl; exact nomatch hl
    rw [if_neg (by rintro (h | h); exact hne h; omega), hl]
    simp only [Option.some.injEq, ite_eq_right_iff]
    omega

/-- C69.  So a C or C++ program that is not stopped for a call cannot make the judge show text of its own: only a short name. -/
theorem C69_cpp_shape (bytes : Nat) (strsignal : Nat → Str) (err : Str) (p : Proc) (hf : p.fault = none) (f : Str)
    (h : feedback strsignal (parseCpp bytes) err p = some f) :
    f = [] ∨ f = "failed initializing".toList ∨ f = strsignal p.signal ∨
      (f.length ≤ 40 ∧ ∀ c ∈ f, NameChar c) := by
  have hp : ∀ x, parseCpp bytes err p = some x → x.length ≤ 40 ∧ ∀ c ∈ x, NameChar c := by
    intro x hx
    by_cases h0 : x = []
    · subst h0; simp
    · obtain ⟨-, h2, pre, post, hs, -⟩ := (C69_cpp bytes err p x h0).1 hx
      exact ⟨h2, hs.2.2.1⟩
  unfold feedback at h
  rw [hf] at h
  dsimp only at h
  split at h
  · exact nomatch h
  · next x hx =>
    have hx' : x.length ≤ 40 ∧ ∀ c ∈ x, NameChar c := by
      split at hx
      · exact hp x hx
      · cases hx; simp
    have h := Option.some.inj h
    split at h
    · split at h
      · exact .inr (.inl h.symm)
      · split at h
        · exact .inr (.inr (.inl h.symm))
        · subst h; exact .inr (.inr (.inr hx'))
    · subst h; exact .inr (.inr (.inr hx'))

/-- C69.  Nor can a Python program. -/
theorem C69_python_shape (bytes : Nat) (strsignal : Nat → Str) (word : Char → Bool) (err : Str) (p : Proc) (hf : p.fault = none) (f : Str)
    (h : feedback strsignal (parsePy bytes word) err p = some f) :
    f = [] ∨ f = "failed initializing".toList ∨ f = strsignal p.signal ∨
      (f.length ≤ 20 ∧ ∀ c ∈ f, idStart c = true ∨ word c = true) := by
  have hp : ∀ x, parsePy bytes word err p = some x → x.length ≤ 20 ∧ ∀ c ∈ x, idStart c = true ∨ word c = true := by
    intro x hx
    unfold parsePy at hx
    split at hx
    · cases hx; simp
    · cases hl : pyLast word none (lines err) with
      | none => rw [hl] at hx; cases hx; simp
      | some g =>
        rw [hl] at hx
        have hx := Option.some.inj hx
        split at hx
        · subst hx; simp
        · subst hx
          refine ⟨by omega, ?_⟩
          rcases pyLast_shape _ _ none g (Nat.le_refl _) hl with h | ⟨l, h⟩
          · exact nomatch h
          · obtain ⟨c, r, rfl, hc, hr⟩ := excLine_shape h
            intro d hd
            rcases List.mem_cons.1 hd with rfl | hd
            · exact .inl hc
            · exact .inr (hr d hd)
  unfold feedback at h
  rw [hf] at h
  dsimp only at h
  split at h
  · exact nomatch h
  · next x hx =>
    have hx' : x.length ≤ 20 ∧ ∀ c ∈ x, idStart c = true ∨ word c = true := by
      split at hx
      · exact hp x hx
      · cases hx; simp
    have h := Option.some.inj h
    split at h
    · split at h
      · exact .inr (.inl h.symm)
      · split at h
        · exact .inr (.inr (.inl h.symm))
        · subst h; exact .inr (.inr (.inr hx'))
    · subst h; exact .inr (.inr (.inr hx'))

/-- C69.  An uncaught exception of a Python program is named, whatever was printed before: the last traceback counts. A traceback
is the header, at least one line and otherwise indented ones, and a line with the name, optionally a colon and a message. -/
theorem C69_python (bytes : Nat) (word : Char → Bool) (hw : word ' ' = false) (p : Proc) (pre : List Str) (frames : List Str) (c : Char)
    (name msg : Str) (hpre : ∀ l ∈ pre, '\n' ∉ l) (hfr : ∀ l ∈ frames, '\n' ∉ l ∧ ∃ r, l = ' ' :: r) (hne : frames ≠ [])
    (hc : idStart c = true) (hn : ∀ x ∈ name, word x = true ∧ x ≠ '\n') (hcol : word ':' = false) (hm : '\n' ∉ msg)
    (hlen : name.length < 20)
    (err : Str) (herr : err = unlines (pre ++ header :: (frames ++ [c :: (name ++ ':' :: msg), []])))
    (hshort : bytes ≤ 2048) : parsePy bytes word err p = some (c :: name) := by
  have hcn : c ≠ '\n' := by rintro rfl; exact absurd hc (by decide)
  have hnl : '\n' ∉ header := by decide
  have hl : lines err = pre ++ header :: (frames ++ [c :: (name ++ ':' :: msg), []]) := by
    rw [herr]
    apply lines_unlines
    · simp
    · intro l hl
      simp only [List.mem_append, List.mem_cons, List.not_mem_nil, or_false] at hl
      rcases hl with hl | rfl | hl | rfl | rfl
      · exact hpre l hl
      · exact hnl
      · exact (hfr l hl).1
      · intro hm'
        simp only [List.mem_cons, List.mem_append] at hm'
        rcases hm' with h | h | h | h
        · exact hcn h.symm
        · exact (hn _ h).2 rfl
        · exact absurd h (by decide)
        · exact hm h
      · exact nofun
  have he : excLine word (c :: (name ++ ':' :: msg)) = some (c :: name) := by
    obtain ⟨h1, h2⟩ := takeWhile_append word name ':' msg (fun x hx => (hn x hx).1) hcol
    unfold excLine
    dsimp only
    rw [if_pos hc, h2, h1]
    rfl
  have hh : excLine word header = none := by
    unfold excLine
    rw [show header = 'T' :: "raceback (most recent call last):".toList from rfl]
    dsimp only
    rw [if_pos (by decide)]
    cases hd : ("raceback (most recent call last):".toList).dropWhile word with
    | nil =>
      exfalso
      have : ∀ x ∈ "raceback (most recent call last):".toList, word x = true := by
        have h0 := List.takeWhile_append_dropWhile (p := word) (l := "raceback (most recent call last):".toList)
        rw [hd, List.append_nil] at h0
        intro x hx
        rw [← h0] at hx
        exact mem_tw hx
      exact absurd (this ' ' (by decide)) (by simp [hw])
    | cons d r =>
      dsimp only
      rw [if_neg]
      rintro rfl
      have hmem : ∃ t, t ++ ':' :: r = "raceback (most recent call last):".toList ∧ ∀ x ∈ t, word x = true :=
        ⟨("raceback (most recent call last):".toList).takeWhile word, by rw [← hd, List.takeWhile_append_dropWhile],
          fun x hx => mem_tw hx⟩
      obtain ⟨t, ht, hall⟩ := hmem
      have hspace : ' ' ∈ t := by
        have hin : ' ' ∈ t ++ ':' :: r := by rw [ht]; decide
        have hr : r = [] := by
          have hlen : t.length + (r.length + 1) = 33 := by simpa using congrArg List.length ht
          have hidx := congrArg (fun s => s[t.length]?) ht
          simp only [List.getElem?_append_right (Nat.le_refl _), Nat.sub_self, List.getElem?_cons_zero] at hidx
          have key : ∀ i : Fin 33, ("raceback (most recent call last):".toList)[i.val]? = some ':' → i.val = 32 := by decide
          have := key ⟨t.length, by omega⟩ hidx.symm
          dsimp only at this
          exact List.length_eq_zero_iff.1 (by omega)
        subst hr
        simpa using hin
      exact absurd (hall ' ' hspace) (by simp [hw])
  have hf : ∀ l ∈ frames, excLine word l = none := by
    intro l hl
    obtain ⟨-, r, rfl⟩ := hfr l hl
    unfold excLine
    dsimp only
    rw [if_neg (by decide)]
  have hlast : pyLast word none (lines err) = some (c :: name) := by
    rw [hl]
    exact pyLast_finds frames _ _ hne hh hf he [[]] (by simp; decide) _ pre none (Nat.le_refl _)
  have hnon : err ≠ [] := by
    rintro rfl
    have := congrArg List.length hl
    simp [lines] at this
    omega
  unfold parsePy
  rw [if_neg (by rintro (h | h); exact hnon h; omega), hlast]
  simp only [Option.some.injEq, ite_eq_right_iff, List.length_cons]
  intro h
  omega

/-- C69.  What a Java program makes the judge show is one line without a colon. Partial: see `C69_java_fails`. -/
theorem C69_java_partial (strsignal : Nat → Str) (hs : ∀ n, '\n' ∉ strsignal n ∧ ':' ∉ strsignal n) (log : Option Str)
    (err : Str) (p : Proc) (hf : p.fault = none) (f : Str)
    (h : feedback strsignal (parseJava log) err p = some f) : '\n' ∉ f ∧ ':' ∉ f := by
  have hline : ∀ l g : Str, javaLine l = some g → ∀ c ∈ g, c ∈ l := by
    intro l
    induction l with
    | nil => intro g h; exact nomatch h
    | cons c s ih =>
      intro g h x hx
      simp only [javaLine] at h
      split at h
      · cases h; exact List.mem_of_mem_drop hx
      · exact .tail _ (ih g h x hx)
  have hnl : ∀ s : Str, ∀ l ∈ lines s, '\n' ∉ l := by
    intro s
    induction s with
    | nil => intro l hl; simp [lines] at hl; subst hl; exact nofun
    | cons c s ih =>
      intro l hl
      simp only [lines] at hl
      split at hl
      · next a r ha =>
        rw [ha] at ih
        split at hl
        · rcases List.mem_cons.1 hl with rfl | hl
          · exact nofun
          · exact ih l hl
        · next hc =>
          rcases List.mem_cons.1 hl with rfl | hl
          · intro hm
            rcases List.mem_cons.1 hm with h | h
            · exact hc h.symm
            · exact ih a (.head _) h
          · exact ih l (.tail _ hl)
      · exact nomatch hl
  have hp : ∀ x, parseJava log err p = some x → '\n' ∉ x ∧ ':' ∉ x := by
    intro x hx
    have hrest : ∀ x, (if contains "Error: Main method not found in class".toList err then
          some "public static void main(String[] args) not found".toList
        else match javaLast (lines err) with
          | none => some "abnormal termination".toList
          | some g => some (g.takeWhile (· ≠ ':'))) = some x → '\n' ∉ x ∧ ':' ∉ x := by
      intro x hx
      split at hx
      · cases hx; decide
      · split at hx
        · cases hx; decide
        · next g hg =>
          cases hx
          unfold javaLast at hg
          have hmem := List.mem_of_getLast? hg
          obtain ⟨l, hl, hlg⟩ := List.mem_filterMap.1 hmem
          refine ⟨fun h => ?_, fun h => ?_⟩
          · exact hnl err l hl (hline l g hlg _ (List.takeWhile_subset _ h))
          · have := mem_tw h
            simp at this
    unfold parseJava at hx
    dsimp only at hx
    split at hx
    · split at hx
      · split at hx
        · cases hx; decide
        · exact nomatch hx
      · exact hrest x hx
    · exact hrest x hx
  unfold feedback at h
  rw [hf] at h
  dsimp only at h
  split at h
  · exact nomatch h
  · next x hx =>
    have hx' : '\n' ∉ x ∧ ':' ∉ x := by
      split at hx
      · exact hp x hx
      · cases hx; simp
    have h := Option.some.inj h
    split at h
    · split at h
      · subst h; decide
      · split at h
        · subst h; exact hs _
        · subst h; exact hx'
    · subst h; exact hx'

/-- C69.  But it is otherwise the program's choice, and as long as it likes: after the marker, which any program can print to its
standard error, comes the text shown. -/
theorem C69_java_fails (strsignal : Nat → Str) (p : Proc) (hf : p.fault = none) (h : p.ir = true)
    (hl : p.tle = false ∧ p.mle = false ∧ p.ole = false) (w : Str) (hw : w ≠ [])
    (hc : '\n' ∉ w ∧ ':' ∉ w ∧ 'E' ∉ w) :
    feedback strsignal (parseJava none) (marker ++ w) p = some w := by
  have hno : ∀ s : Str, 'E' ∉ s → contains "Error: Main method not found in class".toList s = false := by
    intro s
    induction s with
    | nil => intro _; decide
    | cons c s ih =>
      intro hs
      simp only [contains, Bool.or_eq_false_iff]
      refine ⟨?_, ih fun h => hs (.tail _ h)⟩
      rw [Bool.eq_false_iff]
      intro hp
      obtain ⟨r, hr⟩ := (prefix_split _ _).1 hp
      rw [show "Error: Main method not found in class".toList = 'E' :: "rror: Main method not found in class".toList from rfl] at hr
      simp only [List.cons_append, List.cons.injEq] at hr
      exact hs (hr.1 ▸ .head _)
  have h1 : contains "Error: Main method not found in class".toList (marker ++ w) = false := by
    apply hno
    intro hm
    rcases List.mem_append.1 hm with hm | hm
    · exact absurd hm (by decide)
    · exact hc.2.2 hm
  have h2 : lines (marker ++ w) = [marker ++ w] := by
    apply lines_nonl
    intro hm
    rcases List.mem_append.1 hm with hm | hm
    · exact absurd hm (by decide)
    · exact hc.1 hm
  have h3 : javaLine (marker ++ w) = some w := by
    have hm : marker.isPrefixOf ('7' :: ("257b50d-e37a-4664-b1a5-b1340b4206c0: ".toList ++ w)) = true :=
      (prefix_split marker _).2 ⟨w, rfl⟩
    rw [show marker ++ w = '7' :: ("257b50d-e37a-4664-b1a5-b1340b4206c0: ".toList ++ w) from rfl, javaLine, if_pos hm]
    rfl
  have h4 : w.takeWhile (fun c => decide (c ≠ ':')) = w := by
    clear hw h1 h2 h3
    induction w with
    | nil => rfl
    | cons a w ih =>
      have ha : a ≠ ':' := by rintro rfl; exact hc.2.1 (.head _)
      rw [List.takeWhile_cons, if_pos (by simpa using ha),
        ih ⟨fun h => hc.1 (.tail _ h), fun h => hc.2.1 (.tail _ h), fun h => hc.2.2 (.tail _ h)⟩]
  have hx : parseJava none (marker ++ w) p = some w := by
    unfold parseJava
    simp only [h, Bool.true_or, if_true]
    rw [h1, h2]
    simp only [Bool.false_eq_true, if_false, javaLast, List.filterMap_cons, h3, List.filterMap_nil, List.getLast?_singleton]
    exact congrArg some h4
  exact (C69_failed strsignal (parseJava none) (marker ++ w) p hf (.inl h) hl w hx).1 hw

/-- C69.  A crash log left in the submission's directory by one case makes every later case that fails, for whatever reason, an
internal error, even one stopped for a forbidden call. -/
theorem C69_log_fails (strsignal : Nat → Str) (log err : Str) (p : Proc) (h : p.ir = true ∨ p.rte = true)
    (hl : p.tle = false ∧ p.mle = false ∧ p.ole = false)
    (hlog : contains "There is insufficient memory for the Java Runtime".toList log = false) :
    feedback strsignal (parseJava (some log)) err p = none := by
  obtain ⟨h1, h2, h3⟩ := hl
  have hfail : ((p.ir || p.rte) && !(p.tle || p.mle || p.ole)) = true := by rcases h with h | h <;> simp [*]
  have hir : (p.ir || p.rte) = true := by rcases h with h | h <;> simp [h]
  unfold feedback
  dsimp only
  rw [if_pos hfail]
  unfold parseJava
  simp only [hir, if_true, hlog]
  simp

theorem monoAt_spec {s g r : Str} (h : monoAt s = some (g, r)) : s = g ++ ':' :: r ∧ ':' ∉ g ∧ '\n' ∉ g := by
  unfold monoAt at h
  split at h
  · next r' e =>
    cases h
    refine ⟨?_, fun hm => ?_, fun hm => ?_⟩
    · rw [← e]; exact (List.takeWhile_append_dropWhile ..).symm
    · simpa using mem_tw hm
    · simpa using mem_tw hm
  · cases h

theorem monoAt_of {g r : Str} (h1 : ':' ∉ g) (h2 : '\n' ∉ g) : monoAt (g ++ ':' :: r) = some (g, r) := by
  have ht := takeWhile_append (fun c => c ≠ ':' && c ≠ '\n') g ':' r (fun x hx => by
    have : x ≠ ':' := fun e => h1 (e ▸ hx)
    have : x ≠ '\n' := fun e => h2 (e ▸ hx)
    simp [*]) (by decide)
  unfold monoAt
  rw [ht.2, ht.1]
  rfl

theorem monoLast_shape {word : Char → Bool} : ∀ (n : Nat) (s : Str) (prev : Option Char) (last : Option Str) (g : Str), s.length ≤ n →
    monoLast word prev last s = some g → last = some g ∨ (':' ∉ g ∧ '\n' ∉ g)
  | 0, [], _, _, _, _, h => by rw [monoLast] at h; exact .inl h
  | n + 1, [], _, _, _, _, h => by rw [monoLast] at h; exact .inl h
  | n + 1, c :: s, prev, last, g, hn, h => by
    rw [monoLast] at h
    simp only [List.length_cons] at hn
    split at h
    · split at h
      · next g' r' e =>
        have hs := monoAt_spec e
        have hl := monoAt_shorter e
        have : ((c :: s).drop monoHead.length).length ≤ s.length + 1 := by simp
        rcases monoLast_shape n r' _ _ g (by omega) h with h | h
        · cases h; exact .inr hs.2
        · exact .inr h
      · exact monoLast_shape n s _ _ g (by omega) h
    · exact monoLast_shape n s _ _ g (by omega) h

theorem isPrefixOf_append_iff (p s : Str) : p.isPrefixOf s = true ↔ ∃ r, s = p ++ r := prefix_split p s

theorem monoLast_none {word : Char → Bool} (s : Str) (h : contains monoHead s = false) (prev : Option Char) (last : Option Str) :
    monoLast word prev last s = last := by
  induction s generalizing prev with
  | nil => rw [monoLast]
  | cons c s ih =>
    simp only [contains, Bool.or_eq_false_iff] at h
    rw [monoLast, if_neg (by simp [h.1])]
    exact ih h.2 _

theorem monoLast_through {word : Char → Bool} (s : Str) : ∀ (n : Nat) (a : Str) (prev : Option Char) (last : Option Str), a.length ≤ n →
    ∃ last', monoLast word prev last (a ++ '\n' :: s) = monoLast word (some '\n') last' s
  | n, [], prev, last, _ => by
    refine ⟨last, ?_⟩
    rw [List.nil_append, monoLast, if_neg]
    intro h
    rw [Bool.and_eq_true] at h
    obtain ⟨r, hr⟩ := (prefix_split _ _).1 h.2
    rw [show monoHead = 'F' :: "ATAL UNHANDLED EXCEPTION: ".toList from rfl] at hr
    simp at hr
  | n + 1, c :: a, prev, last, hn => by
    simp only [List.length_cons] at hn
    rw [List.cons_append, monoLast]
    split
    · next hp =>
      rw [Bool.and_eq_true] at hp
      obtain ⟨r, hr⟩ := (prefix_split _ _).1 hp.2
      split
      · next g r' e =>
        have hs := monoAt_spec e
        rw [hr, List.drop_left] at hs
        -- the match lies before the newline
        have hall : (c :: a) ++ '\n' :: s = (monoHead ++ g ++ [':']) ++ r' := by
          rw [List.cons_append, hr, hs.1]; simp
        have hno : '\n' ∉ monoHead ++ g ++ [':'] := by
          simp only [List.mem_append, not_or]
          exact ⟨⟨by decide, hs.2.2⟩, by decide⟩
        have hlen : (monoHead ++ g ++ [':']).length ≤ (c :: a).length := by
          apply Nat.le_of_not_lt
          intro hlt
          apply hno
          have := congrArg (·[(c :: a).length]?) hall
          rw [List.getElem?_append_right (Nat.le_refl _), List.getElem?_append_left hlt] at this
          simp only [Nat.sub_self, List.getElem?_cons_zero] at this
          exact List.mem_of_getElem? this.symm
        obtain ⟨d, hd⟩ : ∃ d, c :: a = (monoHead ++ g ++ [':']) ++ d := by
          refine ⟨(c :: a).drop (monoHead ++ g ++ [':']).length, ?_⟩
          have := congrArg (List.take (monoHead ++ g ++ [':']).length) hall
          rw [List.take_append_of_le_length hlen, List.take_left] at this
          conv => lhs; rw [← List.take_append_drop (monoHead ++ g ++ [':']).length (c :: a), this]
        have hr' : r' = d ++ '\n' :: s := by
          rw [hd, List.append_assoc] at hall
          exact (List.append_cancel_left hall).symm
        subst hr'
        have hd' := congrArg List.length hd
        simp only [List.length_cons, List.length_append] at hd'
        exact monoLast_through s n d _ _ (by omega)
      · exact monoLast_through s n a _ _ (by omega)
    · exact monoLast_through s n a _ _ (by omega)

theorem monoLast_line {word : Char → Bool} (g post : Str) (hg : ':' ∉ g ∧ '\n' ∉ g) : ∀ (q : Str), ':' ∉ q → ∀ (prev last),
    (q = [] → prev.any word = false) → (∀ c, q.getLast? = some c → word c = false) →
    monoLast word prev last (q ++ monoHead ++ g ++ ':' :: post) = monoLast word (some ':') (some g) post
  | [], _, prev, last, hb, _ => by
    have hb := hb rfl
    simp only [List.nil_append]
    have hp : monoHead.isPrefixOf (monoHead ++ g ++ ':' :: post) = true := (prefix_split _ _).2 ⟨g ++ ':' :: post, by simp⟩
    have he : monoAt ((monoHead ++ g ++ ':' :: post).drop monoHead.length) = some (g, post) := by
      rw [List.append_assoc, List.drop_left]; exact monoAt_of hg.1 hg.2
    have hsplit : monoHead ++ g ++ ':' :: post = 'F' :: ("ATAL UNHANDLED EXCEPTION: ".toList ++ g ++ ':' :: post) := rfl
    rw [hsplit] at hp he ⊢
    rw [monoLast, if_pos (by rw [hb, hp]; rfl)]
    split
    · next g' r' e => rw [he] at e; cases e; rfl
    · next e => rw [he] at e; cases e
  | c :: q, hq, prev, last, _, hb => by
    have hcq : c ≠ ':' ∧ ':' ∉ q := ⟨fun e => hq (e ▸ .head _), fun h => hq (.tail _ h)⟩
    have hnp : monoHead.isPrefixOf (c :: (q ++ monoHead ++ g ++ ':' :: post)) = false := by
      rw [Bool.eq_false_iff]
      intro h
      obtain ⟨r, hr⟩ := (prefix_split _ _).1 h
      -- the colon of the head would come too early
      have hlen : monoHead.length = 27 := rfl
      have h1 := congrArg (·[25]?) hr
      have h25 : (monoHead ++ r)[25]? = some ':' := by
        rw [List.getElem?_append_left (by rw [hlen]; omega)]; rfl
      simp only [h25] at h1
      have hcons : c :: (q ++ monoHead ++ g ++ ':' :: post) = (c :: q) ++ (monoHead ++ (g ++ ':' :: post)) := by simp
      rw [hcons] at h1
      by_cases hlt : 25 < (c :: q).length
      · rw [List.getElem?_append_left hlt] at h1
        exact hq (List.mem_of_getElem? h1)
      · rw [List.getElem?_append_right (Nat.le_of_not_lt hlt), List.getElem?_append_left (by rw [hlen]; simp only [List.length_cons] at hlt ⊢; omega)] at h1
        have hk : 25 - (c :: q).length < 25 := by simp only [List.length_cons]; omega
        revert h1
        generalize 25 - (c :: q).length = k at hk
        intro h1
        have : ∀ k < 25, monoHead[k]? ≠ some ':' := by decide
        exact this k hk h1
    rw [List.cons_append, List.cons_append, List.cons_append, monoLast, if_neg (by rw [hnp, Bool.and_false]; exact Bool.false_ne_true)]
    apply monoLast_line g post hg q hcq.2
    · rintro rfl
      simpa using hb c rfl
    · intro d hd
      cases q with
      | nil => exact nomatch hd
      | cons e q => exact hb d (by rw [List.getLast?_cons_cons]; exact hd)

/-- C69.  What a .NET program makes the judge show is one line without a colon. -/
theorem C69_mono_shape (strsignal : Nat → Str) (hs : ∀ n, '\n' ∉ strsignal n ∧ ':' ∉ strsignal n) (word : Char → Bool)
    (err : Str) (p : Proc) (hf : p.fault = none) (f : Str)
    (h : feedback strsignal (parseMono word) err p = some f) : '\n' ∉ f ∧ ':' ∉ f := by
  have hp : ∀ x, parseMono word err p = some x → '\n' ∉ x ∧ ':' ∉ x := by
    intro x hx
    unfold parseMono at hx
    split at hx
    · cases hx; simp
    · next g hg =>
      cases hx
      rcases monoLast_shape _ err none none _ (Nat.le_refl _) hg with h | h
      · exact nomatch h
      · exact ⟨h.2, h.1⟩
  unfold feedback at h
  rw [hf] at h
  dsimp only at h
  split at h
  · exact nomatch h
  · next x hx =>
    have hx' : '\n' ∉ x ∧ ':' ∉ x := by
      split at hx
      · exact hp x hx
      · cases hx; simp
    have h := Option.some.inj h
    split at h
    · split at h
      · subst h; decide
      · split at h
        · subst h; exact hs _
        · subst h; exact hx'
    · subst h; exact hx'

/-- C69.  The exception named last by the runtime is shown: on a line of its own after anything else, `lead` before the words (`[ERROR] `),
`g` the name of the exception, and nothing after it that names another. The name may be of any length. -/
theorem C69_mono (strsignal : Nat → Str) (word : Char → Bool) (p : Proc) (hf : p.fault = none) (hir : p.ir = true ∨ p.rte = true)
    (hl : p.tle = false ∧ p.mle = false ∧ p.ole = false) (before lead g after : Str) (hb : before = [] ∨ ∃ a, before = a ++ ['\n'])
    (hlead : ':' ∉ lead ∧ ∀ c, lead.getLast? = some c → word c = false) (hw : word '\n' = false)
    (hg : g ≠ [] ∧ ':' ∉ g ∧ '\n' ∉ g) (ha : ¬ ∃ x y, after = x ++ "FATAL UNHANDLED EXCEPTION: ".toList ++ y) :
    feedback strsignal (parseMono word) (before ++ lead ++ "FATAL UNHANDLED EXCEPTION: ".toList ++ g ++ ":".toList ++ after) p = some g := by
  have hc : contains monoHead after = false := by
    rw [Bool.eq_false_iff]
    intro h
    apply ha
    clear ha
    induction after with
    | nil => exact absurd h (by decide)
    | cons c s ih =>
      simp only [contains, Bool.or_eq_true] at h
      rcases h with h | h
      · obtain ⟨r, hr⟩ := (prefix_split _ _).1 h
        exact ⟨[], r, hr⟩
      · obtain ⟨x, y, e⟩ := ih h
        exact ⟨c :: x, y, by rw [e]; rfl⟩
  have hline : ∀ prev last, (prev = none ∨ prev = some '\n') →
      monoLast word prev last (lead ++ monoHead ++ g ++ ':' :: after) = some g := by
    intro prev last hp
    rw [monoLast_line g after hg.2 lead hlead.1 prev last (fun _ => by
      rcases hp with rfl | rfl
      · rfl
      · simpa using hw) hlead.2, monoLast_none after hc]
  have hx : parseMono word (before ++ lead ++ monoHead ++ g ++ ":".toList ++ after) p = some g := by
    unfold parseMono
    have : monoLast word none none (before ++ lead ++ monoHead ++ g ++ ":".toList ++ after) = some g := by
      rcases hb with rfl | ⟨a, rfl⟩
      · have := hline none none (.inl rfl)
        simpa using this
      · obtain ⟨last', e⟩ := monoLast_through (word := word) (lead ++ monoHead ++ g ++ ':' :: after) _ a none none (Nat.le_refl _)
        have := hline (some '\n') last' (.inr rfl)
        rw [← e] at this
        simpa using this
    rw [this]
  exact (C69_failed strsignal (parseMono word) _ p hf hir hl g hx).1 hg.1

/-! Examples: two C++ messages, a Python traceback after other output, a Java one. -/

namespace FbEx

def crashed : Proc := ⟨false, true, false, false, false, true, 6, none⟩
def failed : Proc := ⟨true, false, false, false, false, true, 0, none⟩
def sig (_ : Nat) : Str := "aborted".toList
def word (c : Char) : Bool := idStart c || ('0' ≤ c && c ≤ '9')

example : feedback sig (parseCpp 200) ("terminate called after throwing an instance of 'std::bad_alloc'\n".toList ++
    "terminate called after throwing an instance of 'std::out_of_range'\n  what():  vector".toList) crashed =
    some "std::out_of_range".toList := by decide +kernel
example : feedback sig (parseCpp 200) "hello".toList crashed = some "aborted".toList := by decide +kernel
example : feedback sig (parseCpp 200) [] { crashed with fault := some "sys_socket".toList } = some "socket syscall disallowed".toList := by
  decide +kernel
example : feedback sig (parseCpp 200) [] { crashed with tle := true } = some [] := by decide +kernel
example : parsePy 140 word
    "debug\nTraceback (most recent call last):\n  File \"a.py\", line 1, in <module>\n    x()\nNameError: name 'x' is not defined\n".toList
    failed = some "NameError".toList :=
  C69_python 140 word (by decide) failed ["debug".toList] ["  File \"a.py\", line 1, in <module>".toList, "    x()".toList] 'N'
    "ameError".toList " name 'x' is not defined".toList (by decide +kernel) (by
      intro l hl
      simp only [List.mem_cons, List.not_mem_nil, or_false] at hl
      rcases hl with rfl | rfl
      · exact ⟨by decide +kernel, _, rfl⟩
      · exact ⟨by decide +kernel, _, rfl⟩) (by simp) (by decide) (by decide +kernel) (by decide) (by decide +kernel) (by decide) _
    (by decide +kernel) (by decide)
example : feedback sig (parseJava none) "7257b50d-e37a-4664-b1a5-b1340b4206c0: java.lang.ArithmeticException: / by zero".toList failed =
    some "java.lang.ArithmeticException".toList := by decide +kernel
example : feedback sig (parseMono word) ("FATAL UNHANDLED EXCEPTION: A: b\n".toList ++ "[ERROR] ".toList ++
    "FATAL UNHANDLED EXCEPTION: ".toList ++ "System.DivideByZeroException".toList ++ ":".toList ++ " Attempted to divide by zero.".toList)
    failed = some "System.DivideByZeroException".toList :=
  C69_mono sig word failed rfl (.inl rfl) ⟨rfl, rfl, rfl⟩ _ _ _ _ (.inr ⟨"FATAL UNHANDLED EXCEPTION: A: b".toList, by decide +kernel⟩)
    ⟨by decide +kernel, by intro c h; cases h; decide +kernel⟩ (by decide +kernel) (by decide +kernel) (by
      rintro ⟨x, y, e⟩
      have hm : ':' ∈ " Attempted to divide by zero.".toList := by rw [e]; simp
      exact absurd hm (by decide +kernel))

end FbEx

end Verif.Props
