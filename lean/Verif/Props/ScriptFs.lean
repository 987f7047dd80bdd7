import Verif.Model.ScriptFs
import Verif.Spec.ScriptFs
import Verif.Props.HelperFs
import Verif.Props.Path
import Verif.Model.CmdLine
import Verif.Model.Policy
import Mathlib.Data.List.Induction

/-!
# C112 Which files interpreted programs may read
-/

namespace Verif.ScriptFs
open Verif.Regex Verif.FsPatterns Verif.FsPatterns.Spec Verif.HelperFs Verif.HelperFs.Spec Verif.ScriptFs.Spec

variable (u : Chars)

/-! ## Texts with dots as patterns -/

private def dot (c : Char) : Re := if c = '.' then .any else .chr c

private theorem plain_dotted (s : State) (c : Char) (h : c = '.' ∨ c ∉ meaningful) : plainStep s c = some (s.add (dot c)) := by
  rcases h with rfl | h
  · rfl
  · have : c ≠ '.' := fun e => h (e ▸ by decide)
    unfold dot
    rw [if_neg this]
    unfold plainStep
    split
    all_goals first | rfl | exact absurd (by decide) h

/-- Text with dots, read into a state. -/
private def dots (s : State) (w : Regex.Str) : State := { s with top := { s.top with cur := s.top.cur ++ w.map dot } }

private theorem dotted_fold (w : Regex.Str) : ∀ s : State, s.mode = .plain → Dotted w → w.foldlM step s = some (dots s w) := by
  induction w with
  | nil => intro s _ _; simp [dots]
  | cons c w ih =>
    intro s hs ho
    have e1 : step s c = some (s.add (dot c)) := by unfold step; rw [hs]; exact plain_dotted s c (ho c (by simp))
    rw [List.foldlM_cons, e1]
    show w.foldlM step (s.add (dot c)) = _
    rw [ih _ rfl (fun d hd => ho d (by simp [hd]))]
    obtain ⟨m, top, rest⟩ := s
    cases hs
    simp [dots, State.add, Frame.add]

private theorem parse_dotted (w : Regex.Str) (h : Dotted w) : parse w = some (seqs (w.map dot)) := by
  unfold parse
  rw [dotted_fold w {} rfl h]
  simp [dots, State.done, Frame.re, altsOf]

private theorem M_dots (w : Regex.Str) : ∀ s, (∃ t, M u (seqs (w.map dot)) s t) ↔ Shape w s := by
  induction w with
  | nil => intro s; exact ⟨fun _ => trivial, fun _ => ⟨s, rfl⟩⟩
  | cons c w ih =>
    intro s
    cases s with
    | nil =>
      refine ⟨?_, fun h => h.elim⟩
      rintro ⟨t, m, h, -⟩
      unfold dot at h
      split_ifs at h
      · obtain ⟨d, -, hd⟩ := h; cases hd
      · cases h
    | cons d s =>
      show _ ↔ (c = d ∨ (c = '.' ∧ d ≠ '\n')) ∧ Shape w s
      rw [← ih s]
      constructor
      · rintro ⟨t, m, h, hm⟩
        unfold dot at h
        split_ifs at h with hc
        · obtain ⟨e, he, hd⟩ := h
          cases hd
          exact ⟨.inr ⟨hc, he⟩, t, hm⟩
        · cases h
          exact ⟨.inl rfl, t, hm⟩
      · rintro ⟨h, t, hm⟩
        refine ⟨t, s, ?_, hm⟩
        unfold dot
        split_ifs with hc
        · refine ⟨d, ?_, rfl⟩
          rcases h with rfl | h
          · rw [hc]; decide
          · exact h.2
        · rcases h with rfl | h
          · rfl
          · exact absurd h.1 hc

private theorem dotted_braceless {w : Regex.Str} (h : Dotted w) : ∀ c ∈ w, c ≠ '{' ∧ c ≠ '}' := by
  intro c hc
  rcases h c hc with rfl | h
  · decide
  · constructor <;> rintro rfl <;> exact h (by decide)

private theorem part_dotted (pid : Nat) (w : Regex.Str) (h : Dotted w) (path : Regex.Str) :
    (∃ t, format pid w = some t ∧ (parse t).isSome = true) ∧ (PartAccepts u pid (some w) path ↔ Shape w path) := by
  have hf : format pid w = some w := format_plain pid w (dotted_braceless h)
  refine ⟨⟨_, hf, by rw [parse_dotted w h]; rfl⟩, ?_⟩
  rw [← M_dots u w path]
  constructor
  · rintro ⟨p, t, r, hp, ht, hr, hm⟩
    cases hp
    rw [hf] at ht
    cases ht
    rw [parse_dotted w h] at hr
    cases hr
    exact hm
  · intro hm
    exact ⟨_, _, _, rfl, hf, parse_dotted w h, hm⟩

/-! ## A place and nothing below it -/

private theorem parse_only (w : Regex.Str) : parse (escape w ++ ['$']) = some (seqs (w.map .chr ++ [.eos])) := by
  unfold parse
  rw [List.foldlM_append, escape_fold w {} rfl]
  simp [State.lits, State.done, Frame.re, altsOf, step, plainStep, State.add, Frame.add]

private theorem M_only (w : Regex.Str) (s : Regex.Str) : (∃ t, M u (seqs (w.map .chr ++ [.eos])) s t) ↔ Only w s := by
  simp only [M_seqs_append, M_lits]
  constructor
  · rintro ⟨t, x, rfl, m, ⟨rfl, h⟩, -⟩
    rcases h with rfl | rfl
    · exact .inl (by simp)
    · exact .inr rfl
  · rintro (h | h)
    · exact ⟨[], [], by simpa using h, [], ⟨rfl, .inl rfl⟩, rfl⟩
    · exact ⟨['\n'], ['\n'], h, ['\n'], ⟨rfl, .inr rfl⟩, rfl⟩

private theorem part_only (pid : Nat) (w : Regex.Str) (h : Braceless w) (path : Regex.Str) :
    (∃ t, format pid (escape w ++ ['$']) = some t ∧ (parse t).isSome = true) ∧
    (PartAccepts u pid (some (escape w ++ ['$'])) path ↔ Only w path) := by
  have hf : format pid (escape w ++ ['$']) = some (escape w ++ ['$']) := by
    apply format_plain
    intro c hc
    rcases List.mem_append.1 hc with hc | hc
    · rcases mem_escape w c hc with rfl | hc
      · decide
      · exact h c hc
    · rw [List.mem_singleton.1 hc]; decide
  refine ⟨⟨_, hf, by rw [parse_only w]; rfl⟩, ?_⟩
  rw [← M_only u w path]
  constructor
  · rintro ⟨p, t, r, hp, ht, hr, hm⟩
    cases hp
    rw [hf] at ht
    cases ht
    rw [parse_only w] at hr
    cases hr
    exact hm
  · intro hm
    exact ⟨_, _, _, rfl, hf, parse_only w, hm⟩

/-! ## The directories above -/

private theorem joinSlash_append (l : List Path.Str) (c : Path.Str) (h : l ≠ []) :
    Path.joinSlash (l ++ [c]) = Path.joinSlash l ++ '/' :: c := by
  induction l with
  | nil => exact absurd rfl h
  | cons a l ih =>
    cases l with
    | nil => rfl
    | cons b l =>
      show a ++ '/' :: Path.joinSlash (b :: l ++ [c]) = a ++ '/' :: Path.joinSlash (b :: l) ++ '/' :: c
      rw [ih (by simp)]
      simp

private theorem joinSlash_split (s : Path.Str) : Path.joinSlash (Path.split s) = s := by
  induction s with
  | nil => rfl
  | cons c r ih =>
    unfold Path.split
    split_ifs with hc
    · have := Path.split_ne_nil r
      cases hr : Path.split r with
      | nil => exact absurd hr this
      | cons w ws =>
        show [] ++ '/' :: Path.joinSlash (w :: ws) = _
        rw [← hr, ih, hc]
        rfl
    · cases hr : Path.split r with
      | nil => exact absurd hr (Path.split_ne_nil r)
      | cons w ws =>
        show Path.joinSlash ((c :: w) :: ws) = _
        rw [hr] at ih
        rw [← ih]
        cases ws with
        | nil => rfl
        | cons => rfl

private theorem joinSlash_app (l m : List Path.Str) (hl : l ≠ []) (hm : m ≠ []) :
    Path.joinSlash (l ++ m) = Path.joinSlash l ++ '/' :: Path.joinSlash m := by
  induction l with
  | nil => exact absurd rfl hl
  | cons a l ih =>
    cases l with
    | nil =>
      cases m with
      | nil => exact absurd rfl hm
      | cons b m => rfl
    | cons b l =>
      show a ++ '/' :: Path.joinSlash (b :: l ++ m) = a ++ '/' :: Path.joinSlash (b :: l) ++ '/' :: _
      rw [ih (by simp)]
      simp

/-- What lies above, in components. -/
private theorem above_split (a home : Path.Str) : (∃ rest, home = a ++ '/' :: rest) ↔
    ∃ l m, l ≠ [] ∧ m ≠ [] ∧ Path.split home = l ++ m ∧ a = Path.joinSlash l := by
  constructor
  · rintro ⟨rest, rfl⟩
    exact ⟨_, _, Path.split_ne_nil a, Path.split_ne_nil rest, Path.split_append_slash a rest, (joinSlash_split a).symm⟩
  · rintro ⟨l, m, hl, hm, hs, rfl⟩
    refine ⟨Path.joinSlash m, ?_⟩
    rw [← joinSlash_app l m hl hm, ← hs, joinSlash_split]

private theorem joinSlash_nonempty (l : List Path.Str) (c : Path.Str) (hc : c ≠ []) : Path.joinSlash (l ++ [c]) ≠ [] := by
  cases l with
  | nil => exact hc
  | cons a l => rw [joinSlash_append _ _ (by simp)]; simp

private theorem mem_parents (l : List Path.Str) (h : ∀ a c b, l = a ++ c :: b → a ≠ [] → c ≠ []) (x : Path.Str) :
    x ∈ parents l.reverse ↔ ∃ k m, k ≠ [] ∧ l = k ++ m ∧ Path.joinSlash k ≠ [] ∧ x = escape (Path.joinSlash k) ++ ['$'] := by
  induction l using List.reverseRecOn with
  | nil =>
    simp only [List.reverse_nil, parents, List.not_mem_nil, false_iff]
    rintro ⟨k, m, hk, hl, -⟩
    cases k with
    | nil => exact hk rfl
    | cons => cases hl
  | append_singleton l c ih =>
    have ih := ih (fun a d b e ha => h a d (b ++ [c]) (by rw [e]; simp) ha)
    rw [List.reverse_append]
    show x ∈ parents (c :: l.reverse) ↔ _
    unfold parents
    have hrev : (c :: l.reverse).reverse = l ++ [c] := by simp
    rw [hrev]
    have hsplit : ∀ k m : List Path.Str, l ++ [c] = k ++ m → (k = l ++ [c]) ∨ ∃ m', l = k ++ m' := by
      intro k m e
      rcases List.eq_nil_or_concat m with rfl | ⟨m', d, rfl⟩
      · left; simpa using e.symm
      · right
        refine ⟨m', ?_⟩
        rw [List.concat_eq_append, ← List.append_assoc] at e
        exact (List.append_inj' e rfl).1
    split_ifs with hc
    · have hl : l = [] := by
        by_contra hl
        exact h l c [] rfl hl hc
      subst hl hc
      simp only [List.not_mem_nil, false_iff]
      rintro ⟨k, m, hk, e, hj, -⟩
      rcases hsplit k m e with rfl | ⟨m', e'⟩
      · exact hj rfl
      · cases k with
        | nil => exact hk rfl
        | cons => cases e'
    · rw [List.mem_cons, ih]
      constructor
      · rintro (rfl | ⟨k, m, hk, rfl, hj, rfl⟩)
        · exact ⟨l ++ [c], [], by simp, by simp, joinSlash_nonempty l c hc, rfl⟩
        · exact ⟨k, m ++ [c], hk, by simp, hj, rfl⟩
      · rintro ⟨k, m, hk, e, hj, rfl⟩
        rcases hsplit k m e with rfl | ⟨m', e'⟩
        · exact .inl rfl
        · exact .inr ⟨k, m', hk, e', hj, rfl⟩

private theorem inner_nonempty (home : Path.Str) (hd : ¬ Doubled home) (a : List Path.Str) (c : Path.Str) (b m : List Path.Str)
    (e : Path.split home = a ++ c :: b ++ m) (ha : a ≠ []) (hm : m ≠ []) : c ≠ [] := by
  rintro rfl
  refine hd ⟨Path.joinSlash a, Path.joinSlash (b ++ m), ?_⟩
  have e : Path.split home = a ++ ([] :: (b ++ m)) := by simpa using e
  have hbm : b ++ m ≠ [] := by simp [hm]
  rw [← joinSlash_split home, e, joinSlash_app a _ ha (by simp)]
  congr 2
  cases hx : b ++ m with
  | nil => exact absurd hx hbm
  | cons w ws => rfl

/-- The patterns for directories above. -/
private theorem parents_above (home : Path.Str) (hd : ¬ Doubled home) (x : Path.Str) :
    x ∈ parents (Path.split home).dropLast.reverse ↔ ∃ a, Above a home ∧ x = escape a ++ ['$'] := by
  obtain ⟨last, hlast⟩ : ∃ c, Path.split home = (Path.split home).dropLast ++ [c] :=
    ⟨_, (List.dropLast_concat_getLast (Path.split_ne_nil home)).symm⟩
  rw [mem_parents _ (fun a c b e ha => inner_nonempty home hd a c b [last] (by rw [hlast, e]) ha (by simp))]
  constructor
  · rintro ⟨k, m, hk, e, hj, rfl⟩
    refine ⟨Path.joinSlash k, ⟨hj, (above_split _ home).2 ⟨k, m ++ [last], hk, by simp, ?_, rfl⟩⟩, rfl⟩
    rw [hlast, e]; simp
  · rintro ⟨a, ⟨ha, h⟩, rfl⟩
    obtain ⟨l, m, hl, hm, hs, rfl⟩ := (above_split a home).1 h
    refine ⟨l, m.dropLast, hl, ?_, ha, rfl⟩
    rw [hs, List.dropLast_append_of_ne_nil hm]

/-! ## What is added -/

/-- The text of a part is a pattern, and what it lets pass is `Q`. -/
private def Part (pid : Nat) (x : Option Regex.Str) (Q : Regex.Str → Prop) : Prop :=
  (∃ p t, x = some p ∧ format pid p = some t ∧ (parse t).isSome = true) ∧ ∀ path, PartAccepts u pid x path ↔ Q path

private theorem Part.dotted (pid : Nat) {w : Regex.Str} (h : Dotted w) : Part u pid (some w) (Shape w) := by
  obtain ⟨t, h1, h2⟩ := (part_dotted u pid w h []).1
  exact ⟨⟨w, t, rfl, h1, h2⟩, fun path => (part_dotted u pid w h path).2⟩

private theorem Part.below (pid : Nat) {w : Regex.Str} (h : Braceless w) : Part u pid (some (escape w)) (w <+: ·) := by
  obtain ⟨t, h1, h2⟩ := (C64_dir u pid w h []).1
  exact ⟨⟨_, t, rfl, h1, h2⟩, fun path => (C64_dir u pid w h path).2⟩

private theorem Part.only (pid : Nat) {w : Regex.Str} (h : Braceless w) : Part u pid (some (escape w ++ ['$'])) (Only w) := by
  obtain ⟨t, h1, h2⟩ := (part_only u pid w h []).1
  exact ⟨⟨_, t, rfl, h1, h2⟩, fun path => (part_only u pid w h path).2⟩

private theorem above_braceless {a home : Path.Str} (hb : Braceless home) (h : Above a home) : Braceless a := by
  obtain ⟨-, rest, rfl⟩ := h
  exact fun c hc => hb c (List.mem_append_left _ hc)

private theorem shape_refl (w : Regex.Str) : Shape w w := by
  induction w with
  | nil => trivial
  | cons c w ih => exact ⟨.inl rfl, ih⟩

private theorem shape_append (w t : Regex.Str) : ∀ path, '.' ∉ w → Shape (w ++ t) path → ∃ p, path = w ++ p ∧ Shape t p := by
  induction w with
  | nil => intro path _ h; exact ⟨path, rfl, h⟩
  | cons c w ih =>
    intro path hw h
    cases path with
    | nil => exact h.elim
    | cons d path =>
      obtain ⟨h1, h2⟩ := h
      obtain ⟨p, rfl, hp⟩ := ih path (fun hc => hw (List.mem_cons_of_mem _ hc)) h2
      rcases h1 with rfl | h1
      · exact ⟨p, rfl, hp⟩
      · exact absurd (h1.1 ▸ List.mem_cons_self) hw

private theorem shape_prefix (w t path : Regex.Str) (h : Shape t path) : Shape (w ++ t) (w ++ path) := by
  induction w with
  | nil => exact h
  | cons c w ih => exact ⟨.inl rfl, ih⟩

/-- Which places an interpreted program reads: the common ones (C64), those of the executor's own and of the configured patterns, its source,
whatever begins like the home directory of the interpreter; in BASH what begins like a command, in RUBY2 the directories above the home
directory, in COFFEE what begins like the configured program. A dot in the name of the source, of a command or of the program stands for
any character. -/
theorem C112_reads (pid : Nat) (form : Form) (s : Setup) (dir code : Regex.Str) (own extra : List Regex.Str) (hdir : Braceless dir)
    (hcode : Dotted code) (hhome : ∀ h, s.home = some h → Braceless h ∧ (form = .ruby → ¬ Doubled h))
    (hcmds : form = .shell → ∀ x ∈ s.cmds, ∃ c, x = some c ∧ Dotted c) (hcoffee : form = .coffee → Dotted s.coffee)
    (hown : ∀ x ∈ own ++ extra, ∃ t, format pid x = some t ∧ (parse t).isSome = true) :
    ∃ k, jailRe pid (readParts own extra dir (more form s code)) = some k ∧ ∀ path, Accepts u k path ↔
      (∃ e ∈ readable pid dir, Covers e path) ∨ (∃ x ∈ own ++ extra, PartAccepts u pid (some x) path) ∨
      Shape code path ∨ (∃ h, s.home = some h ∧ h <+: path) ∨
      (form = .shell ∧ ∃ c, some c ∈ s.cmds ∧ Shape c path) ∨
      (form = .ruby ∧ ∃ h a, s.home = some h ∧ Above a h ∧ Only a path) ∨
      (form = .coffee ∧ Shape s.coffee path) := by
  -- every added part, and what it lets pass
  have parts : ∀ x ∈ more form s code, ∃ Q, Part u pid x Q ∧ ∀ path, Q path →
      Shape code path ∨ (∃ h, s.home = some h ∧ h <+: path) ∨ (form = .shell ∧ ∃ c, some c ∈ s.cmds ∧ Shape c path) ∨
      (form = .ruby ∧ ∃ h a, s.home = some h ∧ Above a h ∧ Only a path) ∨ (form = .coffee ∧ Shape s.coffee path) := by
    intro x hx
    unfold more at hx
    rcases List.mem_append.1 hx with hx | hx
    · unfold scriptMore at hx
      rcases List.mem_cons.1 hx with rfl | hx
      · exact ⟨_, Part.dotted u pid hcode, fun path h => .inl h⟩
      · cases hh : s.home with
        | none => rw [hh] at hx; cases hx
        | some h =>
          rw [hh] at hx
          rw [List.mem_singleton.1 hx]
          exact ⟨_, Part.below u pid (hhome h hh).1, fun path hp => .inr (.inl ⟨h, rfl, hp⟩)⟩
    · cases form with
      | plain => cases hx
      | shell =>
        obtain ⟨c, rfl, hc⟩ := hcmds rfl x hx
        exact ⟨_, Part.dotted u pid hc, fun path h => .inr (.inr (.inl ⟨rfl, c, hx, h⟩))⟩
      | ruby =>
        cases hh : s.home with
        | none => simp only [hh, rubyMore] at hx; cases hx
        | some h =>
          simp only [hh, rubyMore] at hx
          rcases List.mem_cons.1 hx with rfl | hx
          · exact ⟨_, Part.below u pid (hhome h hh).1, fun path hp => .inr (.inl ⟨h, rfl, hp⟩)⟩
          · obtain ⟨y, hy, rfl⟩ := List.mem_map.1 hx
            obtain ⟨a, ha, rfl⟩ := (parents_above h ((hhome h hh).2 rfl) y).1 hy
            exact ⟨_, Part.only u pid (above_braceless (hhome h hh).1 ha),
              fun path hp => .inr (.inr (.inr (.inl ⟨rfl, h, a, rfl, ha, hp⟩)))⟩
      | coffee =>
        simp only [List.mem_cons, List.not_mem_nil, or_false] at hx
        rcases hx with rfl | rfl
        · exact ⟨_, Part.dotted u pid (hcoffee rfl), fun path h => .inr (.inr (.inr (.inr ⟨rfl, h⟩)))⟩
        · exact ⟨_, Part.dotted u pid hcode, fun path h => .inl h⟩
  obtain ⟨k, hk, hacc⟩ := C64_read u pid dir hdir own extra (more form s code) (by
    intro x hx
    rcases List.mem_append.1 hx with hx | hx
    · rw [← List.map_append] at hx
      obtain ⟨p, hp, rfl⟩ := List.mem_map.1 hx
      obtain ⟨t, h1, h2⟩ := hown p hp
      exact ⟨p, t, rfl, h1, h2⟩
    · obtain ⟨Q, hQ, -⟩ := parts x hx
      exact hQ.1)
  refine ⟨k, hk, fun path => ?_⟩
  rw [hacc path]
  refine or_congr_right ?_
  constructor
  · rintro ⟨x, hx, hp⟩
    rcases List.mem_append.1 hx with hx | hx
    · rw [← List.map_append] at hx
      obtain ⟨p, hpm, rfl⟩ := List.mem_map.1 hx
      exact .inl ⟨p, hpm, hp⟩
    · obtain ⟨Q, hQ, hQ'⟩ := parts x hx
      exact .inr (hQ' path ((hQ.2 path).1 hp))
  · have hin : ∀ x, x ∈ more form s code → x ∈ List.map some own ++ List.map some extra ++ more form s code :=
      fun x hx => List.mem_append_right _ hx
    rintro (⟨p, hp, ha⟩ | h | ⟨h, hh, hp⟩ | ⟨rfl, c, hc, hs⟩ | ⟨rfl, h, a, hh, ha, hp⟩ | ⟨rfl, hs⟩)
    · exact ⟨some p, List.mem_append_left _ (by rw [← List.map_append]; exact List.mem_map.2 ⟨p, hp, rfl⟩), ha⟩
    · exact ⟨some code, hin _ (by simp [more, scriptMore]), ((Part.dotted u pid hcode).2 path).2 h⟩
    · exact ⟨some (escape h), hin _ (by simp [more, scriptMore, hh]), ((Part.below u pid (hhome h hh).1).2 path).2 hp⟩
    · obtain ⟨c', e, hc'⟩ := hcmds rfl _ hc
      cases e
      exact ⟨some c, hin _ (by simp [more, hc]), ((Part.dotted u pid hc').2 path).2 hs⟩
    · have hm := (parents_above h ((hhome h hh).2 rfl) _).2 ⟨a, ha, rfl⟩
      exact ⟨some (escape a ++ ['$']), hin _ (by simp [more, hh, rubyMore, hm]),
        ((Part.only u pid (above_braceless (hhome h hh).1 ha)).2 path).2 hp⟩
    · exact ⟨some s.coffee, hin _ (by simp [more]), ((Part.dotted u pid (hcoffee rfl)).2 path).2 hs⟩

example : Braceless "/srv/tmpabcdefgh".toList ∧ Dotted "/srv/tmpabcdefgh/aplusb.rb".toList ∧ Braceless "/srv/ruby-2.7".toList ∧
    Above "/srv".toList "/srv/ruby-2.7".toList ∧ ¬ Doubled "/srv/ruby".toList ∧
    (∀ x ∈ ["/proc/self/loginuid$".toList] ++ [], ∃ t, format 7 x = some t ∧ (parse t).isSome = true) := by
  refine ⟨by decide +kernel, by decide +kernel, by decide +kernel, ⟨by decide +kernel, "ruby-2.7".toList, by decide +kernel⟩, ?_, ?_⟩
  · rintro ⟨a, b, h⟩
    have h2 : ['/', '/'] <:+: "/srv/ruby".toList := ⟨a, b, by rw [h, List.append_assoc]; rfl⟩
    exact absurd h2 (by decide +kernel)
  · intro x hx
    simp only [List.append_nil, List.mem_singleton] at hx
    subst hx
    exact ⟨_, rfl, by decide +kernel⟩

/-- The file of the source. -/
private theorem code_eq (dir problem ext : Regex.Str) (hd : dir ≠ [] ∧ dir.getLast? ≠ some '/') (hp : problem.head? ≠ some '/') :
    codeFile dir problem ext = dir ++ '/' :: (problem ++ '.' :: ext) := by
  unfold codeFile Path.join
  have h : ¬ (dir = [] ∨ dir.getLast? = some '/') := by rintro (h | h); exacts [hd.1 h, hd.2 h]
  cases problem with
  | nil =>
    simp only [List.nil_append]
    exact if_neg h
  | cons c p =>
    simp only [List.cons_append]
    split
    · rename_i heq
      cases heq
      exact absurd rfl hp
    · exact if_neg h

private theorem ordinary_dotted {w : Regex.Str} (h : Ordinary w) : Dotted w := fun c hc => .inr (h c hc)

private theorem ordinary_nodot {w : Regex.Str} (h : Ordinary w) : '.' ∉ w := fun hc => h _ hc (by decide)

/-- C112.  These are the languages whose programs are not compiled and given to an interpreter as the file they were written to, with the same extension. -/
theorem C112_scripts (name ext : String) :
    (∃ f, (name, ext, f) ∈ scripts) ↔ ∃ r ∈ CmdLine.table, r.lang = name ∧ r.ext = ext ∧ r.compile = [] ∧ CmdLine.code ∈ r.argv := by
  have h : (CmdLine.table.filter fun r => decide (r.compile = []) && decide (CmdLine.code ∈ r.argv)).map (fun r => (r.lang, r.ext))
      = scripts.map fun e => (e.1, e.2.1) := by decide +kernel
  have e : (∃ f, (name, ext, f) ∈ scripts) ↔ (name, ext) ∈ scripts.map fun e => (e.1, e.2.1) := by
    simp only [List.mem_map, Prod.exists, Prod.mk.injEq]
    constructor
    · rintro ⟨f, hf⟩; exact ⟨name, ext, f, hf, rfl, rfl⟩
    · rintro ⟨_, _, f, hf, rfl, rfl⟩; exact ⟨f, hf⟩
  rw [e, ← h]
  simp only [List.mem_map, List.mem_filter, Bool.and_eq_true, decide_eq_true_eq, Prod.mk.injEq]
  constructor
  · rintro ⟨r, ⟨hr, hc, ha⟩, hn, hx⟩; exact ⟨r, hr, hn, hx, hc, ha⟩
  · rintro ⟨r, hr, hn, hx, hc, ha⟩; exact ⟨r, ⟨hr, hc, ha⟩, hn, hx⟩

/-- C112.  Of these, those may read the files of commands that may start them. -/
theorem C112_shell (commands : List Path.Str) (name ext : String) (f : Form) (p : List (String × Policy.Handler)) (hf : (name, ext, f) ∈ scripts)
    (hp : (name, p) ∈ Policy.executors commands) : f = .shell ↔ ("execve", .exec commands) ∈ p := by
  simp only [scripts, List.mem_cons, Prod.mk.injEq, List.not_mem_nil, or_false] at hf
  simp only [Policy.executors, List.mem_cons, Prod.mk.injEq, List.not_mem_nil, or_false] at hp
  rcases hf with ⟨rfl, rfl, rfl⟩ | ⟨rfl, rfl, rfl⟩ | ⟨rfl, rfl, rfl⟩ | ⟨rfl, rfl, rfl⟩ | ⟨rfl, rfl, rfl⟩ | ⟨rfl, rfl, rfl⟩ | ⟨rfl, rfl, rfl⟩ |
    ⟨rfl, rfl, rfl⟩ | ⟨rfl, rfl, rfl⟩ | ⟨rfl, rfl, rfl⟩ | ⟨rfl, rfl, rfl⟩ | ⟨rfl, rfl, rfl⟩ | ⟨rfl, rfl, rfl⟩ | ⟨rfl, rfl, rfl⟩ <;>
  · simp at hp; subst hp; simp [Policy.ok]

/-- The only one. -/
example : ("BASH", "sh", Form.shell) ∈ scripts := by decide +kernel

/-- In every interpreted language, where the name of the directory has no character with a meaning (which includes dots) and the one of the
problem has none either, the pattern for the source adds nothing to the directory: the program reads the common places, what it is in
C112_reads and no more. -/
theorem C112_source (pid : Nat) (name ext : String) (form : Form) (hx : (name, ext, form) ∈ scripts) (s : Setup) (dir problem : Regex.Str)
    (own extra : List Regex.Str) (hdir : Ordinary dir) (hd : dir ≠ [] ∧ dir.getLast? ≠ some '/') (hp : Dotted problem)
    (hps : problem.head? ≠ some '/') (hhome : ∀ h, s.home = some h → Braceless h ∧ (form = .ruby → ¬ Doubled h))
    (hcmds : form = .shell → ∀ x ∈ s.cmds, ∃ c, x = some c ∧ Dotted c) (hcoffee : form = .coffee → Dotted s.coffee)
    (hown : ∀ x ∈ own ++ extra, ∃ t, format pid x = some t ∧ (parse t).isSome = true) :
    ∃ k, jailRe pid (readParts own extra dir (more form s (codeFile dir problem ext.toList))) = some k ∧
      Accepts u k (dir ++ '/' :: (problem ++ '.' :: ext.toList)) ∧ ∀ path, Accepts u k path ↔
      (∃ e ∈ readable pid dir, Covers e path) ∨ (∃ x ∈ own ++ extra, PartAccepts u pid (some x) path) ∨
      (∃ h, s.home = some h ∧ h <+: path) ∨
      (form = .shell ∧ ∃ c, some c ∈ s.cmds ∧ Shape c path) ∨
      (form = .ruby ∧ ∃ h a, s.home = some h ∧ Above a h ∧ Only a path) ∨
      (form = .coffee ∧ Shape s.coffee path) := by
  have hext : ∀ e ∈ scripts, Ordinary e.2.1.toList := by decide +kernel
  have hcode : codeFile dir problem ext.toList = dir ++ '/' :: (problem ++ '.' :: ext.toList) := code_eq dir problem _ hd hps
  have hdot : Dotted (codeFile dir problem ext.toList) := by
    rw [hcode]
    intro c hc
    rcases List.mem_append.1 hc with hc | hc
    · exact ordinary_dotted hdir c hc
    · rcases List.mem_cons.1 hc with rfl | hc
      · exact .inr (by decide)
      · rcases List.mem_append.1 hc with hc | hc
        · exact hp c hc
        · rcases List.mem_cons.1 hc with rfl | hc
          · exact .inl rfl
          · exact ordinary_dotted (hext _ hx) c hc
  have hbr : Braceless dir := dotted_braceless (ordinary_dotted hdir)
  obtain ⟨k, hk, hacc⟩ := C112_reads u pid form s dir _ own extra hbr hdot hhome hcmds hcoffee hown
  have hmem : (dir, Tail.anything) ∈ readable pid dir := by simp [readable]
  refine ⟨k, hk, (hacc _).2 (.inr (.inr (.inl (by rw [hcode]; exact shape_refl _)))), fun path => ?_⟩
  rw [hacc path]
  constructor
  · rintro (h | h | h | h)
    · exact .inl h
    · exact .inr (.inl h)
    · rw [hcode] at h
      obtain ⟨p, rfl, -⟩ := shape_append dir _ path (ordinary_nodot hdir) h
      exact .inl ⟨_, hmem, ⟨p, rfl⟩⟩
    · exact .inr (.inr h)
  · rintro (h | h | h)
    · exact .inl h
    · exact .inr (.inl h)
    · exact .inr (.inr (.inr h))

example : ("PERL", "pl", Form.plain) ∈ scripts ∧ Ordinary "/tmp/tmpab12_xyz".toList ∧ Dotted "ioi2020p1.v2".toList := by decide +kernel

/-- But a dot in the name of the directory, as in `/srv/dmoj.d`, stands for any character: the program also reads a file of the same name in
another directory. -/
theorem C112_dot_fails (pid : Nat) (form : Form) (s : Setup) (a b problem ext : Regex.Str) (d : Char) (hd : d ≠ '.' ∧ d ≠ '\n')
    (ha : Ordinary a) (hb : Ordinary b) (hl : (a ++ '.' :: b).getLast? ≠ some '/') (hp : Ordinary problem) (hps : problem.head? ≠ some '/')
    (he : Ordinary ext) (hhome : ∀ h, s.home = some h → Braceless h ∧ (form = .ruby → ¬ Doubled h))
    (hcmds : form = .shell → ∀ x ∈ s.cmds, ∃ c, x = some c ∧ Dotted c) (hcoffee : form = .coffee → Dotted s.coffee) :
    ∃ k, jailRe pid (readParts [] [] (a ++ '.' :: b) (more form s (codeFile (a ++ '.' :: b) problem ext))) = some k ∧
      Accepts u k (a ++ d :: b ++ '/' :: (problem ++ '.' :: ext)) ∧ ¬ a ++ ['.'] <+: a ++ d :: b ++ '/' :: (problem ++ '.' :: ext) := by
  have hdot : Dotted (a ++ '.' :: b) := by
    intro c hc
    rcases List.mem_append.1 hc with hc | hc
    · exact .inr (ha c hc)
    · rcases List.mem_cons.1 hc with rfl | hc
      · exact .inl rfl
      · exact .inr (hb c hc)
  have hcode : codeFile (a ++ '.' :: b) problem ext = (a ++ '.' :: b) ++ '/' :: (problem ++ '.' :: ext) :=
    code_eq _ problem ext ⟨by simp, hl⟩ hps
  have hdc : Dotted (codeFile (a ++ '.' :: b) problem ext) := by
    rw [hcode]
    intro c hc
    rcases List.mem_append.1 hc with hc | hc
    · exact hdot c hc
    · rcases List.mem_cons.1 hc with rfl | hc
      · exact .inr (by decide)
      · rcases List.mem_append.1 hc with hc | hc
        · exact .inr (hp c hc)
        · rcases List.mem_cons.1 hc with rfl | hc
          · exact .inl rfl
          · exact .inr (he c hc)
  obtain ⟨k, hk, hacc⟩ := C112_reads u pid form s _ _ [] [] (dotted_braceless hdot) hdc hhome hcmds hcoffee (fun x hx => by cases hx)
  refine ⟨k, hk, (hacc _).2 (.inr (.inr (.inl ?_))), ?_⟩
  · rw [hcode, List.append_assoc, List.append_assoc]
    exact shape_prefix a _ _ ⟨.inr ⟨rfl, hd.2⟩, shape_refl _⟩
  · rw [List.append_assoc, List.prefix_append_right_inj]
    rintro ⟨t, ht⟩
    simp only [List.cons_append, List.cons.injEq] at ht
    exact hd.1 ht.1.symm

/-- The home directory of an interpreter is not closed by a slash: everything whose path begins so is readable. -/
theorem C112_home_fails (pid : Nat) (form : Form) (s : Setup) (dir code home rest : Regex.Str) (hdir : Braceless dir) (hcode : Dotted code)
    (hs : s.home = some home) (hb : Braceless home) (hhome : form = .ruby → ¬ Doubled home)
    (hcmds : form = .shell → ∀ x ∈ s.cmds, ∃ c, x = some c ∧ Dotted c) (hcoffee : form = .coffee → Dotted s.coffee) :
    ∃ k, jailRe pid (readParts [] [] dir (more form s code)) = some k ∧ Accepts u k (home ++ "-private/".toList ++ rest) := by
  obtain ⟨k, hk, hacc⟩ := C112_reads u pid form s dir code [] [] hdir hcode
    (fun h e => by rw [hs] at e; cases e; exact ⟨hb, hhome⟩) hcmds hcoffee (fun x hx => by cases hx)
  exact ⟨k, hk, (hacc _).2 (.inr (.inr (.inr (.inl ⟨home, hs, ⟨_, (List.append_assoc ..).symm⟩⟩))))⟩

/-! ## Names that are no patterns -/

private theorem class_stays (q : Regex.Str) (hq : ']' ∉ q) : ∀ s : State, (∃ l, s.mode = .cls l ∨ s.mode = .clsEsc l) →
    ∀ t, q.foldlM step s = some t → ∃ l, t.mode = .cls l ∨ t.mode = .clsEsc l := by
  induction q with
  | nil => intro s hs t h; cases h; exact hs
  | cons c q ih =>
    intro s hs t h
    rw [List.foldlM_cons] at h
    cases hc : step s c with
    | none => rw [hc] at h; cases h
    | some s' =>
      rw [hc] at h
      refine ih (fun hm => hq (List.mem_cons_of_mem _ hm)) s' ?_ t h
      have hne : c ≠ ']' := fun e => hq (e ▸ List.mem_cons_self)
      obtain ⟨l, hs | hs⟩ := hs
      · unfold step at hc
        simp only [hs, if_neg hne] at hc
        by_cases h1 : 2 ≤ l.length ∧ l.getLast? = some (.one '-')
        · rw [if_pos h1] at hc; cases hc
        · rw [if_neg h1] at hc
          by_cases h2 : c = '\\'
          · rw [if_pos h2] at hc; cases hc; exact ⟨l, .inr rfl⟩
          · rw [if_neg h2] at hc
            by_cases h3 : c = '^' ∧ l = []
            · rw [if_pos h3] at hc; cases hc
            · rw [if_neg h3] at hc; cases hc; exact ⟨_, .inl rfl⟩
      · unfold step at hc
        simp only [hs] at hc
        by_cases h1 : c = 'd'
        · rw [if_pos h1] at hc; cases hc; exact ⟨_, .inl rfl⟩
        · rw [if_neg h1] at hc
          by_cases h2 : c = 'w'
          · rw [if_pos h2] at hc; cases hc; exact ⟨_, .inl rfl⟩
          · rw [if_neg h2] at hc; cases hc

private theorem join_last (l : List Regex.Str) (x : Regex.Str) (h : l ≠ []) : join (l ++ [x]) = join l ++ '|' :: x := by
  induction l with
  | nil => exact absurd rfl h
  | cons a l ih =>
    cases l with
    | nil => rfl
    | cons b l =>
      show a ++ '|' :: join (b :: l ++ [x]) = (a ++ '|' :: join (b :: l)) ++ '|' :: x
      rw [ih (by simp)]
      simp

private theorem mapM_last (l : List (Option Regex.Str)) (x : Option Regex.Str) (f : Option Regex.Str → Option Regex.Str) :
    (l ++ [x]).mapM f = (l.mapM f).bind fun ts => (f x).map fun t => ts ++ [t] := by
  induction l with
  | nil =>
    simp only [List.nil_append, List.mapM_cons, List.mapM_nil]
    cases f x <;> rfl
  | cons a l ih =>
    rw [List.cons_append, List.mapM_cons, ih, List.mapM_cons]
    cases f a with
    | none => rfl
    | some b =>
      cases hl : l.mapM f with
      | none => rfl
      | some ts => cases f x <;> rfl

private theorem mapM_ne (l : List (Option Regex.Str)) (f : Option Regex.Str → Option Regex.Str) (ts : List Regex.Str) (h : l.mapM f = some ts)
    (hl : l ≠ []) : ts ≠ [] := by
  rintro rfl
  cases l with
  | nil => exact hl rfl
  | cons a l =>
    rw [List.mapM_cons] at h
    cases ha : f a with
    | none => rw [ha] at h; cases h
    | some b =>
      rw [ha] at h
      cases hm : l.mapM f with
      | none => rw [hm] at h; cases h
      | some ts => rw [hm] at h; cases h

/-- A problem with a bracket in its name that is not closed: no run of a program in an interpreted language (without a home directory) gets as
far as the first file, for the pattern is none. -/
theorem C112_bracket_fails (pid : Nat) (dir a b ext : Regex.Str) (hdir : Ordinary dir) (hd : dir ≠ [] ∧ dir.getLast? ≠ some '/')
    (ha : Ordinary a) (has : a.head? ≠ some '/') (hb : Braceless (b ++ '.' :: ext)) (hc : ']' ∉ b ++ '.' :: ext) (cmds : List (Option Regex.Str))
    (coffee : Regex.Str) :
    jailRe pid (readParts [] [] dir (more .plain ⟨none, cmds, coffee⟩ (codeFile dir (a ++ '[' :: b) ext))) = none := by
  have hcode : codeFile dir (a ++ '[' :: b) ext = dir ++ '/' :: (a ++ '[' :: (b ++ '.' :: ext)) := by
    rw [code_eq dir _ ext hd]
    · simp
    · cases a with
      | nil => simp
      | cons c a => simpa using has
  have hbl : Braceless dir := dotted_braceless (ordinary_dotted hdir)
  obtain ⟨k, hk, -⟩ := C64_read ⟨fun _ => false, fun _ => false⟩ pid dir hbl [] [] [] (fun x hx => by cases hx)
  have hparts : readParts [] [] dir (more .plain ⟨none, cmds, coffee⟩ (codeFile dir (a ++ '[' :: b) ext)) =
      readParts [] [] dir [] ++ [some (codeFile dir (a ++ '[' :: b) ext)] := by
    simp [readParts, more, scriptMore]
  have hne : readParts [] [] dir [] ≠ [] := by simp [readParts]
  have hf : format pid (codeFile dir (a ++ '[' :: b) ext) = some (codeFile dir (a ++ '[' :: b) ext) := by
    apply format_plain
    rw [hcode]
    intro c hc
    rcases List.mem_append.1 hc with hc | hc
    · exact hbl c hc
    · rcases List.mem_cons.1 hc with rfl | hc
      · decide
      · rcases List.mem_append.1 hc with hc | hc
        · exact dotted_braceless (ordinary_dotted ha) c hc
        · rcases List.mem_cons.1 hc with rfl | hc
          · decide
          · exact hb c hc
  rw [hparts]
  unfold jailRe jailText at hk ⊢
  rw [if_neg hne] at hk
  rw [if_neg (by simp), mapM_last]
  cases hm : (readParts [] [] dir []).mapM (fun p : Option Regex.Str => p.bind (format pid)) with
  | none => rfl
  | some ts =>
    rw [hm] at hk
    simp only [Option.bind_some, hf, Option.map_some]
    rw [join_last ts _ (mapM_ne _ _ ts hm hne), hcode]
    change parse (join ts) = some k at hk
    obtain ⟨st, hst, hdone⟩ : ∃ st, (join ts).foldlM step {} = some st ∧ st.done = some k := by
      unfold parse at hk
      exact Option.bind_eq_some_iff.1 hk
    obtain ⟨hrest, hmode, -⟩ := done_some hdone
    obtain ⟨st', hst', hm'⟩ : ∃ st', step st '|' = some st' ∧ st'.mode = .plain := by
      unfold step
      rcases hmode with h | h
      · rw [h]; exact ⟨_, rfl, rfl⟩
      · rw [h]; exact ⟨_, rfl, rfl⟩
    have hdot : Dotted (dir ++ '/' :: a) := by
      intro c hc
      rcases List.mem_append.1 hc with hc | hc
      · exact .inr (hdir c hc)
      · rcases List.mem_cons.1 hc with rfl | hc
        · exact .inr (by decide)
        · exact .inr (ha c hc)
    have hfold := dotted_fold (dir ++ '/' :: a) st' hm' hdot
    have hopen : step (dots st' (dir ++ '/' :: a)) '[' = some { dots st' (dir ++ '/' :: a) with mode := .cls [] } := by
      unfold step
      have : (dots st' (dir ++ '/' :: a)).mode = .plain := hm'
      rw [this]
      rfl
    have htext : dir ++ '/' :: (a ++ '[' :: (b ++ '.' :: ext)) = (dir ++ '/' :: a) ++ '[' :: (b ++ '.' :: ext) := by simp
    unfold parse
    rw [List.foldlM_append, hst, htext]
    show (('|' :: ((dir ++ '/' :: a) ++ '[' :: (b ++ '.' :: ext))).foldlM step st).bind State.done = none
    rw [List.foldlM_cons, hst']
    show (((dir ++ '/' :: a) ++ '[' :: (b ++ '.' :: ext)).foldlM step st').bind State.done = none
    rw [List.foldlM_append, hfold]
    show (('[' :: (b ++ '.' :: ext)).foldlM step _).bind State.done = none
    rw [List.foldlM_cons, hopen]
    cases hend : (b ++ '.' :: ext).foldlM step { dots st' (dir ++ '/' :: a) with mode := .cls [] } with
    | none => show (List.foldlM step _ _).bind State.done = none; rw [hend]; rfl
    | some t =>
      obtain ⟨l, hl⟩ := class_stays _ hc _ ⟨[], .inl rfl⟩ t hend
      show (List.foldlM step _ _).bind State.done = none
      rw [hend]
      show t.done = none
      unfold State.done
      refine if_neg ?_
      rintro ⟨-, h⟩
      rcases hl with hl | hl <;> rw [hl] at h <;> rcases h with h | h <;> cases h

example : Ordinary "/tmp/tmpab12_xyz".toList ∧ Ordinary "seg".toList ∧ Braceless ("1,2)".toList ++ '.' :: "pl".toList) ∧
    ']' ∉ "1,2)".toList ++ '.' :: "pl".toList := by decide +kernel

/-- With two slashes in a row the directories above Ruby's home directory are forgotten. -/
theorem C112_double_fails (a c : Regex.Str) (hc : c ≠ [] ∧ '/' ∉ c) : rubyMore (some (a ++ '/' :: '/' :: c)) = [some (escape (a ++ '/' :: '/' :: c))] := by
  have : Path.split (a ++ '/' :: '/' :: c) = Path.split a ++ [[]] ++ [c] := by
    rw [Path.split_append_slash, ← Path.split_word c hc.2]
    have : Path.split ('/' :: c) = [] :: Path.split c := by
      conv_lhs => unfold Path.split
      exact if_pos rfl
    rw [this]
    simp
  show some (escape (a ++ '/' :: '/' :: c)) :: (parents (Path.split (a ++ '/' :: '/' :: c)).dropLast.reverse).map some = _
  rw [this, List.dropLast_concat, List.reverse_append]
  rfl

/-! ## Turing and Java -/

/-- Programs in Turing read the common places and what begins like their byte code, which is in their directory if its name has no dots. -/
theorem C112_turing (pid : Nat) (dir problem : Regex.Str) (hdir : Ordinary dir) (hd : dir ≠ [] ∧ dir.getLast? ≠ some '/') (hp : Dotted problem)
    (hps : problem.head? ≠ some '/') :
    ∃ k, jailRe pid (readParts [] [] dir (turingMore (codeFile dir problem "t".toList))) = some k ∧
      ∀ path, Accepts u k path ↔ ∃ e ∈ readable pid dir, Covers e path := by
  have hcode : codeFile dir problem "t".toList ++ "bc".toList = dir ++ ('/' :: (problem ++ '.' :: "tbc".toList)) := by
    rw [code_eq dir problem _ hd hps]
    simp
  have hdot : Dotted (codeFile dir problem "t".toList ++ "bc".toList) := by
    rw [hcode]
    intro c hc
    rcases List.mem_append.1 hc with hc | hc
    · exact .inr (hdir c hc)
    · rcases List.mem_cons.1 hc with rfl | hc
      · exact .inr (by decide)
      · rcases List.mem_append.1 hc with hc | hc
        · exact hp c hc
        · have : ∀ c ∈ '.' :: "tbc".toList, c = '.' ∨ c ∉ meaningful := by decide +kernel
          exact this c hc
  have hpart := Part.dotted u pid hdot
  obtain ⟨k, hk, hacc⟩ := C64_read u pid dir (dotted_braceless (ordinary_dotted hdir)) [] [] (turingMore (codeFile dir problem "t".toList)) (by
    intro x hx
    have hx : x ∈ turingMore (codeFile dir problem "t".toList) := by simpa using hx
    rw [List.mem_singleton.1 hx]
    exact hpart.1)
  refine ⟨k, hk, fun path => ?_⟩
  rw [hacc path]
  refine ⟨?_, .inl⟩
  rintro (h | ⟨x, hx, h⟩)
  · exact h
  · have hx : x ∈ turingMore (codeFile dir problem "t".toList) := by simpa using hx
    rw [List.mem_singleton.1 hx] at h
    have h := (hpart.2 path).1 h
    rw [hcode] at h
    obtain ⟨p, rfl, -⟩ := shape_append dir _ path (ordinary_nodot hdir) h
    exact ⟨(dir, .anything), by simp [readable], ⟨p, rfl⟩⟩

/-- Programs in Java read the common places and what begins like the agent. -/
theorem C112_java (pid : Nat) (dir agent : Regex.Str) (own extra : List Regex.Str) (hdir : Braceless dir) (ha : Dotted agent)
    (hown : ∀ x ∈ own ++ extra, ∃ t, format pid x = some t ∧ (parse t).isSome = true) :
    ∃ k, jailRe pid (readParts own extra dir (javaMore agent)) = some k ∧ ∀ path, Accepts u k path ↔
      (∃ e ∈ readable pid dir, Covers e path) ∨ (∃ x ∈ own ++ extra, PartAccepts u pid (some x) path) ∨ Shape agent path := by
  have hpart := Part.dotted u pid ha
  obtain ⟨k, hk, hacc⟩ := C64_read u pid dir hdir own extra (javaMore agent) (by
    intro x hx
    rcases List.mem_append.1 hx with hx | hx
    · rw [← List.map_append] at hx
      obtain ⟨p, hp, rfl⟩ := List.mem_map.1 hx
      obtain ⟨t, h1, h2⟩ := hown p hp
      exact ⟨p, t, rfl, h1, h2⟩
    · rw [List.mem_singleton.1 hx]; exact hpart.1)
  refine ⟨k, hk, fun path => ?_⟩
  rw [hacc path]
  refine or_congr_right ?_
  constructor
  · rintro ⟨x, hx, h⟩
    rcases List.mem_append.1 hx with hx | hx
    · rw [← List.map_append] at hx
      obtain ⟨p, hp, rfl⟩ := List.mem_map.1 hx
      exact .inl ⟨p, hp, h⟩
    · rw [List.mem_singleton.1 hx] at h
      exact .inr ((hpart.2 path).1 h)
  · rintro (⟨p, hp, h⟩ | h)
    · exact ⟨some p, List.mem_append_left _ (by rw [← List.map_append]; exact List.mem_map.2 ⟨p, hp, rfl⟩), h⟩
    · exact ⟨some agent, List.mem_append_right _ (by simp [javaMore]), (hpart.2 path).2 h⟩

/-- Where Java programs write: the three device files, and in their directory whatever is called `submission_jvm_crash?log…`. -/
theorem C112_crash (pid : Nat) (dir : Regex.Str) (hdir : Ordinary dir) (hd : dir ≠ [] ∧ dir.getLast? ≠ some '/') :
    ∃ k, jailRe pid (writeParts [crashLog dir]) = some k ∧ ∀ path, Accepts u k path ↔
      (∃ e ∈ writable, Covers e path) ∨
      ∃ c rest, c ≠ '\n' ∧ path = dir ++ "/submission_jvm_crash".toList ++ c :: "log".toList ++ rest := by
  have hlog : crashLog dir = dir ++ ("/submission_jvm_crash".toList ++ '.' :: "log".toList) := by
    have h : ¬ (dir = [] ∨ dir.getLast? = some '/') := by rintro (h | h); exacts [hd.1 h, hd.2 h]
    show Path.join dir ('s' :: "ubmission_jvm_crash.log".toList) = _
    exact if_neg h
  have hdot : Dotted (crashLog dir) := by
    rw [hlog]
    intro c hc
    rcases List.mem_append.1 hc with hc | hc
    · exact .inr (hdir c hc)
    · have : ∀ c ∈ "/submission_jvm_crash".toList ++ '.' :: "log".toList, c = '.' ∨ c ∉ meaningful := by decide +kernel
      exact this c hc
  have hpart := Part.dotted u pid hdot
  obtain ⟨k, hk, hacc⟩ := C64_write u pid [crashLog dir] (by
    intro p hp
    rw [List.mem_singleton.1 hp]
    exact (part_dotted u pid _ hdot []).1)
  refine ⟨k, hk, fun path => ?_⟩
  rw [hacc path]
  refine or_congr_right ?_
  simp only [List.mem_singleton, exists_eq_left]
  rw [hpart.2 path, hlog]
  constructor
  · intro h
    obtain ⟨p, rfl, hp⟩ := shape_append dir _ path (ordinary_nodot hdir) h
    obtain ⟨q, rfl, hq⟩ := shape_append "/submission_jvm_crash".toList _ p (by decide +kernel) hp
    cases q with
    | nil => exact hq.elim
    | cons c q =>
      obtain ⟨h1, h2⟩ := hq
      obtain ⟨r, rfl, -⟩ := shape_append "log".toList [] q (by decide +kernel) (by simpa using h2)
      refine ⟨c, r, ?_, by simp⟩
      rcases h1 with rfl | h1
      · decide
      · exact h1.2
  · rintro ⟨c, rest, hc, rfl⟩
    have h1 : Shape ("log".toList ++ []) ("log".toList ++ rest) := shape_prefix _ _ _ trivial
    have h2 : Shape ('.' :: "log".toList) (c :: ("log".toList ++ rest)) := ⟨.inr ⟨rfl, hc⟩, by simpa using h1⟩
    have h3 := shape_prefix dir _ _ (shape_prefix "/submission_jvm_crash".toList _ _ h2)
    simpa using h3

/-- So not only its log: a Java program may write files it has no need to. -/
theorem C112_crash_fails (pid : Nat) (dir rest : Regex.Str) (hdir : Ordinary dir) (hd : dir ≠ [] ∧ dir.getLast? ≠ some '/') :
    ∃ k, jailRe pid (writeParts [crashLog dir]) = some k ∧ Accepts u k (dir ++ "/submission_jvm_crash".toList ++ '.' :: "log".toList ++ rest) ∧
      Accepts u k (dir ++ "/submission_jvm_crash".toList ++ '/' :: "log".toList ++ rest) := by
  obtain ⟨k, hk, hacc⟩ := C112_crash u pid dir hdir hd
  exact ⟨k, hk, (hacc _).2 (.inr ⟨'.', rest, by decide, rfl⟩), (hacc _).2 (.inr ⟨'/', rest, by decide, rfl⟩)⟩

example : Ordinary "/tmp/tmpab12_xyz".toList ∧ Dotted "/usr/lib/python3/dist-packages/dmoj/executors/java_sandbox.jar".toList := by decide +kernel

end Verif.ScriptFs
