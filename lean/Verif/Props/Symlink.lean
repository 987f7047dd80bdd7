import Verif.Model.Symlink
import Verif.Props.Path

/-!
# C44 Symlinks stay inside the submission directory
-/

namespace Verif.Symlink
open Verif.Path

/-- Where a link is to be made: walking from the directory, or from the root for an absolute name. -/
def target (D : List Str) (src : Str) : List Str :=
  walk ((if src.head? = some '/' then [] else D) ++ components src)

/-- A directory name as it is given by `mkdtemp`: absolute and normalised. -/
def Clean (D : List Str) : Prop := D ≠ [] ∧ ∀ c ∈ D, '/' ∉ c ∧ c ≠ [] ∧ c ≠ ['.'] ∧ c ≠ ['.', '.']

/-- A position at or below `D`. -/
def Inside (D T : List Str) : Prop := D <+: T

/-- A position at or below a directory beside `D` whose name begins with the name of `D`. -/
def Beside (D T : List Str) : Prop :=
  ∃ up name more below, D = up ++ [name] ∧ more ≠ [] ∧ T = up ++ (name ++ more) :: below

theorem commonprefix_eq (p d : Str) : commonprefix p d = d ↔ d <+: p := by
  induction p generalizing d with
  | nil => cases d <;> simp [commonprefix]
  | cons a p ih =>
    cases d with
    | nil => simp [commonprefix]
    | cons b d =>
      unfold commonprefix
      by_cases h : a = b
      · subst h; simp [ih, List.cons_prefix_cons]
      · simp only [if_neg h]
        constructor
        · intro h'; exact nomatch h'
        · intro h'; exact absurd (List.cons_prefix_cons.1 h').1.symm h

private theorem flat_head (T : List Str) : (T.flatMap fun c => '/' :: c) = [] ∨
    ∃ r, (T.flatMap fun c => '/' :: c) = '/' :: r := by
  cases T with
  | nil => exact Or.inl rfl
  | cons t T => exact Or.inr ⟨t ++ T.flatMap fun c => '/' :: c, by simp⟩

private theorem word_prefix : ∀ (d t x y : Str), '/' ∉ d → '/' ∉ t → (y = [] ∨ ∃ r, y = '/' :: r) →
    (d ++ '/' :: x <+: t ++ y ↔ d = t ∧ '/' :: x <+: y) := by
  intro d
  induction d with
  | nil =>
    intro t x y _ ht hy
    cases t with
    | nil => simp
    | cons b t =>
      simp only [List.mem_cons, not_or] at ht
      constructor
      · intro h
        exact absurd (List.cons_prefix_cons.1 h).1 ht.1
      · rintro ⟨h, _⟩; exact nomatch h
  | cons a d ih =>
    intro t x y hd ht hy
    simp only [List.mem_cons, not_or] at hd
    cases t with
    | nil =>
      constructor
      · intro h
        rcases hy with rfl | ⟨r, rfl⟩
        · simp at h
        · exact absurd (List.cons_prefix_cons.1 h).1.symm hd.1
      · rintro ⟨h, _⟩; exact nomatch h
    | cons b t =>
      simp only [List.mem_cons, not_or] at ht
      simp only [List.cons_append, List.cons_prefix_cons, List.cons.injEq]
      rw [ih t x y hd.2 ht.2 hy, and_assoc]

private theorem last_prefix : ∀ (d t y : Str), '/' ∉ d → (y = [] ∨ ∃ r, y = '/' :: r) →
    (d <+: t ++ y ↔ d <+: t) := by
  intro d
  induction d with
  | nil => simp
  | cons a d ih =>
    intro t y hd hy
    simp only [List.mem_cons, not_or] at hd
    cases t with
    | nil =>
      constructor
      · intro h
        rcases hy with rfl | ⟨r, rfl⟩
        · exact h
        · exact absurd (List.cons_prefix_cons.1 h).1.symm hd.1
      · simp
    | cons b t =>
      simp only [List.cons_append, List.cons_prefix_cons]
      rw [ih t y hd.2 hy]

private theorem flat_prefix : ∀ (D T : List Str), D ≠ [] → (∀ c ∈ D, '/' ∉ c) → (∀ c ∈ T, '/' ∉ c) →
    ((D.flatMap fun c => '/' :: c) <+: (T.flatMap fun c => '/' :: c) ↔ Inside D T ∨ Beside D T) := by
  intro D
  induction D with
  | nil => intro T h; exact absurd rfl h
  | cons d D ih =>
    intro T _ hD hT
    cases T with
    | nil =>
      simp only [List.flatMap_cons, List.flatMap_nil, List.cons_append, List.prefix_nil]
      constructor
      · intro h; exact nomatch h
      · rintro (h | ⟨up, n, m, b, -, -, h⟩)
        · exact absurd (List.prefix_nil.1 h) (by simp)
        · exact absurd h.symm (by simp)
    | cons t T =>
      have hd := hD d (by simp)
      have ht := hT t (by simp)
      simp only [List.flatMap_cons, List.cons_append, List.cons_prefix_cons, true_and]
      cases D with
      | nil =>
        simp only [List.flatMap_nil, List.append_nil]
        rw [last_prefix _ _ _ hd (flat_head T)]
        constructor
        · rintro ⟨m, rfl⟩
          cases m with
          | nil => exact Or.inl ⟨T, by simp⟩
          | cons c m => exact Or.inr ⟨[], d, c :: m, T, rfl, by simp, by simp⟩
        · rintro (h | ⟨up, n, m, b, h1, h2, h3⟩)
          · have := (List.cons_prefix_cons.1 h).1
            rw [this]; exact List.prefix_refl _
          · cases up with
            | nil =>
              simp only [List.nil_append, List.cons.injEq, and_true] at h1 h3
              rw [h1, h3.1]; exact List.prefix_append _ _
            | cons u up => simp at h1
      | cons d' D =>
        have e : ((d' :: D).flatMap fun c => '/' :: c) = '/' :: (d' ++ D.flatMap fun c => '/' :: c) := by simp
        rw [e, word_prefix _ _ _ _ hd ht (flat_head T), ← e,
          ih T (by simp) (fun c hc => hD c (by simp [hc])) (fun c hc => hT c (by simp [hc]))]
        constructor
        · rintro ⟨rfl, h | ⟨up, n, m, b, h1, h2, h3⟩⟩
          · exact Or.inl (List.cons_prefix_cons.2 ⟨rfl, h⟩)
          · exact Or.inr ⟨d :: up, n, m, b, by rw [h1]; rfl, h2, by rw [h3]; rfl⟩
        · rintro (h | ⟨up, n, m, b, h1, h2, h3⟩)
          · obtain ⟨h1, h2⟩ := List.cons_prefix_cons.1 h
            exact ⟨h1, Or.inl h2⟩
          · cases up with
            | nil => simp at h1
            | cons u up =>
              simp only [List.cons_append, List.cons.injEq] at h1 h3
              exact ⟨h1.1.trans h3.1.symm, Or.inr ⟨up, n, m, b, h1.2, h2, h3.2⟩⟩

private theorem norm_absolute (p : Str) (h : initialSlashes ('/' :: p) = 1) :
    normpath ('/' :: p) = render (walk (components ('/' :: p))) := by
  have hn : normpath ('/' :: p) = '/' :: joinSlash (walk (components ('/' :: p))) := by
    unfold normpath
    rw [if_neg (by simp)]
    have hloop : (normLoop true [] (split ('/' :: p))).reverse = walk (components ('/' :: p)) := by
      rw [← normLoop_filter, ← components_eq]
      exact normLoop_walk _ (fun c hc => (components_ok _ c hc).2) [] (by simp)
    simp only [h]
    show (if '/' :: joinSlash (normLoop true [] (split ('/' :: p))).reverse = [] then _ else _) = _
    rw [if_neg (by simp)]
    show '/' :: joinSlash (normLoop true [] (split ('/' :: p))).reverse = _
    rw [hloop]
  rw [hn]
  by_cases hw : walk (components ('/' :: p)) = []
  · rw [hw]; rfl
  · exact join_render _ hw

private theorem slashes_one (c : Char) (r : Str) (h : c ≠ '/') : initialSlashes ('/' :: c :: r) = 1 := by
  unfold initialSlashes
  split <;> simp_all

private theorem render_clean {D : List Str} (hD : Clean D) : ∃ c r, render D = '/' :: c :: r ∧ c ≠ '/' := by
  obtain ⟨hne, hc⟩ := hD
  cases D with
  | nil => exact absurd rfl hne
  | cons d D =>
    obtain ⟨h1, h2, _⟩ := hc d (by simp)
    cases d with
    | nil => exact absurd rfl h2
    | cons c d =>
      simp only [List.mem_cons, not_or] at h1
      exact ⟨c, d ++ D.flatMap fun c => '/' :: c, by simp [render], fun e => h1.1 e.symm⟩

private theorem last_clean {D : List Str} (hD : Clean D) : (render D).getLast? ≠ some '/' := by
  obtain ⟨hne, hc⟩ := hD
  intro h
  obtain ⟨up, name, rfl⟩ : ∃ up name, D = up ++ [name] := ⟨D.dropLast, D.getLast hne, (List.dropLast_concat_getLast hne).symm⟩
  obtain ⟨h1, h2, _⟩ := hc name (by simp)
  unfold render at h
  rw [if_neg hne, List.flatMap_append, List.getLast?_append] at h
  simp only [List.flatMap_cons, List.flatMap_nil, List.append_nil] at h
  cases name with
  | nil => exact h2 rfl
  | cons c n =>
    rw [List.getLast?_cons_cons] at h
    obtain ⟨x, hx⟩ : ∃ x, (c :: n).getLast? = some x := ⟨_, List.getLast?_eq_some_getLast (by simp)⟩
    rw [hx] at h
    simp only [Option.some_or, Option.some.injEq] at h
    subst h
    exact h1 (List.mem_of_getLast? hx)

/-- The place a link is made at, as long as the configured name does not begin with exactly two slashes. -/
private theorem location_eq {D : List Str} (hD : Clean D) (src : Str) (hs : initialSlashes src ≠ 2) :
    location (render D) src = render (target D src) := by
  obtain ⟨c, r, hr, hc⟩ := render_clean hD
  have hl := last_clean hD
  have hcomp : components (render D) = D := components_render D fun c hc => ⟨(hD.2 c hc).1, (hD.2 c hc).2.1⟩
  unfold location target
  by_cases hf : src.head? = some '/'
  · obtain ⟨p, rfl⟩ : ∃ p, src = '/' :: p := by
      cases src with
      | nil => simp at hf
      | cons c p => simp only [List.head?_cons, Option.some.injEq] at hf; exact ⟨p, by rw [hf]⟩
    have h1 : initialSlashes ('/' :: p) = 1 := by
      unfold initialSlashes at hs ⊢
      split <;> simp_all
    rw [if_pos hf]
    exact norm_absolute p h1
  · rw [if_neg hf]
    have hj : join (render D) src = render D ++ '/' :: src := by
      unfold join
      split
      · simp at hf
      · rw [if_neg]
        rintro (h | h)
        · rw [hr] at h; exact nomatch h
        · exact hl h
    rw [hj, hr]
    have e : ('/' :: c :: r) ++ '/' :: src = '/' :: (c :: (r ++ '/' :: src)) := rfl
    rw [e, norm_absolute _ (slashes_one c _ hc), ← e, ← hr, components_append_slash, hcomp]

private theorem target_ok {D : List Str} (hD : Clean D) (src : Str) :
    ∀ c ∈ target D src, '/' ∉ c ∧ c ≠ [] ∧ c ≠ ['.'] ∧ c ≠ ['.', '.'] := by
  refine walk_ok _ fun c hc => ?_
  rcases List.mem_append.1 hc with h | h
  · split at h
    · exact nomatch h
    · exact ⟨(hD.2 c h).1, (hD.2 c h).2.1⟩
  · exact components_ok _ c h

private theorem allowed_iff {D : List Str} (hD : Clean D) (src : Str) (hs : initialSlashes src ≠ 2) :
    allowed (render D) src = true ↔ Inside D (target D src) ∨ Beside D (target D src) := by
  unfold allowed
  rw [beq_iff_eq, commonprefix_eq, location_eq hD src hs]
  have e : render D = D.flatMap fun c => '/' :: c := if_neg hD.1
  by_cases ht : target D src = []
  · rw [ht]
    obtain ⟨c, r, hr, -⟩ := render_clean hD
    constructor
    · intro h
      rw [hr] at h
      exact absurd (List.cons_prefix_cons.1 (h : _ <+: '/' :: [])).2 (by simp)
    · rintro (h | ⟨up, n, m, b, -, -, h⟩)
      · exact absurd (List.prefix_nil.1 h) hD.1
      · exact absurd h.symm (by simp)
  · have e' : render (target D src) = (target D src).flatMap fun c => '/' :: c := if_neg ht
    rw [e, e']
    exact flat_prefix D _ hD.1 (fun c hc => (hD.2 c hc).1) (fun c hc => (target_ok hD src c hc).1)

private theorem two_refused {D : List Str} (hD : Clean D) (src : Str) (hs : initialSlashes src = 2) :
    allowed (render D) src = false := by
  obtain ⟨c, r, hr, hc⟩ := render_clean hD
  obtain ⟨p, rfl⟩ : ∃ p, src = '/' :: '/' :: p := by
    unfold initialSlashes at hs
    split at hs <;> simp_all
  rw [Bool.eq_false_iff]
  unfold allowed
  rw [Ne, beq_iff_eq, commonprefix_eq]
  have hn : ∃ q, location (render D) ('/' :: '/' :: p) = '/' :: '/' :: q := by
    unfold location join normpath
    rw [if_neg (by simp)]
    simp only [hs]
    rw [if_neg (by simp)]
    exact ⟨_, rfl⟩
  obtain ⟨q, hq⟩ := hn
  rw [hq, hr, List.cons_prefix_cons, List.cons_prefix_cons]
  rintro ⟨-, h, -⟩
  exact hc h

/-- A link is made only at or below the submission's directory, or, which is what is missing, at or below a
directory beside it whose name begins with the name of the submission's directory. -/
theorem C44_inside_partial (D : List Str) (hD : Clean D) (src : Str) (h : allowed (render D) src = true) :
    location (render D) src = render (target D src) ∧ (Inside D (target D src) ∨ Beside D (target D src)) := by
  by_cases hs : initialSlashes src = 2
  · rw [two_refused hD src hs] at h; exact nomatch h
  · exact ⟨location_eq hD src hs, (allowed_iff hD src hs).1 h⟩

/-- Every name for a place at or below the directory is accepted (but for names beginning with exactly two
slashes, which mean something of their own). -/
theorem C44_complete (D : List Str) (hD : Clean D) (src : Str) (hs : initialSlashes src ≠ 2)
    (h : Inside D (target D src)) : allowed (render D) src = true := (allowed_iff hD src hs).2 (Or.inl h)

/-- A link can be made outside of the directory. -/
theorem C44_sibling_fails : ∃ (D : List Str) (src : Str), Clean D ∧ allowed (render D) src = true ∧
    ¬ Inside D (target D src) := by
  refine ⟨["tmp".toList, "ab".toList], "../abc/x".toList, ⟨by decide, by decide⟩, by decide +kernel, ?_⟩
  rintro ⟨t, ht⟩
  have h := congrArg (fun l => l[1]?) ht
  revert h
  have : (target ["tmp".toList, "ab".toList] "../abc/x".toList)[1]? = some "abc".toList := by decide +kernel
  rw [this]
  intro h
  have h : some "ab".toList = some "abc".toList := h
  exact absurd h (by decide)

/-- If all names are accepted and nothing but links is in the way, afterwards each name has its link (the
last one, if several names mean the same place), and nothing else has changed. -/
theorem C44_links (dir : Str) (links : List (Str × Str)) (fs fs' : Fs)
    (h : prepare dir links fs = (fs', .done)) :
    (∀ i (hi : i < links.length), (∀ j (hj : j < links.length), i < j →
        location dir links[j].1 ≠ location dir links[i].1) →
      fs' (location dir links[i].1) = some (.link links[i].2)) ∧
    (∀ q, (∀ l ∈ links, location dir l.1 ≠ q) → fs' q = fs q) ∧ ∀ l ∈ links, allowed dir l.1 = true := by
  induction links generalizing fs with
  | nil =>
    simp only [prepare, Prod.mk.injEq, and_true] at h
    subst h
    simp
  | cons l links ih =>
    obtain ⟨src, dst⟩ := l
    unfold prepare at h
    by_cases ha : allowed dir src = true
    · rw [if_pos ha] at h
      cases hp : place fs (location dir src) dst with
      | none => rw [hp] at h; simp at h
      | some fs1 =>
        rw [hp] at h
        have hfs : fs1 = fun q => if q = location dir src then some (.link dst) else fs q := by
          unfold place at hp
          split at hp
          · exact nomatch hp
          · exact (Option.some.inj hp).symm
        obtain ⟨h1, h2, h3⟩ := ih fs1 h
        refine ⟨fun i hi hj => ?_, fun q hq => ?_, fun l hl => ?_⟩
        · cases i with
          | zero =>
            have : fs' (location dir src) = fs1 (location dir src) := by
              apply h2
              intro l hl
              obtain ⟨k, hk, rfl⟩ := List.getElem_of_mem hl
              exact hj (k + 1) (by simpa using hk) (by omega)
            show fs' (location dir src) = _
            rw [this, hfs]
            exact if_pos rfl
          | succ i =>
            exact h1 i (by simpa using hi) fun j hj1 hij => hj (j + 1) (by simpa using hj1) (by omega)
        · rw [h2 q fun l hl => hq l (by simp [hl]), hfs]
          exact if_neg fun e => hq (src, dst) (by simp) e.symm
        · rcases List.mem_cons.1 hl with rfl | hl
          · exact ha
          · exact h3 l hl
    · rw [if_neg ha] at h; simp at h

/-- Whatever the outcome, only accepted places are touched. -/
theorem C44_touched (dir : Str) (links : List (Str × Str)) (fs : Fs) (q : Str)
    (h : (prepare dir links fs).1 q ≠ fs q) : ∃ l ∈ links, allowed dir l.1 = true ∧ location dir l.1 = q := by
  induction links generalizing fs with
  | nil => exact absurd rfl h
  | cons l links ih =>
    obtain ⟨src, dst⟩ := l
    unfold prepare at h
    by_cases ha : allowed dir src = true
    · rw [if_pos ha] at h
      cases hp : place fs (location dir src) dst with
      | none => rw [hp] at h; exact absurd rfl h
      | some fs1 =>
        rw [hp] at h
        by_cases hq : location dir src = q
        · exact ⟨(src, dst), by simp, ha, hq⟩
        · have hfs : fs1 q = fs q := by
            unfold place at hp
            split at hp
            · exact nomatch hp
            · rw [← Option.some.inj hp]; exact if_neg fun e => hq e.symm
          obtain ⟨l, hl, h1, h2⟩ := ih fs1 (by rw [hfs]; exact h)
          exact ⟨l, by simp [hl], h1, h2⟩
    · rw [if_neg ha] at h; exact absurd rfl h

/-- A refused name ends the loop with the error. -/
theorem C44_refused (dir : Str) (links : List (Str × Str)) (fs : Fs) (l : Str × Str) (hl : l ∈ links)
    (h : allowed dir l.1 = false) : (prepare dir links fs).2 ≠ .done := by
  induction links generalizing fs with
  | nil => exact nomatch hl
  | cons k links ih =>
    obtain ⟨src, dst⟩ := k
    unfold prepare
    by_cases ha : allowed dir src = true
    · rw [if_pos ha]
      have hl' : l ∈ links := by
        rcases List.mem_cons.1 hl with rfl | hl
        · exact absurd (ha.symm.trans h) (by simp)
        · exact hl
      cases hp : place fs (location dir src) dst with
      | none => simp
      | some fs1 => exact ih fs1 hl'
    · rw [if_neg ha]; simp

example : Clean ["tmp".toList, "ab".toList] ∧
    allowed (render ["tmp".toList, "ab".toList]) "x/../data.txt".toList = true ∧
    allowed (render ["tmp".toList, "ab".toList]) "/tmp/ab/data.txt".toList = true ∧
    allowed (render ["tmp".toList, "ab".toList]) "../../etc/passwd".toList = false ∧
    allowed (render ["tmp".toList, "ab".toList]) "../a".toList = false ∧
    allowed (render ["tmp".toList, "ab".toList]) "//tmp/ab/c".toList = false :=
  ⟨⟨by decide, by decide⟩, by decide +kernel⟩

end Verif.Symlink
