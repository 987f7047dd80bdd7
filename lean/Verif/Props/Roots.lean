import Verif.Spec.Roots
import Verif.Props.Data

/-! # C67: problem roots and the list of problems -/

namespace Verif.Props

open Verif.Problem Verif.Roots

namespace Roots

theorem mem_gather {α β : Type} (f : α → Except Err (List β)) : ∀ (xs : List α) (l : List β), gather f xs = .ok l →
    (∀ x ∈ xs, ∃ a, f x = .ok a) ∧ ∀ b, b ∈ l ↔ ∃ x ∈ xs, ∃ a, f x = .ok a ∧ b ∈ a
  | [], l, h => by
    simp only [gather, Except.ok.injEq] at h
    subst h
    simp
  | x :: xs, l, h => by
    simp only [gather] at h
    cases hx : f x with
    | error e => rw [hx] at h; exact nomatch h
    | ok a =>
      rw [hx] at h
      cases hg : gather f xs with
      | error e => rw [hg] at h; exact nomatch h
      | ok b =>
        rw [hg] at h
        simp only [Except.ok.injEq] at h
        subst h
        obtain ⟨h1, h2⟩ := mem_gather f xs b hg
        refine ⟨?_, fun c => ?_⟩
        · intro y hy
          rcases List.mem_cons.1 hy with rfl | hy
          · exact ⟨a, hx⟩
          · exact h1 y hy
        · simp only [List.mem_append, h2, List.mem_cons]
          constructor
          · rintro (h | ⟨y, hy, b, hb, hc⟩)
            · exact ⟨x, .inl rfl, a, hx, h⟩
            · exact ⟨y, .inr hy, b, hb, hc⟩
          · rintro ⟨y, rfl | hy, b, hb, hc⟩
            · rw [hx] at hb; cases hb; exact .inl hc
            · exact .inr ⟨y, hy, b, hb, hc⟩

theorem gather_ok {α β : Type} (f : α → Except Err (List β)) : ∀ (xs : List α),
    (∀ x ∈ xs, ∃ a, f x = .ok a) → ∃ l, gather f xs = .ok l
  | [], _ => ⟨[], rfl⟩
  | x :: xs, h => by
    obtain ⟨a, ha⟩ := h x (.head _)
    obtain ⟨b, hb⟩ := gather_ok f xs fun y hy => h y (.tail _ hy)
    exact ⟨a ++ b, by simp [gather, ha, hb]⟩

theorem gather_error {α β : Type} (f : α → Except Err (List β)) (hf : ∀ x e, f x = .error e → e = .os) :
    ∀ (xs : List α) (x : α), x ∈ xs → f x = .error .os → gather f xs = .error .os
  | y :: ys, x, hx, he => by
    rcases List.mem_cons.1 hx with rfl | hx
    · simp [gather, he]
    · simp only [gather]
      cases hy : f y with
      | error e => rw [hf y e hy]
      | ok a => simp [gather_error f hf ys x hx he]

theorem gather_err {α β : Type} (f : α → Except Err (List β)) (hf : ∀ x e, f x = .error e → e = .os) :
    ∀ (xs : List α) (e : Err), gather f xs = .error e → e = .os
  | [], e, h => nomatch h
  | y :: ys, e, h => by
    simp only [gather] at h
    cases hy : f y with
    | error e' => rw [hy] at h; cases h; exact hf y _ hy
    | ok a =>
      rw [hy] at h
      cases hg : gather f ys with
      | error e' => rw [hg] at h; cases h; exact gather_err f hf ys _ hg
      | ok b => rw [hg] at h; exact nomatch h

theorem get_append (n : Node) (p q : Path) : find n (p ++ q) = (find n p).bind (find · q) := by
  induction p generalizing n with
  | nil => cases n <;> simp [find]
  | cons c p ih =>
    cases n with
    | file r => simp [find]
    | dir l m es =>
      simp only [List.cons_append, find]
      cases es.lookup c with
      | none => rfl
      | some n => exact ih n

theorem lookup_mem {es : List (String × Node)} {c : String} {n : Node} (h : es.lookup c = some n) :
    c ∈ es.map (·.1) := by
  induction es with
  | nil => exact nomatch h
  | cons e es ih =>
    rw [List.lookup_cons] at h
    by_cases hc : c = e.1
    · simp [hc]
    · have : (c == e.1) = false := by simpa using hc
      rw [this] at h
      exact List.mem_cons_of_mem _ (ih h)

/-- What lies in a directory that can be listed is among its entries. -/
theorem child_listed (fs : Node) (p : Path) (c : String) (names : List String) (q : Path) (n : Node)
    (hl : listdir fs p = .ok names) (h : find fs (p ++ c :: q) = some n) : c ∈ names := by
  unfold listdir at hl
  rw [get_append] at h
  split at hl
  · next m es hg =>
    cases hl
    rw [hg] at h
    simp only [Option.bind_some, find] at h
    cases hc : es.lookup c with
    | none => rw [hc] at h; exact nomatch h
    | some k => exact lookup_mem hc
  · exact nomatch hl

theorem isDir_get {fs : Node} {p : Path} : isDir fs p = true ↔ ∃ l m es, find fs p = some (.dir l m es) := by
  unfold isDir
  split
  · next l m es h => simp [h]
  · next h => 
    constructor
    · exact fun h => nomatch h
    · rintro ⟨l, m, es, h'⟩
      exact absurd h' (h l m es)

theorem at_iff : ∀ (p : Path) (fs n : Node), At fs p n ↔ find fs p = some n
  | [], fs, n => by
    constructor
    · intro h; cases h; cases fs <;> rfl
    · intro h; cases fs <;> (simp only [find, Option.some.injEq] at h; subst h; exact .here _)
  | c :: p, .file r, n => ⟨nofun, fun h => nomatch h⟩
  | c :: p, .dir l m es, n => by
    rw [find]
    constructor
    · intro h
      cases h with
      | into h hp => rw [h]; exact (at_iff p _ n).1 hp
    · intro h
      split at h
      · next x hx => exact .into hx ((at_iff p x n).2 h)
      · exact nomatch h

theorem dir_iff {fs : Node} {p : Path} : Dir fs p ↔ isDir fs p = true := by
  simp only [Dir, at_iff, isDir_get]

theorem file_iff {fs : Node} {p : Path} : File fs p ↔ isFile fs p = true := by
  simp only [File, at_iff]
  unfold isFile
  split <;> grind

theorem isDir_prefix (fs : Node) (p q : Path) (h : isDir fs (p ++ q) = true) : isDir fs p = true := by
  rw [isDir_get] at h ⊢
  obtain ⟨l, m, es, h⟩ := h
  rw [get_append] at h
  cases hp : find fs p with
  | none => rw [hp] at h; exact nomatch h
  | some n =>
    cases n with
    | dir l m es => exact ⟨l, m, es, rfl⟩
    | file r =>
      rw [hp] at h
      cases q with
      | nil => simp [find] at h
      | cons c q => simp [find] at h

theorem listdir_err {fs : Node} {p : Path} {e : Err} (h : listdir fs p = .error e) : e = .os := by
  unfold listdir at h
  split at h
  · exact nomatch h
  · cases h; rfl

theorem listdir_ok {fs : Node} {p : Path} : (∃ l, listdir fs p = .ok l) ↔ Fine fs p := by
  unfold listdir Fine
  simp only [at_iff]
  split
  · next m es h => exact ⟨fun _ => ⟨m, es, h⟩, fun _ => ⟨_, rfl⟩⟩
  · next h =>
    constructor
    · rintro ⟨l, h⟩; exact nomatch h
    · rintro ⟨m, es, h'⟩; exact absurd h' (h m es)

theorem listdir_fail {fs : Node} {p : Path} (h : ¬ Fine fs p) : listdir fs p = .error .os := by
  cases hl : listdir fs p with
  | ok l => exact absurd (listdir_ok.1 ⟨l, hl⟩) h
  | error e => rw [listdir_err hl]

theorem findDirs_err (fs : Node) : ∀ (d : Nat) (p : Path) (e : Err), findDirs fs d p = .error e → e = .os
  | 0, p, e, h => nomatch h
  | d + 1, p, e, h => by
    simp only [findDirs] at h
    cases hl : listdir fs p with
    | error e' => rw [hl] at h; cases h; exact listdir_err hl
    | ok names =>
      rw [hl] at h
      refine gather_err _ ?_ names e h
      intro c e hc
      by_cases hd : isDir fs (p ++ [c]) = true
      · rw [if_pos hd] at hc; exact findDirs_err fs d _ e hc
      · rw [if_neg hd] at hc; exact nomatch hc

theorem mem_findDirs (fs : Node) : ∀ (d : Nat) (p : Path) (l : List Path), findDirs fs d p = .ok l →
    ∀ q, q ∈ l ↔ Below fs p d q
  | 0, p, l, h, q => by
    simp only [findDirs, Except.ok.injEq] at h
    subst h
    unfold Below
    constructor
    · intro h
      by_cases hp : isDir fs p = true
      · rw [if_pos hp] at h
        cases List.mem_singleton.1 h
        exact ⟨[], by simp, rfl, dir_iff.2 hp⟩
      · rw [if_neg hp] at h; exact nomatch h
    · rintro ⟨r, hq, hr, hd⟩
      cases List.length_eq_zero_iff.1 hr
      rw [List.append_nil] at hq
      subst hq
      simp [dir_iff.1 hd]
  | d + 1, p, l, h, q => by
    simp only [findDirs] at h
    cases hl : listdir fs p with
    | error e' => rw [hl] at h; exact nomatch h
    | ok names =>
      rw [hl] at h
      rw [(mem_gather _ names l h).2]
      constructor
      · rintro ⟨c, hc, a, ha, hq⟩
        by_cases hd : isDir fs (p ++ [c]) = true
        · rw [if_pos hd] at ha
          obtain ⟨r, h1, h2, h3⟩ := (mem_findDirs fs d _ a ha q).1 hq
          exact ⟨c :: r, by simp [h1], by simp [h2], h3⟩
        · rw [if_neg hd] at ha
          cases ha
          exact nomatch hq
      · rintro ⟨r, hq, hr, hd⟩
        cases r with
        | nil => simp at hr
        | cons c r =>
          subst hq
          have hd' : isDir fs (p ++ [c] ++ r) = true := by simpa using dir_iff.1 hd
          have hdir := isDir_prefix fs (p ++ [c]) r hd'
          obtain ⟨l', m, es, hg⟩ := isDir_get.1 (dir_iff.1 hd)
          have hc := child_listed fs p c names r _ hl hg
          obtain ⟨a, ha⟩ := (mem_gather _ names l h).1 c hc
          refine ⟨c, hc, a, ha, ?_⟩
          rw [if_pos hdir] at ha
          exact (mem_findDirs fs d _ a ha _).2 ⟨r, by simp, by simpa using hr, hd⟩

theorem findDirs_ok (fs : Node) : ∀ (d : Nat) (p : Path), (∃ l, findDirs fs d p = .ok l) ↔ Searchable fs p d
  | 0, p => by simp [findDirs, Searchable]
  | d + 1, p => by
    constructor
    · rintro ⟨l, h⟩
      simp only [findDirs] at h
      cases hl : listdir fs p with
      | error e' => rw [hl] at h; exact nomatch h
      | ok names =>
        rw [hl] at h
        refine ⟨fun _ => listdir_ok.1 ⟨_, hl⟩, ?_⟩
        rintro k hk q ⟨r, hq, hr, hd⟩
        cases r with
        | nil => simp at hq; subst hq; exact listdir_ok.1 ⟨_, hl⟩
        | cons c r =>
          subst hq
          have hd' : isDir fs (p ++ [c] ++ r) = true := by simpa using dir_iff.1 hd
          have hdir := isDir_prefix fs (p ++ [c]) r hd'
          obtain ⟨l', m, es, hg⟩ := isDir_get.1 (dir_iff.1 hd)
          have hc := child_listed fs p c names r _ hl hg
          obtain ⟨a, ha⟩ := (mem_gather _ names l h).1 c hc
          rw [if_pos hdir] at ha
          have := (findDirs_ok fs d _).1 ⟨a, ha⟩
          refine this.2 r.length (by simp at hr; omega) _ ⟨r, by simp, rfl, hd⟩
    · rintro ⟨h1, h2⟩
      obtain ⟨names, hl⟩ := listdir_ok.2 (h1 (by omega))
      simp only [findDirs, hl]
      refine gather_ok _ names ?_
      intro c hc
      by_cases hd : isDir fs (p ++ [c]) = true
      · rw [if_pos hd]
        refine (findDirs_ok fs d _).2 ⟨fun hd0 => ?_, ?_⟩
        · exact h2 1 (by omega) _ ⟨[c], rfl, rfl, dir_iff.2 hd⟩
        · rintro k hk q ⟨r, hq, hr, hdq⟩
          exact h2 (k + 1) (by omega) q ⟨c :: r, by simp [hq], by simp [hr], hdq⟩
      · exact ⟨[], by rw [if_neg hd]⟩

theorem mem_pathsOf {l : List (Path ⊕ Warn)} {p : Path} : p ∈ pathsOf l ↔ .inl p ∈ l := by
  unfold pathsOf
  simp only [List.mem_filterMap]
  constructor
  · rintro ⟨a, ha, hp⟩
    cases a with
    | inl q => cases hp; exact ha
    | inr w => exact nomatch hp
  · exact fun h => ⟨_, h, rfl⟩

theorem deepDirs_mem (fs : Node) (x : Option Int × Path) (a : List (Path ⊕ Warn)) (h : deepDirs fs x = .ok a) (q : Path) :
    .inl q ∈ a ↔ ∃ d : Nat, x.1 = some (d : Int) ∧ Below fs x.2 d q := by
  unfold deepDirs at h
  rcases x with ⟨depth, p⟩
  rcases depth with _ | (d | d)
  · simp only [byDepth, Except.ok.injEq] at h; subst h; simp
  · simp only [byDepth] at h
    cases hf : findDirs fs d p with
    | error e => 
      rw [hf] at h
      cases findDirs_err fs d p e hf
      exact nomatch h
    | ok l =>
      rw [hf] at h
      simp only [Except.ok.injEq] at h
      subst h
      simp only [List.mem_map, Sum.inl.injEq, exists_eq_right, mem_findDirs fs d p l hf]
      constructor
      · exact fun h => ⟨d, rfl, h⟩
      · rintro ⟨d', hd, h⟩
        have : d = d' := by simp only [Option.some.injEq, Int.ofNat_eq_natCast] at hd; omega
        subst this
        exact h
  · simp only [byDepth, Except.ok.injEq] at h
    subst h
    constructor
    · intro h; simp at h
    · rintro ⟨d', hd, _⟩
      simp only [Option.some.injEq] at hd
      exact nomatch hd

theorem deepDirs_ok (fs : Node) (x : Option Int × Path) :
    (∃ a, deepDirs fs x = .ok a) ↔ ∀ d : Nat, x.1 = some (d : Int) → Searchable fs x.2 d := by
  rcases x with ⟨depth, p⟩
  rcases depth with _ | (d | d)
  · simp [deepDirs, byDepth]
  · rw [show deepDirs fs (some (Int.ofNat d), p) = (match findDirs fs d p with
      | .ok l => .ok (l.map .inl)
      | .error .value => .ok [.inr .depth]
      | .error e => .error e) from rfl]
    have hs := findDirs_ok fs d p
    cases hf : findDirs fs d p with
    | ok l =>
      refine ⟨fun _ d' hd => ?_, fun _ => ⟨_, rfl⟩⟩
      have : d = d' := by simp only [Option.some.injEq, Int.ofNat_eq_natCast] at hd; omega
      subst this
      exact hs.1 ⟨l, hf⟩
    | error e =>
      cases findDirs_err fs d p e hf
      refine ⟨?_, fun h => ?_⟩
      · rintro ⟨a, h⟩; exact nomatch h
      · obtain ⟨l, hl⟩ := hs.2 (h d rfl)
        rw [hf] at hl; exact nomatch hl
  · refine ⟨fun _ d' hd => ?_, fun _ => ⟨_, rfl⟩⟩
    simp only [Option.some.injEq] at hd
    exact nomatch hd

theorem deepDirs_err (fs : Node) (x : Option Int × Path) (e : Err) (h : deepDirs fs x = .error e) : e = .os := by
  unfold deepDirs at h
  split at h
  · exact nomatch h
  · exact nomatch h
  · next e' hne hb =>
    cases h
    unfold byDepth at hb
    split at hb
    · cases hb; exact absurd rfl hne
    · cases hb; exact absurd rfl hne
    · exact findDirs_err fs _ _ _ hb

theorem entryDirs_err (fs : Node) (x : Entry) (e : Err) (h : entryDirs fs x = .error e) : e = .os := by
  cases x with
  | plain p => exact nomatch h
  | deep l => exact gather_err _ (deepDirs_err fs) l e h

theorem collect_mem (fs : Node) (cfg : Dirs) (l : List (Path ⊕ Warn)) (h : collect fs cfg = .ok l) (q : Path) :
    q ∈ pathsOf l ↔ IsRoot fs cfg q := by
  rw [mem_pathsOf]
  cases cfg with
  | list ps =>
    simp only [collect, Except.ok.injEq] at h
    subst h
    simp [IsRoot]
  | node es =>
    simp only [collect] at h
    rw [(mem_gather _ es l h).2]
    simp only [IsRoot]
    constructor
    · rintro ⟨e, he, a, ha, hq⟩
      cases e with
      | plain p =>
        simp only [entryDirs, Except.ok.injEq] at ha
        subst ha
        simp only [List.mem_singleton, Sum.inl.injEq] at hq
        subst hq
        exact .inl he
      | deep m =>
        simp only [entryDirs] at ha
        obtain ⟨x, hx, b, hb, hq⟩ := ((mem_gather _ m a ha).2 _).1 hq
        obtain ⟨d, hd, hB⟩ := (deepDirs_mem fs x b hb q).1 hq
        refine .inr ⟨m, he, d, x.2, ?_, hB⟩
        rw [← hd]
        exact hx
    · rintro (he | ⟨m, he, d, p, hm, hB⟩)
      · exact ⟨_, he, [.inl q], rfl, by simp⟩
      · obtain ⟨a, ha⟩ := (mem_gather _ es l h).1 _ he
        refine ⟨_, he, a, ha, ?_⟩
        simp only [entryDirs] at ha
        obtain ⟨b, hb⟩ := (mem_gather _ m a ha).1 _ hm
        exact ((mem_gather _ m a ha).2 _).2 ⟨_, hm, b, hb, (deepDirs_mem fs _ b hb q).2 ⟨d, rfl, hB⟩⟩
  | str p =>
    simp only [collect] at h
    cases hl : listdir fs p with
    | error e => rw [hl] at h; exact nomatch h
    | ok names =>
      rw [hl] at h
      simp only [Except.ok.injEq] at h
      subst h
      simp only [List.mem_map, List.mem_filter, Sum.inl.injEq, exists_eq_right, IsRoot, Below]
      constructor
      · rintro ⟨⟨c, hc, rfl⟩, hd⟩
        exact ⟨[c], rfl, rfl, dir_iff.2 hd⟩
      · rintro ⟨r, rfl, hr, hd⟩
        obtain ⟨c, rfl⟩ := List.length_eq_one_iff.1 hr
        obtain ⟨l', m, es, hg⟩ := isDir_get.1 (dir_iff.1 hd)
        exact ⟨⟨c, child_listed fs p c names [] _ hl hg, rfl⟩, dir_iff.1 hd⟩

theorem collect_ok (fs : Node) (cfg : Dirs) : (∃ l, collect fs cfg = .ok l) ↔ SearchesFine fs cfg := by
  cases cfg with
  | list ps => simp [collect, SearchesFine]
  | node es =>
    simp only [collect, SearchesFine]
    constructor
    · rintro ⟨l, h⟩ m hm d p hp
      obtain ⟨a, ha⟩ := (mem_gather _ es l h).1 _ hm
      exact (deepDirs_ok fs (some (d : Int), p)).1 ((mem_gather _ m a ha).1 _ hp) d rfl
    · intro h
      refine gather_ok _ es fun e he => ?_
      cases e with
      | plain p => exact ⟨_, rfl⟩
      | deep m =>
        refine gather_ok _ m fun x hx => (deepDirs_ok fs x).2 fun d hd => ?_
        refine h m he d x.2 ?_
        rw [← hd]
        exact hx
  | str p =>
    simp only [collect, SearchesFine]
    rw [← listdir_ok]
    cases listdir fs p with
    | error e => exact ⟨(fun ⟨_, h⟩ => nomatch h), (fun ⟨_, h⟩ => nomatch h)⟩
    | ok l => exact ⟨fun _ => ⟨_, rfl⟩, fun _ => ⟨_, rfl⟩⟩

theorem collect_err (fs : Node) (cfg : Dirs) (e : Err) (h : collect fs cfg = .error e) : e = .os := by
  cases cfg with
  | list ps => exact nomatch h
  | node es => exact gather_err _ (entryDirs_err fs) es e h
  | str p =>
    simp only [collect] at h
    cases hl : listdir fs p with
    | error e' => rw [hl] at h; cases h; exact listdir_err hl
    | ok l => rw [hl] at h; exact nomatch h

/-- Without a cache the roots are collected anew. -/
theorem getRoots_none (cfg : Dirs) (fs : Node) (s : State) (hs : s.dirs = none) :
    (getRoots cfg fs false s).2 = match collect fs cfg with
      | .error e => .error e
      | .ok l => if s.gone && !(warnsOf l).isEmpty then .error .name else .ok (pathsOf l) := by
  unfold getRoots
  rw [hs]
  cases cfg with
  | list l =>
    have hw : warnsOf (l.map .inl) = [] := by
      unfold warnsOf
      induction l with
      | nil => rfl
      | cons p l ih => simpa using ih
    have hp : pathsOf (l.map .inl) = l := by
      unfold pathsOf
      clear hw
      induction l with
      | nil => rfl
      | cons p l ih => simp only [List.map_cons, List.filterMap_cons]; exact congrArg _ ih
    simp only [collect, hw, hp, List.isEmpty_nil, Bool.not_true, Bool.and_false, Bool.false_eq_true, if_false]
  | node l => dsimp only; cases collect fs (.node l) <;> grind
  | str p => dsimp only; cases collect fs (.str p) <;> grind

theorem getRoots_dirs (cfg : Dirs) (fs : Node) (w : Bool) (s : State) (l : List Path)
    (h : (getRoots cfg fs w s).2 = .ok l) : (getRoots cfg fs w s).1.dirs = some l := by
  unfold getRoots at h ⊢
  cases hd : s.dirs with
  | some l' => rw [hd] at h; simp only [Except.ok.injEq] at h; simpa [h] using hd
  | none =>
    rw [hd] at h
    cases cfg with
    | list l' => simpa using h
    | node l' =>
      dsimp only at h ⊢
      cases hc : collect fs (.node l') with
      | error e => rw [hc] at h; exact nomatch h
      | ok k => rw [hc] at h; grind
    | str l' =>
      dsimp only at h ⊢
      cases hc : collect fs (.str l') with
      | error e => rw [hc] at h; exact nomatch h
      | ok k => rw [hc] at h; grind

theorem supported_eq (cfg : Dirs) (fs : Node) (s : State) :
    supported cfg fs s = ((getRoots (settled cfg) fs false s).1, match (getRoots (settled cfg) fs false s).2 with
      | .error e => .error e
      | .ok roots => gather (problemsIn fs) roots) := by
  unfold supported
  rcases getRoots (settled cfg) fs false s with ⟨s', e | l⟩ <;> rfl

theorem settled_eq {cfg : Dirs} (h : ¬ IsString cfg) : settled cfg = cfg := by
  cases cfg with
  | str p => exact absurd ⟨p, rfl⟩ h
  | list l => rfl
  | node l => rfl

theorem problemsIn_err (fs : Node) (r : Path) (e : Err) (h : problemsIn fs r = .error e) : e = .os := by
  unfold problemsIn at h
  cases hl : listdir fs r with
  | error e' => rw [hl] at h; cases h; exact listdir_err hl
  | ok l => rw [hl] at h; exact nomatch h

theorem has_iff (fs : Node) (r : Path) (id : String) : Has fs r id ↔ canRead fs (r ++ [id, "init.yml"]) = true := by
  unfold Has canRead
  simp only [at_iff]
  cases find fs (r ++ [id, "init.yml"]) with
  | none => simp
  | some n => cases n <;> simp

theorem mem_problemsIn (fs : Node) (r : Path) (a : List (String × Nat)) (h : problemsIn fs r = .ok a) (id : String)
    (m : Nat) : (id, m) ∈ a ↔ Has fs r id ∧ m = mtime fs (r ++ [id]) := by
  unfold problemsIn at h
  cases hl : listdir fs r with
  | error e' => rw [hl] at h; exact nomatch h
  | ok names =>
    rw [hl] at h
    simp only [Except.ok.injEq] at h
    subst h
    simp only [List.mem_map, List.mem_filter, Prod.mk.injEq, has_iff]
    constructor
    · rintro ⟨c, ⟨_, h⟩, rfl, rfl⟩
      exact ⟨h, rfl⟩
    · rintro ⟨h, rfl⟩
      refine ⟨id, ⟨?_, h⟩, rfl, rfl⟩
      cases hg : find fs (r ++ [id, "init.yml"]) with
      | none => rw [canRead, hg] at h; exact nomatch h
      | some n => exact child_listed fs r id names ["init.yml"] n hl hg

theorem offers_iff {fs : Node} {r : Path} {id : String} {t : Nat} :
    Offers fs r id t ↔ Has fs r id ∧ t = mtime fs (r ++ [id]) := by
  unfold Offers
  refine and_congr_right fun h => ?_
  have hd : isDir fs (r ++ [id]) = true := by
    have := (has_iff fs r id).1 h
    unfold canRead at this
    rw [show r ++ [id, "init.yml"] = r ++ [id] ++ ["init.yml"] by simp, get_append] at this
    unfold isDir
    cases hf : find fs (r ++ [id]) with
    | none => rw [hf] at this; exact nomatch this
    | some n => cases n <;> simp_all [find]
  obtain ⟨l, m, es, hf⟩ := isDir_get.1 hd
  simp only [at_iff, mtime, hf]
  grind

theorem problemsIn_ok (fs : Node) (r : Path) : (∃ a, problemsIn fs r = .ok a) ↔ Fine fs r := by
  rw [← listdir_ok]
  unfold problemsIn
  cases listdir fs r with
  | error e => exact ⟨(fun ⟨_, h⟩ => nomatch h), (fun ⟨_, h⟩ => nomatch h)⟩
  | ok l => exact ⟨fun _ => ⟨_, rfl⟩, fun _ => ⟨_, rfl⟩⟩

theorem mem_supported (fs : Node) (roots : List Path) (l : List (String × Nat)) (h : gather (problemsIn fs) roots = .ok l)
    (id : String) (m : Nat) : (id, m) ∈ l ↔ ∃ r ∈ roots, Has fs r id ∧ m = mtime fs (r ++ [id]) := by
  rw [(mem_gather _ roots l h).2]
  constructor
  · rintro ⟨r, hr, a, ha, hm⟩
    exact ⟨r, hr, (mem_problemsIn fs r a ha id m).1 hm⟩
  · rintro ⟨r, hr, hm⟩
    obtain ⟨a, ha⟩ := (mem_gather _ roots l h).1 r hr
    exact ⟨r, hr, a, ha, (mem_problemsIn fs r a ha id m).2 hm⟩

theorem no_noDir (fs : Node) (es : List Entry) (k : List (Path ⊕ Warn)) (h : collect fs (.node es) = .ok k) (r : Path) :
    .noDir r ∉ warnsOf k := by
  intro hw
  unfold warnsOf at hw
  obtain ⟨a, ha, hr⟩ := List.mem_filterMap.1 hw
  cases a with
  | inl q => exact nomatch hr
  | inr w =>
    cases hr
    obtain ⟨e, he, b, hb, hm⟩ := ((mem_gather _ es k h).2 _).1 ha
    cases e with
    | plain p =>
      simp only [entryDirs, Except.ok.injEq] at hb
      subst hb
      simp at hm
    | deep x =>
      obtain ⟨y, hy, c, hc, hm⟩ := ((mem_gather _ x b hb).2 _).1 hm
      unfold deepDirs at hc
      split at hc
      · cases hc; simp at hm
      · cases hc; simp at hm
      · exact nomatch hc

theorem bad_iff (d : Option Int) : BadDepth d ↔ (d = none ∨ ∃ k, d = some (.negSucc k)) := by
  cases d with
  | none => simp [BadDepth]
  | some d =>
    cases d with
    | ofNat k => simp only [BadDepth]; constructor
                 · intro h; exact absurd h (by simp)
                 · rintro (h | ⟨k, h⟩) <;> simp at h
    | negSucc k => simp [BadDepth, Int.negSucc_lt_zero]

theorem deep_warned (fs : Node) (x : Option Int × Path) (b : List (Path ⊕ Warn)) (h : deepDirs fs x = .ok b) :
    .inr .depth ∈ b ↔ BadDepth x.1 := by
  rw [bad_iff]
  unfold deepDirs byDepth at h
  obtain ⟨d, p⟩ := x
  cases d with
  | none => cases h; simp
  | some d =>
    cases d with
    | negSucc k => cases h; simp
    | ofNat k =>
      dsimp only at h
      cases hf : findDirs fs k p with
      | ok l => rw [hf] at h; cases h; simp
      | error e => rw [hf, findDirs_err fs k p e hf] at h; exact nomatch h

theorem depth_warned (fs : Node) (es : List Entry) (k : List (Path ⊕ Warn)) (h : collect fs (.node es) = .ok k) :
    .depth ∈ warnsOf k ↔ ∃ m, .deep m ∈ es ∧ ∃ d p, (d, p) ∈ m ∧ BadDepth d := by
  have hw : .depth ∈ warnsOf k ↔ .inr .depth ∈ k := by
    unfold warnsOf
    rw [List.mem_filterMap]
    constructor
    · rintro ⟨a, ha, hr⟩
      cases a with
      | inl q => exact nomatch hr
      | inr w => cases hr; exact ha
    · exact fun h => ⟨_, h, rfl⟩
  rw [hw, (mem_gather _ es k h).2]
  constructor
  · rintro ⟨e, he, b, hb, hm⟩
    cases e with
    | plain p =>
      simp only [entryDirs, Except.ok.injEq] at hb
      subst hb
      simp at hm
    | deep x =>
      obtain ⟨y, hy, c, hc, hm⟩ := ((mem_gather _ x b hb).2 _).1 hm
      exact ⟨x, he, y.1, y.2, hy, (deep_warned fs y c hc).1 hm⟩
  · rintro ⟨m, hm, d, p, hd, hbad⟩
    obtain ⟨b, hb⟩ := (mem_gather _ es k h).1 _ hm
    refine ⟨_, hm, b, hb, ?_⟩
    obtain ⟨c, hc⟩ := (mem_gather _ m b hb).1 _ hd
    exact ((mem_gather _ m b hb).2 _).2 ⟨_, hd, c, hc, (deep_warned fs _ c hc).2 hbad⟩

theorem no_warns (fs : Node) (cfg : Dirs) (k : List (Path ⊕ Warn)) (h : collect fs cfg = .ok k) :
    warnsOf k = [] ↔ ¬ HasBadDepth cfg := by
  have inls : ∀ l : List Path, warnsOf (l.map .inl) = [] := by
    intro l
    unfold warnsOf
    induction l with
    | nil => rfl
    | cons p l ih => simpa using ih
  cases cfg with
  | list l =>
    simp only [collect, Except.ok.injEq] at h
    subst h
    exact ⟨fun _ => (fun ⟨_, _, _, _, h, _⟩ => nomatch h), fun _ => inls l⟩
  | str p =>
    simp only [collect] at h
    cases hl : listdir fs p with
    | error e => rw [hl] at h; exact nomatch h
    | ok names =>
      rw [hl] at h
      simp only [Except.ok.injEq] at h
      subst h
      exact ⟨fun _ => (fun ⟨_, _, _, _, h, _⟩ => nomatch h), fun _ => inls _⟩
  | node es =>
    have hd := depth_warned fs es k h
    constructor
    · rintro hw ⟨es', m, d, p, he, hm, hp, hb⟩
      cases he
      have := hd.2 ⟨m, hm, d, p, hp, hb⟩
      rw [hw] at this
      exact nomatch this
    · intro hn
      cases hw : warnsOf k with
      | nil => rfl
      | cons w ws =>
        have hm : w ∈ warnsOf k := by rw [hw]; exact .head _
        cases w with
        | depth =>
          obtain ⟨m, hm, d, p, hp, hb⟩ := hd.1 hm
          exact absurd ⟨es, m, d, p, rfl, hm, hp, hb⟩ hn
        | noDir r => exact absurd hm (no_noDir fs es k h r)

/-- With an illegal depth the roots cannot be found again once the judge runs. -/
theorem getRoots_bad (cfg : Dirs) (hb : HasBadDepth cfg) (fs : Node) (s : State) (hd : s.dirs = none) (hg : s.gone = true) :
    (getRoots (settled cfg) fs false s).1 = s ∧ ∃ e, (getRoots (settled cfg) fs false s).2 = .error e := by
  obtain ⟨es, m, d, p, rfl, hm, hp, hb⟩ := hb
  unfold getRoots
  rw [hd]
  dsimp only [settled]
  cases hc : collect fs (.node es) with
  | error e => exact ⟨rfl, e, rfl⟩
  | ok k =>
    have hw : ¬ warnsOf k = [] := fun h => (no_warns fs _ k hc).1 h ⟨es, m, d, p, rfl, hm, hp, hb⟩
    have : (s.gone && !(warnsOf k ++ (if false = true then ((pathsOf k).filter fun p => !isDir fs p).map Warn.noDir else [])).isEmpty)
        = true := by
      simp [hg, hw]
    dsimp only
    rw [if_pos this]
    exact ⟨rfl, .name, rfl⟩

theorem getRoots_gone (cfg : Dirs) (fs : Node) (w : Bool) (s : State) : (getRoots cfg fs w s).1.gone = s.gone := by
  unfold getRoots; grind

theorem getRoots_cache (cfg : Dirs) (fs : Node) (w : Bool) (s : State) : (getRoots cfg fs w s).1.cache = s.cache := by
  unfold getRoots; grind

/-- What stays so while the judge runs and no submission is looked up in this process. -/
theorem ops_gone (cfg : Dirs) : ∀ (ops : List (Node × Op)), (∀ o ∈ ops, ∀ id, o.2 ≠ .root id) → ∀ s : State, s.gone = true →
    s.cache = [] → (ops.foldl (op cfg) s).gone = true ∧ (ops.foldl (op cfg) s).cache = []
  | [], _, _, h, h' => ⟨h, h'⟩
  | (fs, o) :: ops, ho, s, h, h' => by
    rw [List.foldl_cons]
    have hs : (op cfg s (fs, o)).gone = true ∧ (op cfg s (fs, o)).cache = [] := by
      cases o with
      | update =>
        simp only [op, update, supported_eq]
        exact ⟨by rw [getRoots_gone]; exact h, by rw [getRoots_cache]; first | rfl | exact h'⟩
      | list =>
        simp only [op, supported_eq]
        exact ⟨by rw [getRoots_gone]; exact h, by rw [getRoots_cache]; exact h'⟩
      | root id => exact absurd rfl (ho _ (.head _) id)
    exact ops_gone cfg ops (fun x hx => ho x (.tail _ hx)) _ hs.1 hs.2

/-- Nor do the roots come back. -/
theorem ops_bad (cfg : Dirs) (hb : HasBadDepth cfg) : ∀ (ops : List (Node × Op)), (∀ o ∈ ops, ∀ id, o.2 ≠ .root id) →
    ∀ s : State, s.gone = true → s.dirs = none → (ops.foldl (op cfg) s).dirs = none
  | [], _, _, _, h => h
  | (fs, o) :: ops, ho, s, h, h' => by
    rw [List.foldl_cons]
    cases o with
    | update =>
      have := getRoots_bad cfg hb fs { s with dirs := none } rfl h
      refine ops_bad cfg hb ops (fun x hx => ho x (.tail _ hx)) _ ?_ ?_ <;>
        simp only [op, update, supported_eq] <;> rw [this.1] <;> exact h
    | list =>
      have := getRoots_bad cfg hb fs s h' h
      refine ops_bad cfg hb ops (fun x hx => ho x (.tail _ hx)) _ ?_ ?_ <;>
        simp only [op, supported_eq] <;> rw [this.1] <;> assumption
    | root id => exact absurd rfl (ho _ (.head _) id)

theorem getRoots_some {cfg : Dirs} {fs : Node} {w : Bool} {s : State} {l : List Path} (h : s.dirs = some l) :
    getRoots cfg fs w s = (s, .ok l) := by
  unfold getRoots; rw [h]

theorem keeps (cfg : Dirs) (roots : List Path) : ∀ (ops : List (Node × Op)), (∀ o ∈ ops, o.2 ≠ .update) → ∀ s : State,
    s.dirs = some roots → (ops.foldl (op cfg) s).dirs = some roots
  | [], _, _, h => h
  | (fs, o) :: ops, ho, s, h => by
    refine keeps cfg roots ops (fun x hx => ho x (.tail _ hx)) _ ?_
    cases o with
    | update => exact absurd rfl (ho _ (.head _))
    | list => simp only [op, supported_eq, getRoots_some h, h]
    | root id =>
      simp only [op, problemRoot, getRoots_some h]
      split <;> (first | exact h | (split <;> exact h))

end Roots

open Roots

/-- C67.  The search by depth finds exactly the directories that many levels down, whatever else the tree contains. -/
theorem C67_depth (fs : Node) (d : Nat) (p : Path) (l : List Path) (h : byDepth fs (some (d : Int)) p = .ok l) (q : Path) :
    q ∈ l ↔ ∃ r : Path, q = p ++ r ∧ r.length = d ∧ Dir fs q :=
  mem_findDirs fs d p l h q

/-- C67.  It succeeds exactly if every directory above that depth can be listed. -/
theorem C67_depth_ok (fs : Node) (d : Nat) (p : Path) :
    (∃ l, byDepth fs (some (d : Int)) p = .ok l) ↔ Searchable fs p d :=
  findDirs_ok fs d p

/-- C67.  Whatever happened before, the list a turn of the updater sends contains exactly the problems with a readable
`init.yml` in the roots that the configuration means now, with their present times. Partial: the configuration is a list, see
`C67_string_fails`. -/
theorem C67_update_partial (cfg : Dirs) (hs : ¬ IsString cfg) (fs : Node) (s : State) (l : List (String × Nat)) (h : (update cfg fs s).2 = .ok l)
    (id : String) (m : Nat) :
    (id, m) ∈ l ↔ ∃ r, IsRoot fs cfg r ∧ Offers fs r id m := by
  simp only [offers_iff]
  unfold update at h
  rw [supported_eq] at h
  dsimp only at h
  rw [settled_eq hs, getRoots_none cfg fs _ rfl] at h
  cases hc : collect fs cfg with
  | error e => rw [hc] at h; exact nomatch h
  | ok k =>
    rw [hc] at h
    dsimp only at h
    split at h
    · next h' => split at h' <;> exact nomatch h
    next roots h' =>
    split at h'
    · exact nomatch h'
    cases h'
    rw [mem_supported fs _ l h]
    constructor
    · rintro ⟨r, hr, h⟩; exact ⟨r, (collect_mem fs cfg k hc r).1 hr, h⟩
    · rintro ⟨r, hr, h⟩; exact ⟨r, (collect_mem fs cfg k hc r).2 hr, h⟩

/-- C67.  It sends one exactly if all roots and all directories searched for them can be listed, and, once the judge runs, the
configuration contains no illegal depth. Partial: as `C67_update_partial`. -/
theorem C67_sent_partial (cfg : Dirs) (hs : ¬ IsString cfg) (fs : Node) (s : State) :
    (∃ l, (update cfg fs s).2 = .ok l) ↔
      SearchesFine fs cfg ∧ (∀ r, IsRoot fs cfg r → Fine fs r) ∧ (s.gone = true → ¬ HasBadDepth cfg) := by
  unfold update
  rw [supported_eq]
  dsimp only
  rw [settled_eq hs, getRoots_none cfg fs _ rfl, ← collect_ok]
  cases hc : collect fs cfg with
  | error e => exact ⟨(fun ⟨_, h⟩ => nomatch h), (fun ⟨⟨_, h⟩, _⟩ => nomatch h)⟩
  | ok k =>
    have hw := no_warns fs cfg k hc
    dsimp only
    by_cases hg : s.gone = true ∧ HasBadDepth cfg
    · have : (s.gone && !(warnsOf k).isEmpty) = true := by
        have : ¬ warnsOf k = [] := fun h => hw.1 h hg.2
        simp [hg.1, this]
      rw [if_pos this]
      exact ⟨(fun ⟨_, h⟩ => nomatch h), fun h => absurd hg.2 (h.2.2 hg.1)⟩
    have : ¬ (s.gone && !(warnsOf k).isEmpty) = true := by
      simp only [Bool.and_eq_true, Bool.not_eq_true', List.isEmpty_eq_false_iff, not_and, not_not]
      exact fun h => hw.2 fun h' => hg ⟨h, h'⟩
    rw [if_neg this]
    dsimp only
    constructor
    · rintro ⟨l, h⟩
      refine ⟨⟨_, rfl⟩, fun r hr => ?_, fun h h' => hg ⟨h, h'⟩⟩
      exact (problemsIn_ok fs r).1 ((mem_gather _ _ l h).1 r ((collect_mem fs cfg k hc r).2 hr))
    · rintro ⟨_, h, _⟩
      exact gather_ok _ _ fun r hr => (problemsIn_ok fs r).2 (h r ((collect_mem fs cfg k hc r).1 hr))

/-- C67.  At the start the roots that are directories are kept, and there is a warning for exactly those that are not. -/
theorem C67_start (es : List Entry) (fs : Node) (l : List Path) (h : (start (.node es) fs).2 = .ok l) :
    (∀ r, r ∈ l ↔ IsRoot fs (.node es) r ∧ Dir fs r) ∧
    (∀ r, .noDir r ∈ (start (.node es) fs).1.warns ↔ IsRoot fs (.node es) r ∧ ¬ Dir fs r) ∧
    (start (.node es) fs).1.dirs = some l := by
  simp only [dir_iff, Bool.not_eq_true]
  refine ⟨?_, ?_, getRoots_dirs _ _ _ _ _ h⟩
  · intro r
    unfold start getRoots at h
    dsimp only at h
    cases hc : collect fs (.node es) with
    | error e => rw [hc] at h; exact nomatch h
    | ok k =>
      rw [hc] at h
      simp only [Bool.false_and, Bool.false_eq_true, if_false, if_true, Except.ok.injEq] at h
      rw [← collect_mem fs _ k hc r, ← h, List.mem_filter]
  · intro r
    unfold start getRoots at h ⊢
    dsimp only at h ⊢
    cases hc : collect fs (.node es) with
    | error e => rw [hc] at h; exact nomatch h
    | ok k =>
      rw [← collect_mem fs _ k hc r]
      simp only [Bool.false_and, Bool.false_eq_true, if_false, if_true, List.nil_append, List.mem_append, List.mem_map, Warn.noDir.injEq, exists_eq_right,
        List.mem_filter, Bool.not_eq_true']
      constructor
      · rintro (hw | hw)
        · exact absurd hw (no_noDir fs es k hc r)
        · exact hw
      · exact .inr

/-- C67.  It warns of a depth exactly if the configuration contains one that is no number or negative; such an entry stands for no
root (`C67_start`) and is not an error. -/
theorem C67_bad_depth (es : List Entry) (fs : Node) (l : List Path) (h : (start (.node es) fs).2 = .ok l) :
    .depth ∈ (start (.node es) fs).1.warns ↔ ∃ m, .deep m ∈ es ∧ ∃ d p, (d, p) ∈ m ∧ BadDepth d := by
  unfold start getRoots at h ⊢
  dsimp only at h ⊢
  cases hc : collect fs (.node es) with
  | error e => rw [hc] at h; exact nomatch h
  | ok k =>
    rw [← depth_warned fs es k hc]
    simp

/-- C67.  Until the updater runs, what a connection reports, and where problems are looked for, are the roots found at the
start. -/
theorem C67_between (cfg : Dirs) (fs₀ fs : Node) (ops : List (Node × Op)) (hops : ∀ o ∈ ops, o.2 ≠ .update)
    (roots : List Path) (h0 : (start cfg fs₀).2 = .ok roots) (l : List (String × Nat))
    (h : (supported cfg fs (after cfg fs₀ ops)).2 = .ok l) (id : String) (m : Nat) :
    (id, m) ∈ l ↔ ∃ r ∈ roots, Offers fs r id m := by
  simp only [offers_iff]
  have hd : (after cfg fs₀ ops).dirs = some roots := keeps cfg roots ops hops _ (getRoots_dirs _ _ _ _ _ h0)
  rw [supported_eq] at h
  dsimp only at h
  unfold getRoots at h
  rw [hd] at h
  exact mem_supported fs roots l h id m

/-- C67.  If all that can be read under the name `init.yml` are files, then every problem reported is found when a submission for
it comes in, in a directory with an `init.yml`. Partial: see `C67_directory_fails`. -/
theorem C67_resolves_partial (cfg : Dirs) (fs : Node) (s : State) (l : List (String × Nat))
    (h : (supported cfg fs s).2 = .ok l) (id : String) (m : Nat) (hm : (id, m) ∈ l)
    (hf : ∀ r, Has fs r id → File fs (r ++ [id, "init.yml"])) :
    ∃ r, (problemRoot cfg fs id (supported cfg fs s).1).2 = .ok (some r) ∧ File fs (r ++ [id, "init.yml"]) := by
  simp only [file_iff] at hf ⊢
  rw [supported_eq] at h ⊢
  dsimp only at h ⊢
  cases hr : (getRoots (settled cfg) fs false s).2 with
  | error e => rw [hr] at h; exact nomatch h
  | ok roots =>
    rw [hr] at h
    have hd := getRoots_dirs (settled cfg) fs false s roots hr
    obtain ⟨r, hroot, hHas, -⟩ := (mem_supported fs roots l h id m).1 hm
    generalize (getRoots (settled cfg) fs false s).1 = s' at hd
    have hget : getRoots (settled cfg) fs false s' = (s', .ok roots) := by unfold getRoots; rw [hd]
    obtain ⟨q, hq, hfile, -⟩ := C31_root_partial (fun r id => isFile fs (r ++ [id, "init.yml"])) roots s'.cache id
      ⟨r, hroot, hf r hHas⟩
    unfold problemRoot
    rw [hget]
    dsimp only
    cases hc : s'.cache.lookup id with
    | none => exact ⟨q, by simpa using hq, hfile⟩
    | some k =>
      dsimp only
      by_cases hk : isFile fs (k ++ [id, "init.yml"]) = true
      · refine ⟨k, ?_, hk⟩
        simp [hk, getProblemRoot, hc]
      · refine ⟨q, ?_, hfile⟩
        simp [hk, hq]

/-- C67.  A problem whose `init.yml` is a directory is reported to the site, but a submission for it ends in a `KeyError`. -/
theorem C67_directory_fails : ∃ cfg fs, (update cfg fs {}).2 = .ok [("p", 7)] ∧
    (problemRoot cfg fs "p" (update cfg fs {}).1).2 = .ok none :=
  ⟨.node [.plain ["r"]], .dir true 0 [("r", .dir true 0 [("p", .dir true 7 [("init.yml", .dir true 0 [])])])], rfl, rfl⟩

/-- C67.  A configured root that does not exist, or cannot be listed, keeps every turn of the updater from sending a list,
whatever the other roots contain. -/
theorem C67_missing_fails (es : List Entry) (fs : Node) (s : State) (p : Path) (hp : .plain p ∈ es) (hn : ¬ Fine fs p) :
    ∃ e, (update (.node es) fs s).2 = .error e := by
  have := C67_sent_partial (.node es) nofun fs s
  cases h : (update (.node es) fs s).2 with
  | error e => exact ⟨e, rfl⟩
  | ok l => exact absurd ((this.1 ⟨l, h⟩).2.1 p (.inl hp)) hn

/-- C67.  At the start such a root is only warned about and the problems of the other roots are reported; after the first turn of
the updater they no longer are, neither by it nor when the judge reconnects, though nothing in the file system changed. -/
theorem C67_reconnect_fails : ∃ es fs, (start (.node es) fs).1.warns = [.noDir ["gone"]] ∧
    (supported (.node es) fs (after (.node es) fs [])).2 = .ok [("p", 7)] ∧
    (update (.node es) fs (after (.node es) fs [])).2 = .error .os ∧
    (supported (.node es) fs (after (.node es) fs [(fs, .update)])).2 = .error .os :=
  ⟨[.plain ["r"], .plain ["gone"]],
    .dir true 0 [("r", .dir true 0 [("p", .dir true 7 [("init.yml", .file true)])])], rfl, rfl, rfl, rfl⟩

/-- C67.  A root given with a positive depth that does not exist, or cannot be listed, is not warned about: the judge does not
start. -/
theorem C67_deep_missing_fails (es : List Entry) (fs : Node) (x : List (Option Int × Path)) (d : Nat) (p : Path)
    (hx : .deep x ∈ es) (hp : (some ((d + 1 : Nat) : Int), p) ∈ x) (hn : ¬ Fine fs p) :
    (start (.node es) fs).2 = .error .os := by
  unfold start getRoots
  dsimp only
  cases hc : collect fs (.node es) with
  | error e => rw [collect_err fs _ e hc]
  | ok k => exact absurd (((collect_ok fs (.node es)).1 ⟨k, hc⟩ x hx (d + 1) p hp).1 (Nat.succ_pos d)) hn

/-- C67.  An illegal depth is only warned about at the start (`C67_bad_depth`), and the problems of the other roots are reported; but
the list of warnings is then deleted, so after the first turn of the updater no list can be sent any more, neither by it nor when the
judge reconnects, and no submission (graded in a copy of this process) finds its problem, whatever happens later. -/
theorem C67_depth_fails (cfg : Dirs) (hb : HasBadDepth cfg) (fs₀ fs₁ fs : Node) (before later : List (Node × Op))
    (h : ∀ o ∈ before ++ later, ∀ id, o.2 ≠ .root id) :
    (∃ e, (supported cfg fs (after cfg fs₀ (before ++ (fs₁, .update) :: later))).2 = .error e) ∧
    (∃ e, (update cfg fs (after cfg fs₀ (before ++ (fs₁, .update) :: later))).2 = .error e) ∧
    ∀ id, ∃ e, (problemRoot cfg fs id (after cfg fs₀ (before ++ (fs₁, .update) :: later))).2 = .error e := by
  have h₁ : ∀ o ∈ before, ∀ id, o.2 ≠ .root id := fun o ho => h o (List.mem_append_left _ ho)
  have h₂ : ∀ o ∈ later, ∀ id, o.2 ≠ .root id := fun o ho => h o (List.mem_append_right _ ho)
  have hc : (running (start cfg fs₀).1).cache = [] := by
    show (getRoots cfg fs₀ true {}).1.cache = []
    rw [getRoots_cache]
  obtain ⟨hg, hc⟩ := ops_gone cfg before h₁ (running (start cfg fs₀).1) rfl hc
  unfold after
  rw [List.foldl_append, List.foldl_cons]
  generalize before.foldl (op cfg) (running (start cfg fs₀).1) = s at hg hc
  obtain ⟨hs, hd, hcc⟩ : (op cfg s (fs₁, .update)).gone = true ∧ (op cfg s (fs₁, .update)).dirs = none ∧
      (op cfg s (fs₁, .update)).cache = [] := by
    have := getRoots_bad cfg hb fs₁ { s with dirs := none } rfl hg
    simp only [op, update, supported_eq]
    rw [this.1]
    exact ⟨hg, rfl, hc⟩
  generalize op cfg s (fs₁, .update) = s at hs hd hcc
  have hd := ops_bad cfg hb later h₂ s hs hd
  obtain ⟨hg, hc⟩ := ops_gone cfg later h₂ s hs hcc
  generalize later.foldl (op cfg) s = s at hg hc hd
  refine ⟨?_, ?_, ?_⟩
  · obtain ⟨-, e, he⟩ := getRoots_bad cfg hb fs s hd hg
    rw [supported_eq, he]
    exact ⟨e, rfl⟩
  · obtain ⟨-, e, he⟩ := getRoots_bad cfg hb fs { s with dirs := none } rfl hg
    unfold update
    rw [supported_eq, he]
    exact ⟨e, rfl⟩
  · intro id
    obtain ⟨h1, e, he⟩ := getRoots_bad cfg hb fs s hd hg
    unfold problemRoot
    rw [hc]
    dsimp only [List.lookup_nil]
    rw [if_pos rfl]
    cases hr : getRoots (settled cfg) fs false s with
    | mk a b => rw [hr] at he; cases he; exact ⟨e, rfl⟩

/-- C67.  A problem that two roots have is reported twice, with two times; only one of the directories is used. -/
theorem C67_twice_fails : ∃ cfg fs, (update cfg fs {}).2 = .ok [("p", 7), ("p", 8)] ∧
    (problemRoot cfg fs "p" (update cfg fs {}).1).2 = .ok (some ["a"]) :=
  ⟨.node [.plain ["a"], .plain ["b"]], .dir true 0 [("a", .dir true 0 [("p", .dir true 7 [("init.yml", .file true)])]),
    ("b", .dir true 0 [("p", .dir true 8 [("init.yml", .file true)])])], rfl, rfl⟩

/-- C67.  If `problem_storage_root` is a single string, the roots are the directories in it until the updater first runs, and then it
itself: the judge reports other problems, and finds other problems, though nothing in the file system changed. -/
theorem C67_string_fails (p : Path) (fs : Node) :
    (∀ roots, (start (.str p) fs).2 = .ok roots → ∀ r, r ∈ roots ↔ Below fs p 1 r) ∧
    (∀ s l, (update (.str p) fs s).2 = .ok l → ∀ id m, (id, m) ∈ l ↔ Offers fs p id m) := by
  simp only [offers_iff]
  constructor
  · intro roots h r
    unfold start getRoots at h
    dsimp only at h
    cases hc : collect fs (.str p) with
    | error e => rw [hc] at h; exact nomatch h
    | ok k =>
      rw [hc] at h
      simp only [Bool.false_and, Bool.false_eq_true, if_false, if_true, Except.ok.injEq] at h
      have := collect_mem fs _ k hc r
      rw [← h, List.mem_filter, this]
      exact ⟨fun h => h.1, fun h => ⟨h, by obtain ⟨_, _, _, h⟩ := h; exact dir_iff.1 h⟩⟩
  · intro s l h id m
    unfold update at h
    rw [supported_eq] at h
    dsimp only at h
    rw [getRoots_none _ fs _ rfl] at h
    have hw : ∀ b : Bool, (b && !(warnsOf [.inl p]).isEmpty) = false := by intro b; cases b <;> rfl
    simp only [settled, collect, List.map_cons, List.map_nil, hw] at h
    have := mem_supported fs [p] l h id m
    simpa using this

/-! A tree with problems two levels down, a plain root, a file among the directories and an unreadable `init.yml`. -/

namespace RootsEx

def prob (m : Nat) : Node := .dir true m [("init.yml", .file true), ("1.in", .file true)]

def fs : Node := .dir true 0
  [("a", .dir true 0 [("x", .dir true 0 [("p", prob 1)]), ("y", .dir true 0 [("q", prob 2)]), ("z", .file true)]),
   ("b", .dir true 0 [("r", prob 3), ("s", .dir true 4 [("init.yml", .file false)])])]

def cfg : Dirs := .node [.deep [(some 1, ["a"]), (some (-1), ["a"]), (none, ["b"])], .plain ["b"]]

example : (start cfg fs).2 = .ok [["a", "x"], ["a", "y"], ["b"]] := rfl
example : (start cfg fs).1.warns = [.depth, .depth] := rfl
example : (update cfg fs {}).2 = .ok [("p", 1), ("q", 2), ("r", 3)] := rfl
example : (problemRoot cfg fs "q" (update cfg fs {}).1).2 = .ok (some ["a", "y"]) := rfl
example : byDepth fs (some ((1 : Nat) : Int)) ["a"] = .ok [["a", "x"], ["a", "y"]] := rfl
example : (supported cfg fs (after cfg fs [(.dir true 0 [], .root "p"), (fs, .list)])).2 = .ok [("p", 1), ("q", 2), ("r", 3)] :=
  rfl
example : (supported (.str ["a"]) fs (after (.str ["a"]) fs [])).2 = .ok [("p", 1), ("q", 2)] := rfl
example : (update (.str ["a"]) fs (after (.str ["a"]) fs [])).2 = .ok [] := rfl
example : HasBadDepth cfg := ⟨_, _, none, ["b"], rfl, .head _, .tail _ (.tail _ (.head _)), trivial⟩
example : (supported cfg fs (after cfg fs [(fs, .list)])).2 = .ok [("p", 1), ("q", 2), ("r", 3)] := rfl
example : (supported cfg fs (after cfg fs [(fs, .list), (fs, .update), (fs, .list)])).2 = .error .name := rfl
example : (problemRoot cfg fs "q" (after cfg fs [(fs, .update)])).2 = .error .name := rfl
example : ¬ IsString cfg := nofun
example : ¬ Fine fs ["c"] := by
  rintro ⟨_, _, h⟩
  exact nomatch (at_iff _ _ _).1 h

end RootsEx

end Verif.Props
