import Verif.Model.Path
import Verif.Spec.Path
import Mathlib.Tactic.Tauto
import Mathlib.Tactic.ByContra

/-!
# Sandbox paths, open flags and descriptors (C32, C33, C40)
-/

namespace Verif.Path

/-! ## Components -/

theorem go_acc (s : Str) : ∀ cur, components.go cur s =
    match split s with
    | [] => []
    | w :: ws => (if cur ++ w = [] then [] else [cur ++ w]) ++ ws.filter (· ≠ []) := by
  induction s with
  | nil => intro cur; simp [components.go, split]
  | cons c s ih =>
    intro cur
    unfold components.go split
    by_cases hc : c = '/'
    · simp only [hc, if_true]
      rw [ih]
      cases hs : split s with
      | nil => 
        exfalso
        revert hs
        cases s with
        | nil => simp [split]
        | cons d s => unfold split; split <;> (try split) <;> simp
      | cons w ws =>
        by_cases h : cur = []
        · by_cases hw : w = [] <;> simp [h, hw]
        · by_cases hw : w = [] <;> simp [h, hw]
    · simp only [hc, if_false]
      rw [ih]
      cases hs : split s with
      | nil =>
        exfalso
        revert hs
        cases s with
        | nil => simp [split]
        | cons d s => unfold split; split <;> (try split) <;> simp
      | cons w ws => simp

theorem components_eq (s : Str) : components s = (split s).filter (· ≠ []) := by
  unfold components
  rw [go_acc]
  cases hs : split s with
  | nil => rfl
  | cons w ws => by_cases hw : w = [] <;> simp [hw]

theorem split_ne_nil (s : Str) : split s ≠ [] := by
  cases s with
  | nil => simp [split]
  | cons d s => unfold split; split <;> (try split) <;> simp

theorem split_append_slash (a b : Str) : split (a ++ '/' :: b) = split a ++ split b := by
  induction a with
  | nil => simp [split]
  | cons c a ih =>
    simp only [List.cons_append]
    rw [split.eq_2 c (a ++ '/' :: b), split.eq_2 c a]
    by_cases hc : c = '/'
    · simp [hc, ih]
    · simp only [hc, if_false, ih]
      cases hs : split a with
      | nil => exact absurd hs (split_ne_nil a)
      | cons w ws => simp

theorem split_word (w : Str) (h : '/' ∉ w) : split w = [w] := by
  induction w with
  | nil => rfl
  | cons c w ih =>
    simp only [List.mem_cons, not_or] at h
    unfold split
    rw [ih h.2, if_neg (fun e => h.1 e.symm)]

theorem components_append_slash (a b : Str) : components (a ++ '/' :: b) = components a ++ components b := by
  simp [components_eq, split_append_slash]

theorem components_nil : components [] = [] := rfl

theorem components_slash (b : Str) : components ('/' :: b) = components b := by
  have := components_append_slash [] b
  simpa [components_nil] using this

theorem components_word (w : Str) (h : '/' ∉ w) (hn : w ≠ []) : components w = [w] := by
  rw [components_eq, split_word w h]
  simp [hn]

theorem split_noslash (s : Str) : ∀ w ∈ split s, '/' ∉ w := by
  induction s with
  | nil => simp [split]
  | cons c s ih =>
    unfold split
    by_cases hc : c = '/'
    · simp only [hc, if_true]
      intro w hw
      rcases List.mem_cons.1 hw with rfl | hw
      · simp
      · exact ih w hw
    · simp only [hc, if_false]
      cases hs : split s with
      | nil => exact absurd hs (split_ne_nil s)
      | cons w ws =>
        rw [hs] at ih
        intro x hx
        simp only [List.mem_cons] at hx
        rcases hx with rfl | hx
        · simp only [List.mem_cons, not_or]
          exact ⟨fun e => hc e.symm, ih w (by simp)⟩
        · exact ih x (by simp [hx])

theorem components_ok (s : Str) : ∀ w ∈ components s, '/' ∉ w ∧ w ≠ [] := by
  intro w hw
  rw [components_eq, List.mem_filter] at hw
  exact ⟨split_noslash s w hw.1, by simpa using hw.2⟩

/-! ## The normalisation loop -/

theorem normLoop_filter (i : Bool) (cs : List Str) : ∀ new, normLoop i new (cs.filter (· ≠ [])) = normLoop i new cs := by
  induction cs with
  | nil => intro new; rfl
  | cons c cs ih =>
    intro new
    by_cases hc : c = []
    · rw [List.filter_cons]
      simp only [hc, ne_eq, not_true_eq_false, decide_false, Bool.false_eq_true, if_false]
      rw [ih, normLoop]
      simp
    · rw [List.filter_cons]
      simp only [ne_eq, hc, not_false_eq_true, decide_true, if_true]
      unfold normLoop
      simp only [ih]

theorem normLoop_walk (cs : List Str) (hcs : ∀ c ∈ cs, c ≠ []) :
    ∀ new : List Str, ['.', '.'] ∉ new → (normLoop true new cs).reverse = cs.foldl stepDir new.reverse := by
  induction cs with
  | nil => intro new _; rfl
  | cons c cs ih =>
    intro new hn
    have hc := hcs c (by simp)
    have ih := ih fun c hc => hcs c (List.mem_cons_of_mem _ hc)
    rw [List.foldl_cons]
    unfold normLoop
    have hst : stepDir new.reverse c = if c = ['.'] then new.reverse
        else if c = ['.', '.'] then new.reverse.dropLast else new.reverse ++ [c] := rfl
    rw [hst]
    simp only [hc, false_or, Bool.true_eq_false, false_and]
    by_cases h1 : c = ['.']
    · simp only [h1, if_true]
      exact ih new hn
    · simp only [h1, if_false]
      by_cases h2 : c = ['.', '.']
      · have : ¬ (new.head? = some ['.', '.']) := by
          intro h
          exact hn (List.mem_of_mem_head? (by simp [h]))
        simp only [h2, ne_eq, not_true_eq_false, this, or_self, if_false, if_true]
        rw [ih new.tail (fun h => hn (List.mem_of_mem_tail h))]
        congr 1
        cases new <;> simp
      · simp only [h2, ne_eq, not_false_eq_true, true_or, if_true, if_false]
        rw [ih (c :: new) (by simp only [List.mem_cons, not_or]; exact ⟨fun e => h2 e.symm, hn⟩)]
        simp

/-! ## Rendering -/

theorem join_render (pos : List Str) (h : pos ≠ []) : '/' :: joinSlash pos = render pos := by
  unfold render
  rw [if_neg h]
  induction pos with
  | nil => exact absurd rfl h
  | cons w ws ih =>
    cases ws with
    | nil => simp [joinSlash]
    | cons v vs =>
      have := ih (by simp)
      simp only [joinSlash, List.flatMap_cons, List.cons_append] at this ⊢
      rw [← this]

theorem walk_ok (cs : List Str) (h : ∀ c ∈ cs, '/' ∉ c ∧ c ≠ []) :
    ∀ c ∈ walk cs, '/' ∉ c ∧ c ≠ [] ∧ c ≠ ['.'] ∧ c ≠ ['.', '.'] := by
  unfold walk
  have key : ∀ (cs pos : List Str), (∀ c ∈ cs, '/' ∉ c ∧ c ≠ []) →
      (∀ c ∈ pos, '/' ∉ c ∧ c ≠ [] ∧ c ≠ ['.'] ∧ c ≠ ['.', '.']) →
      ∀ c ∈ cs.foldl stepDir pos, '/' ∉ c ∧ c ≠ [] ∧ c ≠ ['.'] ∧ c ≠ ['.', '.'] := by
    intro cs
    induction cs with
    | nil => intro pos _ h; exact h
    | cons c cs ih =>
      intro pos hcs hpos
      rw [List.foldl_cons]
      refine ih _ (fun d hd => hcs d (List.mem_cons_of_mem _ hd)) ?_
      unfold stepDir
      split
      · exact hpos
      · split
        · intro d hd; exact hpos d (List.dropLast_subset _ hd)
        · intro d hd
          rcases List.mem_append.1 hd with hd | hd
          · exact hpos d hd
          · simp only [List.mem_singleton] at hd
            subst hd
            have := hcs d (by simp)
            tauto
  exact key cs [] h (by simp)

theorem walk_clean (cs : List Str) (h : ∀ c ∈ cs, c ≠ ['.'] ∧ c ≠ ['.', '.']) : walk cs = cs := by
  unfold walk
  have key : ∀ (cs pos : List Str), (∀ c ∈ cs, c ≠ ['.'] ∧ c ≠ ['.', '.']) → cs.foldl stepDir pos = pos ++ cs := by
    intro cs
    induction cs with
    | nil => intro pos _; simp
    | cons c cs ih =>
      intro pos hcs
      rw [List.foldl_cons, ih _ (fun d hd => hcs d (List.mem_cons_of_mem _ hd))]
      have := hcs c (by simp)
      simp [stepDir, this.1, this.2]
  simpa using key cs [] h

theorem render_cons (pos : List Str) : ∃ r, render pos = '/' :: r := by
  unfold render
  split
  · exact ⟨[], rfl⟩
  · cases pos with
    | nil => simp_all
    | cons w ws => exact ⟨w ++ ws.flatMap fun c => '/' :: c, by simp⟩

theorem components_render (pos : List Str) (h : ∀ c ∈ pos, '/' ∉ c ∧ c ≠ []) : components (render pos) = pos := by
  unfold render
  split
  · rename_i hp; subst hp; rfl
  · rename_i hp; clear hp
    induction pos with
    | nil => rfl
    | cons w ws ih =>
      have ih := ih fun c hc => h c (List.mem_cons_of_mem _ hc)
      have hw := h w (by simp)
      simp only [List.flatMap_cons, List.cons_append, components_slash]
      cases ws with
      | nil => simp [components_word w hw.1 hw.2]
      | cons v vs =>
        simp only [List.flatMap_cons, List.cons_append] at ih ⊢
        rw [components_append_slash, components_word w hw.1 hw.2]
        rw [components_slash] at ih
        rw [ih]
        rfl

/-! ## The full path -/

theorem lstrip_replicate (n : Nat) (s : Str) : lstripSlash (List.replicate n '/' ++ s) = lstripSlash s := by
  unfold lstripSlash
  induction n with
  | zero => simp
  | succ n ih => simp [List.replicate_succ, ih]

theorem lstrip_joined (pos : List Str) (h : ∀ c ∈ pos, '/' ∉ c ∧ c ≠ []) :
    lstripSlash (joinSlash pos) = joinSlash pos := by
  cases pos with
  | nil => rfl
  | cons w ws =>
    obtain ⟨hw, hn⟩ := h w (by simp)
    obtain ⟨c, w', rfl⟩ : ∃ c w', w = c :: w' := by
      cases w with
      | nil => exact absurd rfl hn
      | cons c w' => exact ⟨c, w', rfl⟩
    have : ∃ r, joinSlash ((c :: w') :: ws) = c :: r := by
      cases ws with
      | nil => exact ⟨w', rfl⟩
      | cons v vs => exact ⟨w' ++ '/' :: joinSlash (v :: vs), rfl⟩
    obtain ⟨r, hr⟩ := this
    rw [hr]
    unfold lstripSlash
    rw [List.dropWhile_cons_of_neg]
    simp only [List.mem_cons, not_or] at hw
    simpa using fun e => hw.1 e.symm

theorem full_absolute (p : Str) : '/' :: lstripSlash (normpath ('/' :: p)) = render (walk (components ('/' :: p))) := by
  unfold normpath
  rw [if_neg (by simp)]
  have hn : initialSlashes ('/' :: p) ≠ 0 := by
    unfold initialSlashes
    split <;> simp_all
  have hb : (initialSlashes ('/' :: p) != 0) = true := by simpa using hn
  have hloop : (normLoop true [] (split ('/' :: p))).reverse = walk (components ('/' :: p)) := by
    rw [← normLoop_filter, ← components_eq]
    exact normLoop_walk _ (fun c hc => (components_ok _ c hc).2) [] (by simp)
  simp only [hb, hloop]
  have hne : List.replicate (initialSlashes ('/' :: p)) '/' ++ joinSlash (walk (components ('/' :: p))) ≠ [] := by
    cases hi : initialSlashes ('/' :: p) with
    | zero => exact absurd hi hn
    | succ n => simp [List.replicate_succ]
  rw [if_neg hne, lstrip_replicate,
    lstrip_joined _ (fun c hc => ⟨(walk_ok _ (components_ok _) c hc).1, (walk_ok _ (components_ok _) c hc).2.1⟩)]
  by_cases hw : walk (components ('/' :: p)) = []
  · rw [hw]; rfl
  · exact join_render _ hw

/-- **C32**: an absolute path is checked as the result of walking its components from the root. -/
theorem C32_absolute (dir p : Str) :
    getFullPath dir ('/' :: p) = render (walk (components ('/' :: p))) :=
  full_absolute p

/-- **C32**: a relative path is checked as the result of walking the components of the base directory
and then its own. -/
theorem C32_relative (d file : Str) (hf : file.head? ≠ some '/') :
    getFullPath ('/' :: d) file = render (walk (components ('/' :: d) ++ components file)) := by
  have hj : join ('/' :: d) file = if ('/' :: d).getLast? = some '/' then '/' :: d ++ file else '/' :: d ++ '/' :: file := by
    unfold join
    cases file with
    | nil => simp
    | cons c r =>
      have hc : c ≠ '/' := by simpa using hf
      split
      · rename_i heq; cases heq; exact absurd rfl hc
      · simp
  have hg : getFullPath ('/' :: d) file = '/' :: lstripSlash (normpath (join ('/' :: d) file)) := by
    unfold getFullPath
    cases file with
    | nil => rfl
    | cons c r =>
      have hc : c ≠ '/' := by simpa using hf
      split
      · rename_i heq; cases heq; exact absurd rfl hc
      · rfl
  rw [hg, hj]
  split
  · rename_i hl
    rw [List.cons_append, full_absolute]
    congr 2
    obtain ⟨a, ha⟩ := List.getLast?_eq_some_iff.1 hl
    rw [← List.cons_append, ha]
    rw [show a ++ ['/'] ++ file = a ++ '/' :: file by simp, components_append_slash, components_append_slash]
    simp [components_nil]
  · rw [List.cons_append, full_absolute, ← List.cons_append, components_append_slash]

/-- A path in canonical form. -/
def Canonical (s : Str) : Prop :=
  ∃ pos : List Str, s = render pos ∧ ∀ c ∈ pos, '/' ∉ c ∧ c ≠ [] ∧ c ≠ ['.'] ∧ c ≠ ['.', '.']

/-- **C32**: the checked path is absolute, with single slashes between names none of which is empty,
`.` or `..`. -/
theorem C32_canonical (dir file : Str) (h : file.head? = some '/' ∨ dir.head? = some '/') :
    Canonical (getFullPath dir file) := by
  by_cases hf : file.head? = some '/'
  · obtain ⟨p, rfl⟩ : ∃ p, file = '/' :: p := by
      cases file with
      | nil => simp at hf
      | cons c p => simp only [List.head?_cons, Option.some.injEq] at hf; exact ⟨p, by rw [hf]⟩
    exact ⟨_, C32_absolute dir p, walk_ok _ (components_ok _)⟩
  · obtain ⟨d, rfl⟩ : ∃ d, dir = '/' :: d := by
      rcases h with h | h
      · exact absurd h hf
      · cases dir with
        | nil => simp at h
        | cons c p => simp only [List.head?_cons, Option.some.injEq] at h; exact ⟨p, by rw [h]⟩
    refine ⟨_, C32_relative d file hf, walk_ok _ ?_⟩
    intro c hc
    rcases List.mem_append.1 hc with hc | hc
    · exact components_ok _ c hc
    · exact components_ok _ c hc

/-- **C32**: canonical paths are left alone, so checking is idempotent. -/
theorem C32_idempotent (dir dir' file : Str) (h : file.head? = some '/' ∨ dir.head? = some '/') :
    getFullPath dir' (getFullPath dir file) = getFullPath dir file := by
  obtain ⟨pos, hp, hok⟩ := C32_canonical dir file h
  rw [hp]
  obtain ⟨r, hr⟩ := render_cons pos
  rw [hr, C32_absolute, ← hr, components_render pos fun c hc => ⟨(hok c hc).1, (hok c hc).2.1⟩,
    walk_clean pos fun c hc => ⟨(hok c hc).2.2.1, (hok c hc).2.2.2⟩]

/-- **C32**: climbing above the root stays at the root: `/../../etc/./passwd` is `/etc/passwd`. -/
example : getFullPath "/w".toList "/../../etc/.//passwd".toList = "/etc/passwd".toList ∧
    getFullPath "//home/u".toList "../x/".toList = "/home/x".toList ∧
    getFullPath "/".toList "".toList = "/".toList := by decide +kernel

/-- **C32 fails** when the base "directory" is not a path (a descriptor of a pipe): `..` can
remain. -/
theorem C32_pipe_fails : ∃ dir file : Str, getFullPath dir file = "/../etc".toList :=
  ⟨"pipe:[1]".toList, "../../etc".toList, by decide +kernel⟩

/-! ## Open flags (C33) -/

theorem and_eq_iff (f m : Nat) : (f &&& m) = m ↔ ∀ i, m.testBit i = true → f.testBit i = true := by
  constructor
  · intro h i hi
    have := congrArg (fun x => Nat.testBit x i) h
    simp only [Nat.testBit_and, hi, Bool.and_true] at this
    exact this
  · intro h
    apply Nat.eq_of_testBit_eq
    intro i
    rw [Nat.testBit_and]
    cases hm : m.testBit i with
    | false => simp
    | true => simp [h i hm]

theorem and_pow (f k : Nat) : ((f &&& 2 ^ k) == 2 ^ k) = f.testBit k := by
  rw [Bool.eq_iff_iff, beq_iff_eq, and_eq_iff]
  constructor
  · intro h; exact h k (Nat.testBit_two_pow_self)
  · intro h i hi
    rw [Nat.testBit_two_pow] at hi
    have : k = i := by simpa using hi
    rw [← this]; exact h

theorem and_tmp (f : Nat) : ((f &&& 4259840) == 4259840) = (f.testBit 16 && f.testBit 22) := by
  rw [Bool.eq_iff_iff, beq_iff_eq, and_eq_iff, Bool.and_eq_true]
  constructor
  · intro h; exact ⟨h 16 (by decide), h 22 (by decide)⟩
  · rintro ⟨h1, h2⟩ i hi
    have hlt : i < 23 := by
      by_contra hge
      have : Nat.testBit 4259840 i = false := Nat.testBit_lt_two_pow (Nat.lt_of_lt_of_le (by decide : 4259840 < 2 ^ 23) (Nat.pow_le_pow_right (by decide) (by omega)))
      rw [this] at hi
      cases hi
    have : ∀ j : Fin 23, Nat.testBit 4259840 j.1 = true → j.1 = 16 ∨ j.1 = 22 := by decide
    rcases this ⟨i, hlt⟩ hi with h | h
    · simp only at h; rw [h]; exact h1
    · simp only at h; rw [h]; exact h2

/-- **C33**: an open request is treated as a write exactly if its access mode is not read-only, or it
asks for creation, exclusive creation, truncation or an unnamed temporary file. -/
theorem C33_write (f : Nat) : isWriteFlags f = true ↔
    (decodeFlags f).accessMode ≠ 0 ∨ (decodeFlags f).create = true ∨ (decodeFlags f).exclusive = true ∨
      (decodeFlags f).truncate = true ∨ (decodeFlags f).tmpfile = true := by
  have e0 := and_pow f 0
  have e1 := and_pow f 1
  have e9 := and_pow f 9
  have e6 := and_pow f 6
  have e7 := and_pow f 7
  simp only [Nat.reducePow] at e0 e1 e9 e6 e7
  simp only [isWriteFlags, writeFlags, List.any_cons, List.any_nil, Bool.or_false, e0, e1, e9, e6, e7, and_tmp,
    Bool.or_eq_true, decodeFlags]
  have hacc : f % 4 ≠ 0 ↔ (f.testBit 0 = true ∨ f.testBit 1 = true) := by
    simp only [Nat.testBit_eq_decide_div_mod_eq, decide_eq_true_eq]
    omega
  rw [hacc]
  tauto

/-- Read-only opens with unrelated flags (O_CLOEXEC, O_DIRECTORY alone) are reads; O_DIRECTORY together
with the other half of O_TMPFILE is a write. -/
example : isWriteFlags 0o2000000 = false ∧ isWriteFlags 0o200000 = false ∧ isWriteFlags 0o20000000 = false ∧
    isWriteFlags 0o20200000 = true ∧ isWriteFlags 3 = true ∧ isWriteFlags 0o1000 = true := by decide

/-! ## Directory descriptors (C40) -/

/-- **C40**: the descriptor is the low 32 bits of the register as a signed number, which is how the
kernel reads an `int` argument. -/
theorem C40_decode (d : BitVec 64) : decodeDirfd d = (d.truncate 32).toInt := by
  unfold decodeDirfd
  have h1 : (d &&& 0x7FFFFFFF#64).toNat = d.toNat % 2 ^ 31 := by
    rw [BitVec.toNat_and]
    exact Nat.and_two_pow_sub_one_eq_mod d.toNat 31
  have h2 : (d &&& 0x80000000#64).toNat = 2 ^ 31 * (d.toNat / 2 ^ 31 % 2) := by
    rw [BitVec.toNat_and]
    change d.toNat &&& 2 ^ 31 = _
    have hp := and_pow d.toNat 31
    rw [Nat.testBit_eq_decide_div_mod_eq] at hp
    by_cases hb : d.toNat / 2 ^ 31 % 2 = 1
    · rw [hb] at hp ⊢
      simpa using hp
    · have hz : d.toNat / 2 ^ 31 % 2 = 0 := by omega
      rw [hz]
      apply Nat.eq_of_testBit_eq
      intro i
      rw [Nat.testBit_and, Nat.testBit_two_pow, Nat.mul_zero, Nat.zero_testBit]
      by_cases hi : 31 = i
      · rw [← hi, Nat.testBit_eq_decide_div_mod_eq, hz]; rfl
      · simp [hi]
  rw [h1, h2, BitVec.truncate_eq_setWidth, BitVec.toInt_eq_toNat_cond, BitVec.toNat_setWidth]
  split <;> omega

/-- **C40**: the current directory is used exactly for `AT_FDCWD` (-100) in any width. -/
theorem C40_cwd (d : BitVec 64) : baseOf d = .cwd ↔ d.truncate 32 = BitVec.ofInt 32 (-100) := by
  unfold baseOf
  rw [C40_decode]
  constructor
  · intro h
    split at h
    · rename_i he
      apply BitVec.eq_of_toInt_eq
      rw [he]
      decide
    · cases h
  · intro h
    rw [h]
    rfl

example : decodeDirfd 0xFFFFFF9C#64 = -100 ∧ decodeDirfd (BitVec.ofInt 64 (-100)) = -100 ∧ decodeDirfd 7#64 = 7 := by
  decide

end Verif.Path
