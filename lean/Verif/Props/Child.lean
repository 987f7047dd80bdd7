import Verif.Spec.Child
import Mathlib.Tactic.Common
import Mathlib.Tactic.SplitIfs

/-!
# C50 Child file descriptors closed; C59 The child's standard streams; C60 Resource limits
-/

namespace Verif.Child
open Verif.Child.Spec

private theorem parseLoop_other : ∀ (name : List Char) (k : Nat), Other name → parseLoop name k = -1 := by
  intro name
  induction name with
  | nil => rintro k ⟨c, hc, _⟩; simp at hc
  | cons x xs ih =>
    rintro k ⟨c, hc, hd⟩
    unfold parseLoop
    split_ifs with hx
    · refine ih _ ⟨c, ?_, hd⟩
      rcases List.mem_cons.1 hc with rfl | h
      · exact absurd hx hd
      · exact h
    · rfl

private theorem parseLoop_digits : ∀ (name : List Char) (k : Nat), (∀ c ∈ name, '0' ≤ c ∧ c ≤ '9') →
    parseLoop name k = (name.foldl (fun n c => n * 10 + (c.toNat - '0'.toNat)) k : Nat) := by
  intro name
  induction name with
  | nil => intro k _; rfl
  | cons x xs ih =>
    intro k h
    unfold parseLoop
    rw [if_pos (h x (by simp)), ih _ (fun c hc => h c (by simp [hc]))]
    rfl

private theorem toDigits_ok (n : Nat) : (∀ c ∈ Nat.toDigits 10 n, '0' ≤ c ∧ c ≤ '9') ∧
    (Nat.toDigits 10 n).foldl (fun n c => n * 10 + (c.toNat - '0'.toNat)) 0 = n := by
  induction n using Nat.strongRecOn with
  | ind n ih =>
    have hd : ∀ d : Fin 10, ('0' ≤ Nat.digitChar d ∧ Nat.digitChar d ≤ '9') ∧ (Nat.digitChar d).toNat - '0'.toNat = d := by decide
    by_cases h : n < 10
    · rw [Nat.toDigits_of_lt_base h]
      obtain ⟨h1, h2⟩ := hd ⟨n, h⟩
      simp only at h1 h2
      refine ⟨by simpa using h1, ?_⟩
      rw [List.foldl_cons, List.foldl_nil, h2, Nat.zero_mul, Nat.zero_add]
    · rw [Nat.toDigits_eq_if (by omega), if_neg h]
      obtain ⟨i1, i2⟩ := ih (n / 10) (by omega)
      obtain ⟨h1, h2⟩ := hd ⟨n % 10, Nat.mod_lt _ (by omega)⟩
      simp only at h1 h2
      constructor
      · intro c hc
        rcases List.mem_append.1 hc with h | h
        · exact i1 c h
        · rw [List.mem_singleton] at h; rw [h]; exact h1
      · rw [List.foldl_append, i2, List.foldl_cons, List.foldl_nil, h2]
        omega

/-- The name parser reads decimal names exactly and rejects every name with another character. -/
theorem C50_names : (∀ n, parse (numeral n) = n) ∧ (∀ name, Other name → parse name = -1) := by
  refine ⟨fun n => ?_, fun name h => parseLoop_other name 0 h⟩
  unfold parse numeral
  rw [parseLoop_digits _ _ (toDigits_ok n).1, (toDigits_ok n).2]

example : Other "..".toList ∧ Other "12a".toList := ⟨⟨'.', by decide, by decide⟩, ⟨'a', by decide, by decide⟩⟩

/-- The parser does not recognise only numerals: the empty name (which no directory contains) is taken
for descriptor 0. -/
theorem C50_empty_fails : ∃ name, (∀ n, name ≠ numeral n) ∧ parse name ≥ 0 := by
  refine ⟨[], fun n h => ?_, by decide⟩
  have := congrArg List.length h
  have hp : 0 < (Nat.toDigits 10 n).length := by
    rw [Nat.toDigits_eq_if (by omega)]
    split_ifs <;> simp
  simp only [numeral, List.length_nil] at this
  omega

private theorem closeBatch_spec (low dir : Nat) : ∀ (names : List (List Char)) (t : Fds),
    (∀ name ∈ names, Other name ∨ ∃ fd, name = numeral fd) → ∀ n,
    closeBatch low dir t names n = if numeral n ∈ names ∧ n ≠ dir ∧ low ≤ n then none else t n := by
  intro names
  induction names with
  | nil => intro t _ n; simp [closeBatch]
  | cons x xs ih =>
    intro t h n
    have step : closeBatch low dir t (x :: xs) = closeBatch low dir
        (if parse x < 0 then t else if parse x ≠ dir ∧ parse x ≥ low then close t (parse x).toNat else t) xs := rfl
    rcases h x (by simp) with ho | ⟨fd, rfl⟩
    · rw [C50_names.2 x ho] at step
      rw [step, if_pos (by decide), ih _ (fun y hy => h y (by simp [hy])) n]
      have : numeral n ≠ x := by
        rintro rfl
        obtain ⟨c, hc, hn⟩ := ho
        exact hn ((toDigits_ok n).1 c hc)
      simp [this]
    · rw [C50_names.1 fd, if_neg (show ¬ ((fd : Int) < 0) by omega)] at step
      have hinj : numeral n = numeral fd ↔ n = fd := by
        constructor
        · intro he
          have := C50_names.1 n
          rw [he, C50_names.1 fd] at this
          omega
        · rintro rfl; rfl
      by_cases hc : (fd : Int) ≠ dir ∧ (fd : Int) ≥ low
      · rw [step, if_pos hc, ih _ (fun y hy => h y (by simp [hy])) n]
        simp only [List.mem_cons, hinj, close, Int.toNat_natCast]
        by_cases hn : n = fd
        · subst hn
          have : n ≠ dir ∧ low ≤ n := ⟨by omega, by omega⟩
          simp [this]
        · simp [hn]
      · rw [step, if_neg hc, ih _ (fun y hy => h y (by simp [hy])) n]
        simp only [List.mem_cons, hinj]
        by_cases hn : n = fd
        · subst hn
          have : ¬ (n ≠ dir ∧ low ≤ n) := by
            rintro ⟨h1, h2⟩; exact hc ⟨by omega, by omega⟩
          by_cases h' : numeral n ∈ xs <;> simp [this]
        · simp [hn]

private theorem loop_spec (low dir : Nat) (t : Fds) (pos : Nat) (t' : Fds) (h : Loop low dir t pos t') :
    (∀ n, pos ≤ n → low ≤ n → n ≠ dir → t' n = none) ∧ (∀ n, (n < pos ∨ n < low ∨ n = dir) → t' n = t n) := by
  induction h with
  | done t pos hd => exact ⟨fun n h _ _ => hd n h, fun n _ => rfl⟩
  | more t pos pos' names t' hr hl ih =>
    have hb := closeBatch_spec low dir names t (fun name hn => by
      rcases hr.only name hn with h | ⟨fd, h, _⟩
      · exact .inl h
      · exact .inr ⟨fd, h⟩)
    constructor
    · intro n hp hlow hdir
      by_cases hn : pos' ≤ n
      · exact ih.1 n hn hlow hdir
      · rw [ih.2 n (.inl (by omega)), hb n]
        by_cases ho : t n = none
        · simp [ho]
        · rw [if_pos ⟨hr.all n hp (by omega) ho, hdir, hlow⟩]
    · intro n h
      rw [ih.2 n (by
        rcases h with h | h | h
        · have := hr.mono; exact .inl (by omega)
        · exact .inr (.inl h)
        · exact .inr (.inr h)), hb n]
      rw [if_neg]
      rintro ⟨hm, hd, hl⟩
      rcases h with h | h | h
      · rcases hr.only _ hm with ho | ⟨fd, he, h1, _, _⟩
        · obtain ⟨c, hc, hn⟩ := ho
          exact hn ((toDigits_ok n).1 c hc)
        · have := C50_names.1 n
          rw [he, C50_names.1 fd] at this
          omega
      · omega
      · exact hd h

/-- Whatever way the kernel hands out the directory, afterwards no descriptor from `low` on is open and
the others are as before. -/
theorem C50_closefrom (low : Nat) (t t' : Fds) (h : CloseFrom low t t') :
    (∀ n, low ≤ n → t' n = none) ∧ (∀ n, n < low → t' n = t n) := by
  obtain ⟨dir, f, hd, t1, hl, rfl⟩ := h
  obtain ⟨h1, h2⟩ := loop_spec low dir _ 0 t1 hl
  constructor
  · intro n hn
    by_cases hdir : n = dir
    · simp [close, hdir]
    · simp only [close, hdir, if_false]
      exact h1 n (by omega) hn hdir
  · intro n hn
    by_cases hdir : n = dir
    · simp [close, hdir, hd]
    · simp only [close, hdir, if_false]
      rw [h2 n (.inr (.inl hn))]
      simp [hdir]

/-- A run: descriptors 0, 1, 2, 5, 9 open; the directory gets 3; reads of one and of several entries. -/
example : ∃ t', CloseFrom 3 (fun n => if n ∈ [0, 1, 2, 5, 9] then some n else none) t' := by
  refine ⟨_, 3, 77, by decide, _, .more _ 0 6 [".".toList, "..".toList, numeral 0, numeral 1, numeral 2, numeral 3, numeral 5] _ ?_
    (.more _ 6 10 [numeral 9] _ ?_ (.done _ _ ?_)), rfl⟩
  · refine ⟨?_, ?_, by decide⟩
    · intro name hn
      simp only [List.mem_cons, List.not_mem_nil, or_false] at hn
      rcases hn with rfl | rfl | rfl | rfl | rfl | rfl | rfl
      · exact .inl ⟨'.', by decide, by decide⟩
      · exact .inl ⟨'.', by decide, by decide⟩
      all_goals exact .inr ⟨_, rfl, by decide, by decide, by decide⟩
    · intro fd _ h1 h2
      have : fd = 0 ∨ fd = 1 ∨ fd = 2 ∨ fd = 3 ∨ fd = 4 ∨ fd = 5 := by omega
      rcases this with rfl | rfl | rfl | rfl | rfl | rfl <;> simp at h2 ⊢
  · have hb := closeBatch_spec 3 3 [".".toList, "..".toList, numeral 0, numeral 1, numeral 2, numeral 3, numeral 5]
      (fun n => if n = 3 then some 77 else if n ∈ [0, 1, 2, 5, 9] then some n else none) (by
      intro name hn
      simp only [List.mem_cons, List.not_mem_nil, or_false] at hn
      rcases hn with rfl | rfl | rfl | rfl | rfl | rfl | rfl
      · exact .inl ⟨'.', by decide, by decide⟩
      · exact .inl ⟨'.', by decide, by decide⟩
      all_goals exact .inr ⟨_, rfl⟩)
    refine ⟨?_, ?_, by decide⟩
    · intro name hn
      simp only [List.mem_cons, List.not_mem_nil, or_false] at hn
      subst hn
      exact .inr ⟨9, rfl, by decide, by decide, by rw [hb]; decide⟩
    · intro fd h0 h1 h2
      rw [hb] at h2
      have : fd = 6 ∨ fd = 7 ∨ fd = 8 ∨ fd = 9 := by omega
      rcases this with rfl | rfl | rfl | rfl <;> first | (exfalso; revert h2; decide) | simp
  · intro fd h
    rw [closeBatch_spec 3 3 [numeral 9] _ (by
      intro name hn; rw [List.mem_singleton] at hn; exact .inr ⟨9, hn⟩)]
    split_ifs with hc
    · rfl
    · rw [closeBatch_spec 3 3 _ _ (by
        intro name hn
        simp only [List.mem_cons, List.not_mem_nil, or_false] at hn
        rcases hn with rfl | rfl | rfl | rfl | rfl | rfl | rfl
        · exact .inl ⟨'.', by decide, by decide⟩
        · exact .inl ⟨'.', by decide, by decide⟩
        all_goals exact .inr ⟨_, rfl⟩)]
      have h3 : fd ≠ 3 := by omega
      have h4 : fd ∉ [0, 1, 2, 5, 9] := by simp; omega
      split_ifs
      · rfl
      · simp only [h4, if_false]

/-- The fallback closes everything up to the descriptor limit. -/
theorem C50_brute_partial (low max : Nat) (t : Fds) :
    (∀ n, low ≤ n → n ≤ max → closeBrute low max t n = none) ∧ (∀ n, (n < low ∨ max < n) → closeBrute low max t n = t n) := by
  have key : ∀ (l : List Nat) (t : Fds) (n : Nat), l.foldl close t n = if n ∈ l then none else t n := by
    intro l
    induction l with
    | nil => simp
    | cons x xs ih =>
      intro t n
      rw [List.foldl_cons, ih]
      by_cases h : n = x <;> by_cases h' : n ∈ xs <;> simp [close, h, h']
  constructor
  · intro n h1 h2
    unfold closeBrute
    rw [key, if_pos (by rw [List.mem_range'_1]; omega)]
  · intro n h
    unfold closeBrute
    rw [key, if_neg (by rw [List.mem_range'_1]; omega)]

/-- The fallback misses descriptors above the limit (opened before it was lowered). -/
theorem C50_brute_fails : ∃ (t : Fds) (n : Nat), 3 ≤ n ∧ closeBrute 3 1024 t n ≠ none := by
  refine ⟨fun _ => some 1, 2000, by omega, ?_⟩
  rw [(C50_brute_partial 3 1024 _).2 2000 (by omega)]
  simp

/-! ## C59 -/

private theorem dup2_at (t : Fds) (a b n : Nat) (h : t a ≠ none) : dup2 t a b n = if n = b then t a else t n := by
  unfold dup2
  cases h' : t a with
  | none => exact absurd h' h
  | some f => rfl

/-- The child's standard streams are the ones asked for (or inherited where none was), provided no
requested stream sits on a descriptor an earlier `dup2` has overwritten; everything from 3 on is left
alone. Missing: such requests, see `C59_clobber_fails`. -/
theorem C59_streams_partial (t : Fds) (i o e : Int) (hi : i ≥ 0 → t i.toNat ≠ none) (ho : o ≥ 0 → t o.toNat ≠ none)
    (he : e ≥ 0 → t e.toNat ≠ none) (h1 : o ≠ 0) (h2 : e ≠ 0 ∧ e ≠ 1) :
    streams t i o e 0 = (if i ≥ 0 then t i.toNat else t 0) ∧
    streams t i o e 1 = (if o ≥ 0 then t o.toNat else t 1) ∧
    streams t i o e 2 = (if e ≥ 0 then t e.toNat else t 2) ∧
    ∀ n, 3 ≤ n → streams t i o e n = t n := by
  have d0 : ∀ n, dupIf t i 0 n = if n = 0 then (if i ≥ 0 then t i.toNat else t 0) else t n := by
    intro n
    unfold dupIf
    split_ifs with hh hn hn
    · rw [dup2_at t _ _ _ (hi hh)]; simp [hn]
    · rw [dup2_at t _ _ _ (hi hh)]; simp [hn]
    · rw [hn]
    · rfl
  have d1 : ∀ n, dupIf (dupIf t i 0) o 1 n = if n = 1 then (if o ≥ 0 then t o.toNat else t 1) else dupIf t i 0 n := by
    intro n
    show (if o ≥ 0 then dup2 (dupIf t i 0) o.toNat 1 else dupIf t i 0) n = _
    by_cases hh : o ≥ 0
    · have hz : dupIf t i 0 o.toNat = t o.toNat := by rw [d0, if_neg (by omega)]
      rw [if_pos hh, if_pos hh, dup2_at _ _ _ _ (by rw [hz]; exact ho hh), hz]
    · rw [if_neg hh, if_neg hh]
      by_cases hn : n = 1
      · rw [if_pos hn, hn, d0]; simp
      · rw [if_neg hn]
  have d2 : ∀ n, streams t i o e n = if n = 2 then (if e ≥ 0 then t e.toNat else t 2) else dupIf (dupIf t i 0) o 1 n := by
    intro n
    show (if e ≥ 0 then dup2 (dupIf (dupIf t i 0) o 1) e.toNat 2 else dupIf (dupIf t i 0) o 1) n = _
    by_cases hh : e ≥ 0
    · have hz : dupIf (dupIf t i 0) o 1 e.toNat = t e.toNat := by
        rw [d1, if_neg (by omega), d0, if_neg (by omega)]
      rw [if_pos hh, if_pos hh, dup2_at _ _ _ _ (by rw [hz]; exact he hh), hz]
    · rw [if_neg hh, if_neg hh]
      by_cases hn : n = 2
      · rw [if_pos hn, hn, d1, if_neg (by omega), d0, if_neg (by omega)]
      · rw [if_neg hn]
  refine ⟨?_, ?_, ?_, ?_⟩
  · rw [d2, if_neg (by omega), d1, if_neg (by omega), d0, if_pos rfl]
  · rw [d2, if_neg (by omega), d1, if_pos rfl]
  · rw [d2, if_pos rfl]
  · intro n hn
    rw [d2, if_neg (by omega), d1, if_neg (by omega), d0, if_neg (by omega)]

/-- With all three redirected and the rest closed, the submission starts with exactly its three
streams. -/
theorem C59_only (t t' : Fds) (i o e : Int) (hi : 0 ≤ i ∧ t i.toNat ≠ none) (ho : 1 ≤ o ∧ t o.toNat ≠ none)
    (he : 2 ≤ e ∧ t e.toNat ≠ none) (h : CloseFrom 3 (streams t i o e) t') (n : Nat) :
    t' n = if n = 0 then t i.toNat else if n = 1 then t o.toNat else if n = 2 then t e.toNat else none := by
  obtain ⟨h0, h1, h2, _⟩ := C59_streams_partial t i o e (fun _ => hi.2) (fun _ => ho.2) (fun _ => he.2) (by omega) (by omega)
  obtain ⟨c1, c2⟩ := C50_closefrom 3 _ _ h
  rw [if_pos hi.1] at h0
  rw [if_pos (by omega)] at h1 h2
  by_cases hn : n < 3
  · rw [c2 n hn]
    have : n = 0 ∨ n = 1 ∨ n = 2 := by omega
    rcases this with rfl | rfl | rfl
    · simpa using h0
    · simpa using h1
    · simpa using h2
  · rw [c1 n (by omega), if_neg (by omega), if_neg (by omega), if_neg (by omega)]

/-- Asking for the parent's standard input as output after redirecting input gives the new input. -/
theorem C59_clobber_fails : ∃ (t : Fds) (i o : Int), t i.toNat ≠ none ∧ t o.toNat ≠ none ∧
    streams t i o (-1) 1 ≠ t o.toNat := by
  refine ⟨fun n => some n, 5, 0, by simp, by simp, by decide⟩

/-! ## C60 -/

/-- Memory and processor limits are imposed exactly when a memory (time) limit is given; the kernel's
limits leave room above the accounted ones, so that crossing the accounted limit is what is reported. -/
theorem C60_limits (a : Ask) :
    (∀ s h, (Res.as, s, h) ∈ limits (configure a) ↔
      a.memory ≠ 0 ∧ s = some ((a.memory + a.addressGrace) * 1024) ∧ h = s) ∧
    (∀ s h, (Res.data, s, h) ∈ limits (configure a) ↔
      a.memory + a.dataGrace ≠ 0 ∧ s = some ((a.memory + a.dataGrace) * 1024) ∧ h = s) ∧
    (∀ s h, (Res.cpu, s, h) ∈ limits (configure a) ↔ a.time ≠ 0 ∧ s = some (a.time + 5) ∧ h = some (a.time + 6)) ∧
    (∀ s h, (Res.core, s, h) ∈ limits (configure a) ↔ s = some 0 ∧ h = some 0) := by
  refine ⟨?_, ?_, ?_, ?_⟩ <;> intro s h <;> simp only [limits, configure]
  · by_cases hm : a.memory = 0
    · simp only [hm]
      split_ifs <;> simp_all
    · have : a.memory * 1024 + a.addressGrace * 1024 = (a.memory + a.addressGrace) * 1024 := by omega
      have h0 : (a.memory + a.addressGrace) * 1024 ≠ 0 := by omega
      simp only [hm, ne_eq, not_false_eq_true, if_true, this, h0]
      split_ifs <;> simp <;> (intro hs; rw [hs])
  · have : a.memory * 1024 + a.dataGrace * 1024 = (a.memory + a.dataGrace) * 1024 := by omega
    simp only [this]
    by_cases hm : a.memory + a.dataGrace = 0
    · simp only [hm]
      split_ifs <;> simp_all
    · have h0 : (a.memory + a.dataGrace) * 1024 ≠ 0 := by omega
      simp only [hm, ne_eq, not_false_eq_true, if_true, h0]
      split_ifs <;> simp <;> (intro hs; rw [hs])
  · by_cases hm : a.time = 0
    · simp only [hm]
      split_ifs <;> simp_all
    · simp only [hm, ne_eq, not_false_eq_true, if_true]
      split_ifs <;> simp <;> omega
  · split_ifs <;> simp

/-- The process and file-size limits are imposed exactly when they are not negative; zero (the default)
forbids new threads and any file growth. -/
theorem C60_nproc (a : Ask) :
    (∀ s h, (Res.nproc, s, h) ∈ limits (configure a) ↔ a.nproc ≥ 0 ∧ s = some a.nproc.toNat ∧ h = s) ∧
    (∀ s h, (Res.fsize, s, h) ∈ limits (configure a) ↔ a.fsize ≥ 0 ∧ s = some a.fsize.toNat ∧ h = s) := by
  refine ⟨?_, ?_⟩ <;> intro s h <;> simp only [limits, configure]
  · by_cases hn : a.nproc ≥ 0
    · simp only [hn, if_true]
      split_ifs <;> simp <;> (intro hs; rw [hs])
    · simp only [hn, if_false]
      split_ifs <;> simp
  · by_cases hn : a.fsize ≥ 0
    · simp only [hn, if_true]
      split_ifs <;> simp <;> (intro hs; rw [hs])
    · simp only [hn, if_false]
      split_ifs <;> simp

example : limits (configure { time := 2, memory := 65536, addressGrace := 65536, dataGrace := 0, nproc := 0, fsize := 0 }) =
    [(.as, some 134217728, some 134217728), (.data, some 67108864, some 67108864), (.cpu, some 7, some 8),
     (.nproc, some 0, some 0), (.fsize, some 0, some 0), (.stack, none, none), (.core, some 0, some 0)] := by decide

/-- The default wall-time limit is three times the time limit. -/
theorem C60_wall (a : Ask) : (configure a).wall = a.wall.getD (a.time * 3) := by
  unfold configure
  cases a.wall <;> rfl

end Verif.Child
