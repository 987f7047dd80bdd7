import Verif.Model.ReadStr
import Verif.Spec.ReadStr
import Mathlib.Tactic.ByContra

/-!
# Strings read from the child (C38, C39)
-/

namespace Verif.ReadStr

theorem chunk_length (m : Mem) (a n : Nat) : (chunk m a n).length = n := by simp [chunk]

theorem chunk_get (m : Mem) (a n i : Nat) (h : i < (chunk m a n).length) : (chunk m a n)[i] = m.byte (a + i) := by
  simp [chunk]

theorem chunk_add (m : Mem) (a n k : Nat) : chunk m a n ++ chunk m (a + n) k = chunk m a (n + k) := by
  apply List.ext_getElem
  · simp [chunk_length]
  · intro i h1 h2
    rw [List.getElem_append]
    split
    · rw [chunk_get, chunk_get]
    · rw [chunk_get, chunk_get, chunk_length]
      rename_i h
      rw [chunk_length] at h
      congr 1; omega

theorem chunk_take (m : Mem) (a n k : Nat) (h : k ≤ n) : (chunk m a n).take k = chunk m a k := by
  apply List.ext_getElem
  · simp [chunk_length]; omega
  · intro i h1 h2
    rw [List.getElem_take, chunk_get, chunk_get]

theorem zero_mem_chunk (m : Mem) (a n : Nat) : 0 ∈ chunk m a n ↔ ∃ i, i < n ∧ m.byte (a + i) = 0 := by
  simp [chunk, List.mem_map, List.mem_range]

theorem cstr_spec (m : Mem) (a k : Nat) (hk : ∀ i, i < k → m.byte (a + i) ≠ 0) : ∀ r, cstr (chunk m a k ++ 0 :: r) = chunk m a k := by
  intro r
  unfold cstr
  rw [List.takeWhile_append_of_pos]
  · simp
  · intro b hb
    simp only [chunk, List.mem_map, List.mem_range] at hb
    obtain ⟨i, hi, rfl⟩ := hb
    simpa using hk i hi

/-- Length of the string, if its end is below `n`. -/
theorem first_zero (m : Mem) (a n : Nat) (h : ∃ i, i < n ∧ m.byte (a + i) = 0) :
    ∃ k, k < n ∧ m.byte (a + k) = 0 ∧ ∀ i, i < k → m.byte (a + i) ≠ 0 := by
  obtain ⟨i, hi, hz⟩ := h
  induction i using Nat.strongRecOn with
  | _ i ih =>
    by_cases hlt : ∃ j, j < i ∧ m.byte (a + j) = 0
    · obtain ⟨j, hj, hjz⟩ := hlt
      exact ih j hj (by omega) hjz
    · exact ⟨i, hi, hz, fun j hj hz => hlt ⟨j, hj, hz⟩⟩

theorem chunk_split (m : Mem) (a n k : Nat) (hk : k < n) (hz : m.byte (a + k) = 0) :
    ∃ r, chunk m a n = chunk m a k ++ 0 :: r := by
  have h1 := chunk_add m a k (1 + (n - k - 1))
  rw [← chunk_add m (a + k) 1 (n - k - 1)] at h1
  rw [show k + (1 + (n - k - 1)) = n by omega] at h1
  refine ⟨chunk m (a + k + 1) (n - k - 1), ?_⟩
  rw [← h1]
  simp [chunk, hz]

theorem cstr_chunk (m : Mem) (a n k : Nat) (hk : k < n) (hz : m.byte (a + k) = 0) (hn : ∀ i, i < k → m.byte (a + i) ≠ 0) :
    cstr (chunk m a n) = chunk m a k := by
  obtain ⟨r, hr⟩ := chunk_split m a n k hk hz
  rw [hr, cstr_spec m a k hn]

/-- What a routine may return: the exact string, or (if there is no zero byte among the first `max`
bytes) something of at least `max` bytes. -/
def Good (m : Mem) (max a : Nat) (out : Option (List UInt8)) : Prop :=
  ∀ s, out = some s → StringAt m.byte a s ∨ (max ≤ s.length ∧ ∀ i, i < max → m.byte (a + i) ≠ 0)

theorem string_chunk (m : Mem) (a k : Nat) (hz : m.byte (a + k) = 0) (hn : ∀ i, i < k → m.byte (a + i) ≠ 0) :
    StringAt m.byte a (chunk m a k) := by
  refine ⟨?_, ?_, ?_⟩
  · intro i h; exact chunk_get m a k i h
  · intro i h; rw [chunk_length] at h; exact hn i h
  · rw [chunk_length]; exact hz

theorem good_found (m : Mem) (max a n : Nat) (h : 0 ∈ chunk m a n) : Good m max a (some (cstr (chunk m a n))) := by
  intro s hs
  cases hs
  obtain ⟨k, hk, hz, hn⟩ := first_zero m a n ((zero_mem_chunk m a n).1 h)
  rw [cstr_chunk m a n k hk hz hn]
  exact .inl (string_chunk m a k hz hn)

theorem good_cut (m : Mem) (max a n : Nat) (hle : max ≤ n) (h : ∀ i, i < n → m.byte (a + i) ≠ 0) :
    Good m max a (some (cstr ((chunk m a n).take max ++ [0]))) := by
  intro s hs
  cases hs
  have hm : ∀ i, i < max → m.byte (a + i) ≠ 0 := fun i hi => h i (by omega)
  rw [chunk_take m a n max hle, cstr_spec m a max hm []]
  exact .inr ⟨Nat.le_of_eq (chunk_length m a max).symm, hm⟩

/-- Reading words: with the limit used by the judge (4097) the result is good. -/
theorem peekLoop_good (m : Mem) (a : Nat) : ∀ (fuel read size : Nat) (w : List (Nat × Nat × Nat)),
    (∀ i, i < read → m.byte (a + i) ≠ 0) → (size = 4096 ∧ read ≤ 4096 ∨ size = 4098 ∧ read = 4104) → read % 8 = 0 →
    Good m 4097 a (peekLoop m 4097 a fuel read size (chunk m a read) w).1 := by
  intro fuel
  induction fuel with
  | zero => intro read size w _ _ _ s hs; simp [peekLoop] at hs
  | succ fuel ih =>
    intro read size w hn hsz hmod
    unfold peekLoop
    split
    · rename_i h
      apply good_cut
      · omega
      · exact hn
    · rename_i h
      simp only
      split
      · rw [chunk_add]
        split
        · rename_i hz
          apply good_found
          rw [← chunk_add]
          exact List.mem_append_right _ hz
        · rename_i hz
          refine ih _ _ _ ?_ ?_ (by omega)
          · intro i hi
            by_cases hr : i < read
            · exact hn i hr
            · intro hb
              apply hz
              rw [zero_mem_chunk]
              exact ⟨i - read, by omega, by rw [show a + read + (i - read) = a + i by omega]; exact hb⟩
          · split <;> (try split) <;> omega
      · intro s hs; cases hs

theorem peekdata_good (m : Mem) (a : Nat) : Good m 4097 a (peekdata m 4097 a).1 := by
  unfold peekdata
  split
  · intro s hs; cases hs
  · exact peekLoop_good m a _ 0 4096 [] (by omega) (by omega) (by omega)

theorem vmLoop_good (m : Mem) (P a : Nat) : ∀ (k read remain : Nat) (w : List (Nat × Nat × Nat)), 4097 - read = k →
    (∀ i, i < read → m.byte (a + i) ≠ 0) →
    Good m 4097 a (vmLoop m P 4097 a read remain (chunk m a read) w).out := by
  intro k
  induction k using Nat.strongRecOn with
  | _ k ih =>
    intro read remain w hk hn
    unfold vmLoop
    split
    · rename_i hlt
      split
      · rename_i hr
        simp only
        rw [chunk_add]
        split
        · rename_i hz
          apply good_found
          rw [← chunk_add]
          exact List.mem_append_right _ hz
        · rename_i hz
          refine ih _ (by omega) (read + remain) _ _ rfl ?_
          intro i hi
          by_cases hrd : i < read
          · exact hn i hrd
          · intro hb
            apply hz
            rw [zero_mem_chunk]
            exact ⟨i - read, by omega, by rw [show a + read + (i - read) = a + i by omega]; exact hb⟩
      · exact peekdata_good m a
    · apply good_cut
      · omega
      · exact hn

theorem readstr_good (m : Mem) (P : Nat) (usePeek : Bool) (a : Nat) : Good m 4097 a (readstr m P 4097 usePeek a).out := by
  unfold readstr
  split
  · intro s hs; cases hs
  · split
    · exact peekdata_good m a
    · exact vmLoop_good m P a _ 0 _ [] rfl (by omega)

/-- The address that is read. -/
def effective (is32 : Bool) (address : Nat) : Nat := if is32 then address % 2 ^ 32 else address

/-- **C38**: a string handed on is exactly the string at the address, of at most 4096 bytes — whatever
the page size, whichever reads the kernel grants or refuses, in both reading modes. -/
theorem C38_exact (m : Mem) (P : Nat) (usePeek is32 : Bool) (address : Nat) (s : List UInt8)
    (h : readstrPy m P usePeek is32 address = .text s) :
    StringAt m.byte (effective is32 address) s ∧ s.length ≤ 4096 ∧ effective is32 address ≠ 0 := by
  unfold readstrPy at h
  have he : (if is32 = true then address % 4294967296 else address) = effective is32 address := rfl
  rw [he] at h
  simp only [Nat.reduceAdd] at h
  have hg := readstr_good m P usePeek (effective is32 address)
  split at h
  · cases h
  · rename_i t ht
    split at h
    · cases h
    · rename_i hl
      cases h
      refine ⟨?_, by omega, ?_⟩
      · rcases hg s ht with hs | hs
        · exact hs
        · omega
      · intro h0
        rw [h0] at ht
        simp [readstr] at ht

theorem string_unique (byte : Nat → UInt8) (a : Nat) (s t : List UInt8) (hs : StringAt byte a s) (ht : StringAt byte a t) : s = t := by
  have hl : s.length = t.length := by
    rcases Nat.lt_trichotomy s.length t.length with h | h | h
    · exact absurd hs.nul (ht.nonzero _ h)
    · exact h
    · exact absurd ht.nul (hs.nonzero _ h)
  apply List.ext_getElem hl
  intro i h1 h2
  rw [hs.bytes i h1, ht.bytes i h2]

/-- **C38**: a path reported as too long really has more than 4096 bytes before its zero byte. -/
theorem C38_too_long (m : Mem) (P : Nat) (usePeek is32 : Bool) (address : Nat)
    (h : readstrPy m P usePeek is32 address = .tooLong) :
    ∀ s, StringAt m.byte (effective is32 address) s → 4096 < s.length := by
  unfold readstrPy at h
  have he : (if is32 = true then address % 4294967296 else address) = effective is32 address := rfl
  rw [he] at h
  simp only [Nat.reduceAdd] at h
  have hg := readstr_good m P usePeek (effective is32 address)
  split at h
  · cases h
  · rename_i t ht
    split at h
    · rename_i hl
      intro s hs
      rcases hg t ht with hst | ⟨_, hn⟩
      · rw [string_unique _ _ _ _ hs hst]; exact hl
      · by_contra hle
        exact hn s.length (by omega) hs.nul
    · cases h

/-! ## Nothing readable is refused -/

/-- Every read inside one page that holds a part of the string is granted. -/
def PagesReadable (m : Mem) (P a len : Nat) : Prop :=
  ∀ b n, 0 < n → b / P = (b + n - 1) / P → (∃ i, i ≤ len ∧ (a + i) / P = b / P) → m.vmOk b n = true

theorem vmLoop_complete (m : Mem) (P a : Nat) (hP : 0 < P) (s : List UInt8) (hs : StringAt m.byte a s) (hlen : s.length ≤ 4096)
    (hp : PagesReadable m P a s.length) :
    ∀ (k read remain : Nat) (w : List (Nat × Nat × Nat)), 4097 - read = k → read ≤ s.length → 0 < remain →
      (a + read) / P = (a + read + remain - 1) / P → ((a + read + remain) % P = 0 ∨ 4097 ≤ read + remain) →
      (vmLoop m P 4097 a read remain (chunk m a read) w).out = some s := by
  intro k
  induction k using Nat.strongRecOn with
  | _ k ih =>
    intro read remain w hk hread hrem hpage halign
    unfold vmLoop
    rw [if_pos (by omega), if_pos ⟨hrem, hp _ _ hrem hpage ⟨read, hread, rfl⟩⟩]
    simp only
    rw [chunk_add]
    split
    · rename_i hz
      obtain ⟨i, hi, hzi⟩ := (zero_mem_chunk m _ _).1 hz
      have hmem : 0 ∈ chunk m a (read + remain) := by
        rw [← chunk_add]; exact List.mem_append_right _ hz
      have := good_found m 4097 a (read + remain) hmem
      have hk2 : s.length < read + remain := by
        by_contra hge
        exact hs.nonzero (read + i) (by omega) (by rw [← Nat.add_assoc]; exact hzi)
      obtain ⟨k', hk', hz', hn'⟩ := first_zero m a (read + remain) ((zero_mem_chunk m a _).1 hmem)
      simp only
      rw [cstr_chunk m a _ k' hk' hz' hn']
      rw [string_unique _ _ _ _ (string_chunk m a k' hz' hn') hs]
    · rename_i hz
      have hge : read + remain ≤ s.length := by
        by_contra hlt
        apply hz
        rw [zero_mem_chunk]
        refine ⟨s.length - read, by omega, ?_⟩
        rw [show a + read + (s.length - read) = a + s.length by omega]
        exact hs.nul
      have hmodz : (a + read + remain) % P = 0 := by
        rcases halign with h | h
        · exact h
        · omega
      refine ih _ (by omega) _ _ _ rfl hge (by omega) ?_ ?_
      · obtain ⟨q, hq⟩ := Nat.dvd_of_mod_eq_zero hmodz
        have hmin : min P (4097 - (read + remain)) ≤ P := Nat.min_le_left _ _
        have hpos : 0 < min P (4097 - (read + remain)) := by omega
        rw [show a + (read + remain) = P * q by omega]
        rw [Nat.mul_div_cancel_left q hP]
        symm
        rw [Nat.div_eq_iff hP]
        constructor
        · rw [Nat.mul_comm]; omega
        · rw [Nat.mul_comm]; omega
      · rcases Nat.le_total P (4097 - (read + remain)) with h | h
        · left
          rw [Nat.min_eq_left h, show a + (read + remain) + P = a + read + remain + P by omega, Nat.add_mod_right]
          exact hmodz
        · right
          rw [Nat.min_eq_right h]; omega

/-- **C38**: a string of at most 4096 bytes lying in readable pages is always read (page reads). -/
theorem C38_complete (m : Mem) (P : Nat) (hP : 0 < P) (is32 : Bool) (address : Nat) (s : List UInt8)
    (h0 : effective is32 address ≠ 0) (hs : StringAt m.byte (effective is32 address) s) (hlen : s.length ≤ 4096)
    (hp : PagesReadable m P (effective is32 address) s.length) :
    readstrPy m P false is32 address = .text s := by
  unfold readstrPy
  have he : (if is32 = true then address % 4294967296 else address) = effective is32 address := rfl
  rw [he]
  simp only [Nat.reduceAdd]
  have hout : (readstr m P 4097 false (effective is32 address)).out = some s := by
    unfold readstr
    rw [if_neg h0]
    simp only [Bool.false_eq_true, if_false]
    generalize effective is32 address = a at *
    have hdm := Nat.div_add_mod a P
    have hlt := Nat.mod_lt a hP
    have hd : (a + P) / P * P = P * (a / P) + P := by
      rw [Nat.add_div_right _ hP, Nat.succ_mul, Nat.mul_comm]
    refine vmLoop_complete m P a hP s hs hlen hp _ 0 _ [] rfl (by omega) (by omega) ?_ ?_
    · rw [hd]
      symm
      have : a + 0 + (P * (a / P) + P - a) - 1 = P * (a / P) + (P - 1) := by omega
      rw [this, Nat.mul_add_div hP, Nat.div_eq_of_lt (show P - 1 < P from Nat.sub_lt hP Nat.one_pos)]
      simp
    · left
      rw [hd, show a + 0 + (P * (a / P) + P - a) = P * (a / P) + P by omega]
      simp
  rw [hout]
  simp only
  rw [if_neg (by omega)]

theorem peekLoop_complete (m : Mem) (a : Nat) (s : List UInt8) (hs : StringAt m.byte a s) (hlen : s.length ≤ 4096)
    (hp : ∀ k, 8 * k ≤ s.length → m.peekOk (a + 8 * k) = true) :
    ∀ (fuel read : Nat) (w : List (Nat × Nat × Nat)), s.length < read + 8 * fuel → read ≤ s.length → read % 8 = 0 →
      (peekLoop m 4097 a fuel read 4096 (chunk m a read) w).1 = some s := by
  intro fuel
  induction fuel with
  | zero => intro read w h1 h2; omega
  | succ fuel ih =>
    intro read w hf hread hmod
    unfold peekLoop
    rw [if_neg (by omega)]
    simp only
    have hpk : m.peekOk (a + read) = true := by
      have := hp (read / 8) (by omega)
      rwa [show 8 * (read / 8) = read by omega] at this
    rw [if_pos hpk, chunk_add]
    split
    · rename_i hz
      obtain ⟨i, hi, hzi⟩ := (zero_mem_chunk m _ _).1 hz
      have hmem : 0 ∈ chunk m a (read + 8) := by
        rw [← chunk_add]; exact List.mem_append_right _ hz
      obtain ⟨k', hk', hz', hn'⟩ := first_zero m a (read + 8) ((zero_mem_chunk m a _).1 hmem)
      simp only
      rw [cstr_chunk m a _ k' hk' hz' hn']
      rw [string_unique _ _ _ _ (string_chunk m a k' hz' hn') hs]
    · rename_i hz
      have hge : read + 8 ≤ s.length := by
        by_contra hlt
        apply hz
        rw [zero_mem_chunk]
        refine ⟨s.length - read, by omega, ?_⟩
        rw [show a + read + (s.length - read) = a + s.length by omega]
        exact hs.nul
      rw [if_neg (by omega : ¬ (read + 8 > 4096))]
      exact ih _ _ (by omega) hge (by omega)

/-- **C38**: the same for word reads, provided every word up to the one with the zero byte can be
read. -/
theorem C38_complete_words (m : Mem) (P : Nat) (is32 : Bool) (address : Nat) (s : List UInt8)
    (h0 : effective is32 address ≠ 0) (hs : StringAt m.byte (effective is32 address) s) (hlen : s.length ≤ 4096)
    (hp : ∀ k, 8 * k ≤ s.length → m.peekOk (effective is32 address + 8 * k) = true) :
    readstrPy m P true is32 address = .text s := by
  unfold readstrPy
  have he : (if is32 = true then address % 4294967296 else address) = effective is32 address := rfl
  rw [he]
  simp only [Nat.reduceAdd]
  have hout : (readstr m P 4097 true (effective is32 address)).out = some s := by
    unfold readstr peekdata
    rw [if_neg h0, if_pos rfl, if_neg h0]
    exact peekLoop_complete m _ s hs hlen hp _ 0 [] (by omega) (by omega) (by omega)
  rw [hout]
  simp only
  rw [if_neg (by omega)]

theorem peekLoop_answers (m : Mem) (a : Nat) (hp : ∀ b, m.peekOk b = true) :
    ∀ (fuel read size : Nat) (buf : List UInt8) (w : List (Nat × Nat × Nat)),
      (size = 4096 ∧ read ≤ 4096 ∨ size = 4098 ∧ read = 4104) → read % 8 = 0 → 4104 < read + 8 * fuel →
      (peekLoop m 4097 a fuel read size buf w).1 ≠ none := by
  intro fuel
  induction fuel with
  | zero => intro read size buf w h1 _ h2; omega
  | succ fuel ih =>
    intro read size buf w hsz hmod hf
    unfold peekLoop
    split
    · simp
    · rename_i h
      simp only
      rw [if_pos (hp _)]
      split
      · simp
      · refine ih _ _ _ _ ?_ (by omega) (by omega)
        split <;> (try split) <;> omega

theorem vmLoop_answers (m : Mem) (P a : Nat) (hpk : (peekdata m 4097 a).1 ≠ none) :
    ∀ (k read remain : Nat) (buf : List UInt8) (w : List (Nat × Nat × Nat)), 4097 - read = k →
      (vmLoop m P 4097 a read remain buf w).out ≠ none := by
  intro k
  induction k using Nat.strongRecOn with
  | _ k ih =>
    intro read remain buf w hk
    unfold vmLoop
    split
    · split
      · simp only
        split
        · simp
        · exact ih _ (by omega) _ _ _ _ rfl
      · exact hpk
    · simp

/-- **C38**: a non-null pointer into memory readable word by word is never reported as null, whether or
not page reads work: together with the above, every such read yields the exact string or "too
long". -/
theorem C38_answers (m : Mem) (P : Nat) (usePeek is32 : Bool) (address : Nat)
    (h0 : effective is32 address ≠ 0) (hp : ∀ b, m.peekOk b = true) :
    readstrPy m P usePeek is32 address ≠ .null := by
  unfold readstrPy
  have he : (if is32 = true then address % 4294967296 else address) = effective is32 address := rfl
  rw [he]
  simp only [Nat.reduceAdd]
  generalize effective is32 address = a at *
  have hpk : (peekdata m 4097 a).1 ≠ none := by
    unfold peekdata
    rw [if_neg h0]
    exact peekLoop_answers m a hp _ 0 4096 [] [] (by omega) (by omega) (by omega)
  have hout : (readstr m P 4097 usePeek a).out ≠ none := by
    unfold readstr
    rw [if_neg h0]
    split
    · exact hpk
    · exact vmLoop_answers m P a hpk _ 0 _ _ _ rfl
  split
  · rename_i h; exact absurd h hout
  · split <;> simp

example : readstrPy ⟨fun _ => 65, fun _ _ => false, fun _ => true⟩ 4096 false false 77 ≠ .null :=
  C38_answers _ _ _ _ _ (by decide) (fun _ => rfl)

/-! ## Which way of reading is used afterwards (C38) -/

/-- After the first page the loop never gives up reading by pages. -/
theorem vmLoop_keeps (m : Mem) (P max a : Nat) : ∀ (k read remain : Nat) (buf : List UInt8) (w : List (Nat × Nat × Nat)),
    max - read = k → 0 < read → (vmLoop m P max a read remain buf w).usePeek = false := by
  intro k
  induction k using Nat.strongRecOn with
  | _ k ih =>
    intro read remain buf w hk hr
    unfold vmLoop
    split
    · split
      · rename_i h
        dsimp only; split
        · rfl
        · exact ih _ (by omega) _ _ _ _ rfl (by omega)
      · simp only [Bool.and_eq_false_imp, beq_iff_eq]
        omega
    · rfl

/-- **C38**: reading word by word is taken up for good exactly when the first page of a string could not be read at once
although the string could be read by words, and is never left again. -/
theorem C38_mode (m : Mem) (P : Nat) (hP : 0 < P) (usePeek : Bool) (a : Nat) :
    (readstr m P 4097 usePeek a).usePeek = true ↔
      usePeek = true ∨ (a ≠ 0 ∧ m.vmOk a (P - a % P) = false ∧ (readstr m P 4097 usePeek a).out ≠ none) := by
  have hlen : (a + P) / P * P - a = P - a % P := by
    rw [Nat.add_div_right _ hP, Nat.succ_mul]
    have := Nat.div_add_mod' a P
    omega
  have hpos : 0 < P - a % P := by have := Nat.mod_lt a hP; omega
  unfold readstr
  by_cases h0 : a = 0
  · simp [h0]
  · rw [if_neg h0]
    cases usePeek with
    | true => simp
    | false =>
      simp only [Bool.false_eq_true, if_false, false_or]
      rw [hlen]
      by_cases hv : m.vmOk a (P - a % P) = true
      · have : (vmLoop m P 4097 a 0 (P - a % P) [] []).usePeek = false := by
          unfold vmLoop
          rw [if_pos (by omega), if_pos ⟨hpos, by simpa using hv⟩]
          simp only
          split
          · rfl
          · exact vmLoop_keeps m P 4097 a _ _ _ _ _ rfl (by omega)
        rw [this, hv]
        simp
      · have hv' : m.vmOk a (P - a % P) = false := by simpa using hv
        have : vmLoop m P 4097 a 0 (P - a % P) [] [] =
            ⟨(peekdata m 4097 a).1, [] ++ (peekdata m 4097 a).2, (0 : Nat) == 0 && (peekdata m 4097 a).1.isSome⟩ := by
          unfold vmLoop
          rw [if_pos (by omega), if_neg (by simp [hv'])]
        rw [this]
        simp [h0, hv', Option.isSome_iff_ne_none]

/-- A machine without page reads: the first string switches over; an unreadable one does not. -/
example : (readstr ⟨fun _ => 0, fun _ _ => false, fun _ => true⟩ 4096 4097 false 77).usePeek = true :=
  (C38_mode _ _ (by decide) _ _).2 (.inr ⟨by decide, rfl, by decide +kernel⟩)

/-! ## Buffer bounds (C39) -/

/-- A logged write lies in its allocation. -/
def Inside (w : Nat × Nat × Nat) : Prop := w.1 + w.2.1 ≤ w.2.2

theorem peekLoop_inside (m : Mem) (max a : Nat) (s : List UInt8) (hs : StringAt m.byte a s) (hlen : s.length < 4096) :
    ∀ (fuel read : Nat) (w : List (Nat × Nat × Nat)) (buf : List UInt8), read ≤ s.length → read % 8 = 0 → (∀ x ∈ w, Inside x) →
      ∀ x ∈ (peekLoop m max a fuel read 4096 buf w).2, Inside x := by
  intro fuel
  induction fuel with
  | zero => intro read w buf _ _ h; exact h
  | succ fuel ih =>
    intro read w buf hread hmod hw
    unfold peekLoop
    rw [if_neg (by omega)]
    simp only
    have hw' : ∀ x ∈ w ++ [(read, 8, if read + 8 > 4096 then (if 4096 + 4096 > max then max + 1 else 4096 + 4096) else 4096)], Inside x := by
      intro x hx
      rcases List.mem_append.1 hx with hx | hx
      · exact hw x hx
      · simp only [List.mem_singleton] at hx
        subst hx
        rw [if_neg (by omega)]
        show read + 8 ≤ 4096
        omega
    split
    · split
      · exact hw'
      · rename_i hz
        have hge : read + 8 ≤ s.length := by
          by_contra hlt
          apply hz
          rw [zero_mem_chunk]
          refine ⟨s.length - read, by omega, ?_⟩
          rw [show a + read + (s.length - read) = a + s.length by omega]
          exact hs.nul
        rw [if_neg (by omega : ¬ (read + 8 > 4096))] at hw' ⊢
        exact ih _ _ _ hge (by omega) hw'
    · exact hw

theorem vmLoop_inside (m : Mem) (P max a : Nat) (hpk : ∀ x ∈ (peekdata m max a).2, Inside x) :
    ∀ (k read remain : Nat) (w : List (Nat × Nat × Nat)) (buf : List UInt8), max - read = k → read + remain ≤ max → (∀ x ∈ w, Inside x) →
      ∀ x ∈ (vmLoop m P max a read remain buf w).writes, Inside x := by
  intro k
  induction k using Nat.strongRecOn with
  | _ k ih =>
    intro read remain w buf hk hle hw
    unfold vmLoop
    split
    · split
      · rename_i hlt hr
        have hw' : ∀ x ∈ w ++ [(read, remain, max + 1)], Inside x := by
          intro x hx
          rcases List.mem_append.1 hx with hx | hx
          · exact hw x hx
          · simp only [List.mem_singleton] at hx
            subst hx
            show read + remain ≤ max + 1
            omega
        simp only
        split
        · exact hw'
        · refine ih _ (by omega) _ _ _ _ rfl ?_ hw'
          have : min P (max - (read + remain)) ≤ max - (read + remain) := Nat.min_le_right _ _
          omega
      · intro x hx
        rcases List.mem_append.1 hx with hx | hx
        · exact hw x hx
        · exact hpk x hx
    · intro x hx
      rcases List.mem_append.1 hx with hx | hx
      · exact hw x hx
      · simp only [List.mem_singleton] at hx
        subst hx
        exact Nat.le_refl _

/-- **C39**: no write leaves the buffer if pages are no larger than the limit and no read has to fall
back to words, for every memory layout and address. -/
theorem C39_pages_partial (m : Mem) (P : Nat) (hP : 0 < P) (hle : P ≤ 4097) (a : Nat)
    (hvm : ∀ b n, m.vmOk b n = true) : ∀ x ∈ (readstr m P 4097 false a).writes, Inside x := by
  unfold readstr
  split
  · simp
  · simp only [Bool.false_eq_true, if_false]
    have hdm := Nat.div_add_mod a P
    have hlt := Nat.mod_lt a hP
    have hd : (a + P) / P * P = P * (a / P) + P := by
      rw [Nat.add_div_right _ hP, Nat.succ_mul, Nat.mul_comm]
    -- the fallback is not reached, so its writes do not matter
    have key : ∀ (k read remain : Nat) (w : List (Nat × Nat × Nat)) (buf : List UInt8), 4097 - read = k → read + remain ≤ 4097 →
        (read < 4097 → 0 < remain) → (∀ x ∈ w, Inside x) → ∀ x ∈ (vmLoop m P 4097 a read remain buf w).writes, Inside x := by
      intro k
      induction k using Nat.strongRecOn with
      | _ k ih =>
        intro read remain w buf hk hle hpos hw
        unfold vmLoop
        split
        · rename_i hlt
          rw [if_pos ⟨hpos hlt, hvm _ _⟩]
          have hw' : ∀ x ∈ w ++ [(read, remain, 4097 + 1)], Inside x := by
            intro x hx
            rcases List.mem_append.1 hx with hx | hx
            · exact hw x hx
            · simp only [List.mem_singleton] at hx
              subst hx
              show read + remain ≤ 4097 + 1
              omega
          simp only
          split
          · exact hw'
          · have := hpos hlt
            have h1 : min P (4097 - (read + remain)) ≤ 4097 - (read + remain) := Nat.min_le_right _ _
            exact ih _ (by omega) _ _ _ _ rfl (by omega) (by omega) hw'
        · intro x hx
          rcases List.mem_append.1 hx with hx | hx
          · exact hw x hx
          · simp only [List.mem_singleton] at hx
            subst hx
            exact Nat.le_refl _
    exact key _ 0 _ [] [] rfl (by omega) (by omega) (by simp)

/-- **C39**: with any kernel behaviour and in both modes, no write leaves the buffer if the string is
shorter than 4096 bytes and pages are no larger than the limit. -/
theorem C39_short_partial (m : Mem) (P : Nat) (hP : 0 < P) (hle : P ≤ 4097) (usePeek : Bool) (a : Nat)
    (s : List UInt8) (hs : StringAt m.byte a s) (hlen : s.length < 4096) :
    ∀ x ∈ (readstr m P 4097 usePeek a).writes, Inside x := by
  have hpk : ∀ x ∈ (peekdata m 4097 a).2, Inside x := by
    unfold peekdata
    split
    · simp
    · exact peekLoop_inside m 4097 a s hs hlen _ 0 [] [] (by omega) (by omega) (by simp)
  unfold readstr
  split
  · simp
  · split
    · exact hpk
    · have hdm := Nat.div_add_mod a P
      have hlt := Nat.mod_lt a hP
      have hd : (a + P) / P * P = P * (a / P) + P := by
        rw [Nat.add_div_right _ hP, Nat.succ_mul, Nat.mul_comm]
      exact vmLoop_inside m P 4097 a hpk _ 0 _ [] [] rfl (by omega) (by simp)

/-- Memory full of the letter `A`. -/
def allA (vm : Bool) : Mem := ⟨fun _ => 65, fun _ _ => vm, fun _ => true⟩

theorem peek_reach (a : Nat) : ∀ (j fuel read : Nat) (w : List (Nat × Nat × Nat)) (buf : List UInt8), read + 8 * j = 4096 →
    ∃ w' buf', peekLoop (allA false) 4097 a (fuel + j) read 4096 buf w = peekLoop (allA false) 4097 a fuel 4096 4096 buf' w' := by
  intro j
  induction j with
  | zero => intro fuel read w buf h; exact ⟨w, buf, by rw [show read = 4096 by omega]; rfl⟩
  | succ j ih =>
    intro fuel read w buf h
    rw [show fuel + (j + 1) = (fuel + j) + 1 by omega]
    rw [peekLoop, if_neg (by omega)]
    simp only
    rw [if_pos (show (allA false).peekOk _ = true from rfl), if_neg (by simp [zero_mem_chunk, allA]), if_neg (by omega)]
    exact ih fuel (read + 8) _ _ (by omega)

theorem peekLoop_extends (m : Mem) (max a : Nat) : ∀ (fuel read size : Nat) (buf : List UInt8) (w : List (Nat × Nat × Nat)),
    ∀ x ∈ w, x ∈ (peekLoop m max a fuel read size buf w).2 := by
  intro fuel
  induction fuel with
  | zero => intro read size buf w x hx; exact hx
  | succ fuel ih =>
    intro read size buf w x hx
    unfold peekLoop
    split
    · exact List.mem_append_left _ hx
    · simp only
      split
      · split
        · exact List.mem_append_left _ hx
        · exact ih _ _ _ _ x (List.mem_append_left _ hx)
      · exact hx

/-- **C39 fails** for word reads: a path of 4096 or more bytes makes the routine write eight bytes at
offset 4096 of an allocation of 4098. -/
theorem C39_words_fails : ∃ m : Mem, ∃ a, a ≠ 0 ∧ ∃ x ∈ (readstr m 4096 4097 true a).writes, ¬ Inside x := by
  refine ⟨allA false, 4096, by decide, (4096, 8, 4098), ?_, by unfold Inside; decide⟩
  unfold readstr peekdata
  rw [if_neg (by decide), if_pos rfl, if_neg (by decide)]
  obtain ⟨w', buf', h⟩ := peek_reach 4096 512 (7680 + 1) 0 [] [] (by decide)
  rw [show 4097 + 4096 = 7680 + 1 + 512 by decide]
  simp only
  rw [h]
  unfold peekLoop
  rw [if_neg (by decide)]
  simp only
  rw [if_pos (show (allA false).peekOk _ = true from rfl), if_neg (by simp [zero_mem_chunk, allA])]
  exact peekLoop_extends _ _ _ _ _ _ _ _ _ (List.mem_append_right _ (by decide))

/-- **C39 fails** for 64 KiB pages: the first read is not limited by the size of the buffer. -/
theorem C39_large_page_fails : ∃ m : Mem, ∃ a, a ≠ 0 ∧ ∃ x ∈ (readstr m 65536 4097 false a).writes, ¬ Inside x := by
  refine ⟨allA true, 65536, by decide, (0, 65536, 4098), ?_, by unfold Inside; decide⟩
  unfold readstr
  rw [if_neg (by decide)]
  simp only [Bool.false_eq_true, if_false]
  unfold vmLoop
  rw [if_pos (by decide), if_pos ⟨by decide, rfl⟩]
  simp only
  rw [if_neg (by simp [zero_mem_chunk, allA])]
  unfold vmLoop
  rw [if_neg (by decide)]
  simp

/-! ## The hypotheses are met -/

/-- A memory with the string `AB` at address 100, everything else zero. -/
def abMem : Mem := ⟨fun a => if a = 100 then 65 else if a = 101 then 66 else 0, fun _ _ => true, fun _ => true⟩

theorem ab_string : StringAt abMem.byte 100 [65, 66] := by
  refine ⟨?_, ?_, rfl⟩
  · intro i h
    match i, h with
    | 0, _ => rfl
    | 1, _ => rfl
  · intro i h
    match i, h with
    | 0, _ => decide
    | 1, _ => decide

example : readstrPy abMem 4096 false false 100 = .text [65, 66] :=
  C38_complete abMem 4096 (by decide) false 100 _ (by decide) ab_string (by decide) (fun _ _ _ _ _ => rfl)

example : readstrPy abMem 4096 true true (100 + 2 ^ 32) = .text [65, 66] :=
  C38_complete_words abMem 4096 true (100 + 2 ^ 32) _ (by decide) ab_string (by decide) (fun _ _ => rfl)

example : ∀ x ∈ (readstr abMem 4096 4097 false 100).writes, Inside x :=
  C39_short_partial abMem 4096 (by decide) (by decide) false 100 _ ab_string (by decide)

example : ∀ x ∈ (readstr (allA true) 4096 4097 false 4095).writes, Inside x :=
  C39_pages_partial (allA true) 4096 (by decide) (by decide) 4095 (fun _ _ => rfl)

end Verif.ReadStr
