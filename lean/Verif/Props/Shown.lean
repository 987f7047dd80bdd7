import Verif.Spec.Shown

/-! # C78: what the site is shown of outputs and compilers' messages -/

namespace Verif.Props

open Verif.Shown

namespace Shown

theorem valid_ofNat {n : Nat} (h : n.isValidChar) : (Char.ofNat n).toNat = n := by
  rw [Char.ofNat, dif_pos h]; rfl

theorem ofNat_toNat (c : Char) : Char.ofNat c.toNat = c := by
  simp

/-- The encoding in terms of bytes. -/
theorem encodeChar_cases (c : Char) :
    (c.toNat < 0x80 ∧ String.utf8EncodeChar c = [UInt8.ofNat c.toNat]) ∨
    (0x80 ≤ c.toNat ∧ c.toNat < 0x800 ∧
      String.utf8EncodeChar c = [UInt8.ofNat (c.toNat / 64 + 0xC0), UInt8.ofNat (c.toNat % 64 + 0x80)]) ∨
    (0x800 ≤ c.toNat ∧ c.toNat < 0x10000 ∧ ¬ (0xD800 ≤ c.toNat ∧ c.toNat < 0xE000) ∧
      String.utf8EncodeChar c = [UInt8.ofNat (c.toNat / 4096 + 0xE0), UInt8.ofNat (c.toNat / 64 % 64 + 0x80),
        UInt8.ofNat (c.toNat % 64 + 0x80)]) ∨
    (0x10000 ≤ c.toNat ∧ c.toNat < 0x110000 ∧
      String.utf8EncodeChar c = [UInt8.ofNat (c.toNat / 262144 + 0xF0), UInt8.ofNat (c.toNat / 4096 % 64 + 0x80),
        UInt8.ofNat (c.toNat / 64 % 64 + 0x80), UInt8.ofNat (c.toNat % 64 + 0x80)]) := by
  have hv : c.toNat < 0xD800 ∨ 0xDFFF < c.toNat ∧ c.toNat < 0x110000 := c.valid
  unfold String.utf8EncodeChar
  dsimp only
  have he : c.val.toNat = c.toNat := rfl
  rw [he]
  split
  · left; exact ⟨by omega, rfl⟩
  · split
    · right; left
      refine ⟨by omega, by omega, ?_⟩
      rw [Nat.mod_eq_of_lt (a := c.toNat / 64) (by omega)]
    · split
      · right; right; left
        refine ⟨by omega, by omega, by omega, ?_⟩
        rw [Nat.mod_eq_of_lt (a := c.toNat / 4096) (by omega)]
      · right; right; right
        refine ⟨by omega, by omega, ?_⟩
        rw [Nat.mod_eq_of_lt (a := c.toNat / 262144) (by omega)]

theorem toNat_ofNat {n : Nat} (h : n < 256) : (UInt8.ofNat n).toNat = n := UInt8.toNat_ofNat_of_lt' h

theorem cont_ofNat (n : Nat) (h : n < 64) : cont (UInt8.ofNat (n + 0x80)) = true := by
  simp only [cont, toNat_ofNat (show n + 0x80 < 256 by omega), Bool.and_eq_true, decide_eq_true_eq]
  omega

/-- A whole character is decoded. -/
theorem next_char (c : Char) (s : Bytes) : ∃ a r, String.utf8EncodeChar c ++ s = a :: r ∧ next a r = (c, s) := by
  rcases encodeChar_cases c with ⟨h, e⟩ | ⟨h1, h2, e⟩ | ⟨h1, h2, h3, e⟩ | ⟨h1, h2, e⟩
  · rw [e]; refine ⟨_, _, rfl, ?_⟩
    rw [next.eq_def, toNat_ofNat (by omega), if_pos (by omega), ofNat_toNat]; rfl
  · rw [e]; refine ⟨_, UInt8.ofNat (c.toNat % 64 + 0x80) :: s, rfl, ?_⟩
    rw [next.eq_def, toNat_ofNat (by omega), if_neg (by omega), if_neg (by omega), if_pos (by omega)]
    dsimp only
    rw [if_pos (cont_ofNat _ (by omega)), mk2, toNat_ofNat (by omega), toNat_ofNat (by omega)]
    rw [show (c.toNat / 64 + 192 - 192) * 64 + (c.toNat % 64 + 128 - 128) = c.toNat by omega, ofNat_toNat]
  · rw [e]; refine ⟨_, UInt8.ofNat (c.toNat / 64 % 64 + 0x80) :: UInt8.ofNat (c.toNat % 64 + 0x80) :: s, rfl, ?_⟩
    rw [next.eq_def, toNat_ofNat (by omega), if_neg (by omega), if_neg (by omega),
      if_neg (by omega), if_pos (by omega)]
    dsimp only
    have h2 : second3 (UInt8.ofNat (c.toNat / 4096 + 0xE0)) (UInt8.ofNat (c.toNat / 64 % 64 + 0x80)) = true := by
      simp only [second3, cont_ofNat _ (show c.toNat / 64 % 64 < 64 by omega), toNat_ofNat (show c.toNat / 4096 + 0xE0 < 256 by omega),
        toNat_ofNat (show c.toNat / 64 % 64 + 0x80 < 256 by omega), Bool.true_and, Bool.and_eq_true, Bool.not_eq_true', Bool.and_eq_false_iff,
        decide_eq_false_iff_not]
      omega
    rw [if_pos h2, if_pos (cont_ofNat _ (by omega)), mk3, toNat_ofNat (by omega), toNat_ofNat (by omega), toNat_ofNat (by omega)]
    rw [show (c.toNat / 4096 + 224 - 224) * 4096 + (c.toNat / 64 % 64 + 128 - 128) * 64 + (c.toNat % 64 + 128 - 128) = c.toNat by omega, ofNat_toNat]
  · rw [e]; refine ⟨_, UInt8.ofNat (c.toNat / 4096 % 64 + 0x80) :: UInt8.ofNat (c.toNat / 64 % 64 + 0x80) :: UInt8.ofNat (c.toNat % 64 + 0x80) :: s, rfl, ?_⟩
    rw [next.eq_def, toNat_ofNat (by omega), if_neg (by omega),
      if_neg (by omega), if_neg (by omega), if_neg (by omega), if_pos (by omega)]
    dsimp only
    have h2 : second4 (UInt8.ofNat (c.toNat / 262144 + 0xF0)) (UInt8.ofNat (c.toNat / 4096 % 64 + 0x80)) = true := by
      simp only [second4, cont_ofNat _ (show c.toNat / 4096 % 64 < 64 by omega), toNat_ofNat (show c.toNat / 262144 + 0xF0 < 256 by omega),
        toNat_ofNat (show c.toNat / 4096 % 64 + 0x80 < 256 by omega), Bool.true_and, Bool.and_eq_true, Bool.not_eq_true', Bool.and_eq_false_iff,
        decide_eq_false_iff_not]
      omega
    rw [if_pos h2, if_pos (cont_ofNat _ (by omega)), if_pos (cont_ofNat _ (by omega)), mk4, toNat_ofNat (by omega), toNat_ofNat (by omega),
      toNat_ofNat (by omega), toNat_ofNat (by omega)]
    rw [show (c.toNat / 262144 + 240 - 240) * 262144 + (c.toNat / 4096 % 64 + 128 - 128) * 4096 + (c.toNat / 64 % 64 + 128 - 128) * 64 +
      (c.toNat % 64 + 128 - 128) = c.toNat by omega, ofNat_toNat]

theorem decode_char (c : Char) (s : Bytes) : decode (String.utf8EncodeChar c ++ s) = c :: decode s := by
  obtain ⟨a, r, he, hn⟩ := next_char c s
  rw [he, decode, hn]

theorem decode_encode_append (t : Text) (s : Bytes) : decode (encode t ++ s) = t ++ decode s := by
  induction t with
  | nil => rfl
  | cons c t ih => rw [encode, List.flatMap_cons, List.append_assoc, decode_char, List.cons_append, ← ih]; rfl

theorem decode_length (b : Bytes) : (decode b).length ≤ b.length := by
  fun_induction decode b with
  | case1 => simp
  | case2 a r ih => have := next_le a r; simp; omega

theorem decode_encode (t : Text) : decode (encode t) = t := by
  have := decode_encode_append t []
  simpa [decode] using this

/-- A character cut off becomes one U+FFFD. -/
theorem decode_part (c : Char) (k : Nat) (h0 : 0 < k) (hk : k < (String.utf8EncodeChar c).length) :
    decode ((String.utf8EncodeChar c).take k) = [repl] := by
  rcases encodeChar_cases c with ⟨h, e⟩ | ⟨h1, h2, e⟩ | ⟨h1, h2, h3, e⟩ | ⟨h1, h2, e⟩ <;> rw [e] at hk ⊢ <;> simp only [List.length_cons, List.length_nil] at hk
  · omega
  · obtain rfl : k = 1 := by omega
    rw [List.take_succ_cons, List.take_zero, decode, next.eq_def, toNat_ofNat (by omega), if_neg (by omega), if_neg (by omega), if_pos (by omega)]
    simp [decode]
  · have hs : second3 (UInt8.ofNat (c.toNat / 4096 + 0xE0)) (UInt8.ofNat (c.toNat / 64 % 64 + 0x80)) = true := by
      simp only [second3, cont_ofNat _ (show c.toNat / 64 % 64 < 64 by omega), toNat_ofNat (show c.toNat / 4096 + 0xE0 < 256 by omega),
        toNat_ofNat (show c.toNat / 64 % 64 + 0x80 < 256 by omega), Bool.true_and, Bool.and_eq_true, Bool.not_eq_true', Bool.and_eq_false_iff,
        decide_eq_false_iff_not]
      omega
    obtain rfl | rfl : k = 1 ∨ k = 2 := by omega
    all_goals
      simp only [List.take_succ_cons, List.take_zero]
      rw [decode, next.eq_def, toNat_ofNat (by omega), if_neg (by omega), if_neg (by omega), if_neg (by omega), if_pos (by omega)]
      simp [decode, hs, -UInt8.ofNat_add]
  · have hs : second4 (UInt8.ofNat (c.toNat / 262144 + 0xF0)) (UInt8.ofNat (c.toNat / 4096 % 64 + 0x80)) = true := by
      simp only [second4, cont_ofNat _ (show c.toNat / 4096 % 64 < 64 by omega), toNat_ofNat (show c.toNat / 262144 + 0xF0 < 256 by omega),
        toNat_ofNat (show c.toNat / 4096 % 64 + 0x80 < 256 by omega), Bool.true_and, Bool.and_eq_true, Bool.not_eq_true', Bool.and_eq_false_iff,
        decide_eq_false_iff_not]
      omega
    have hc : cont (UInt8.ofNat (c.toNat / 64 % 64 + 0x80)) = true := cont_ofNat _ (by omega)
    obtain rfl | rfl | rfl : k = 1 ∨ k = 2 ∨ k = 3 := by omega
    all_goals
      simp only [List.take_succ_cons, List.take_zero]
      rw [decode, next.eq_def, toNat_ofNat (by omega), if_neg (by omega), if_neg (by omega), if_neg (by omega), if_neg (by omega), if_pos (by omega)]
      simp [decode, hs, hc, -UInt8.ofNat_add]

theorem ofNat_eq {n : Nat} {b : Byte} (h : n = b.toNat) : UInt8.ofNat n = b := by
  subst h; simp

theorem encode_ascii (a : Byte) (h : a.toNat < 0x80) : String.utf8EncodeChar (Char.ofNat a.toNat) = [a] := by
  have hv : (Char.ofNat a.toNat).toNat = a.toNat := valid_ofNat (Or.inl (by omega))
  rcases encodeChar_cases (Char.ofNat a.toNat) with ⟨h, e⟩ | ⟨h1, h2, e⟩ | ⟨h1, h2, h3, e⟩ | ⟨h1, h2, e⟩ <;> rw [hv] at * <;> try omega
  rw [e, ofNat_eq rfl]

theorem encode_mk2 (a b : Byte) (ha : 0xC2 ≤ a.toNat) (ha' : a.toNat < 0xE0) (hb : cont b = true) : String.utf8EncodeChar (mk2 a b) = [a, b] := by
  simp only [cont, Bool.and_eq_true, decide_eq_true_eq] at hb
  have hv : (mk2 a b).toNat = (a.toNat - 0xC0) * 64 + (b.toNat - 0x80) := valid_ofNat (Or.inl (by omega))
  rcases encodeChar_cases (mk2 a b) with ⟨h, e⟩ | ⟨h1, h2, e⟩ | ⟨h1, h2, h3, e⟩ | ⟨h1, h2, e⟩ <;> rw [hv] at * <;> try omega
  rw [e, ofNat_eq (b := a) (by omega), ofNat_eq (b := b) (by omega)]

theorem encode_mk3 (a b c : Byte) (ha : 0xE0 ≤ a.toNat) (ha' : a.toNat < 0xF0) (hb : second3 a b = true) (hc : cont c = true) :
    String.utf8EncodeChar (mk3 a b c) = [a, b, c] := by
  simp only [second3, cont, Bool.and_eq_true, decide_eq_true_eq, Bool.not_eq_true', Bool.and_eq_false_iff, decide_eq_false_iff_not] at hb hc
  have hv : (mk3 a b c).toNat = (a.toNat - 0xE0) * 4096 + (b.toNat - 0x80) * 64 + (c.toNat - 0x80) := by
    apply valid_ofNat
    unfold Nat.isValidChar
    omega
  rcases encodeChar_cases (mk3 a b c) with ⟨h, e⟩ | ⟨h1, h2, e⟩ | ⟨h1, h2, h3, e⟩ | ⟨h1, h2, e⟩ <;> rw [hv] at * <;> try omega
  rw [e, ofNat_eq (b := a) (by omega), ofNat_eq (b := b) (by omega), ofNat_eq (b := c) (by omega)]

theorem encode_mk4 (a b c d : Byte) (ha : 0xF0 ≤ a.toNat) (ha' : a.toNat < 0xF5) (hb : second4 a b = true) (hc : cont c = true) (hd : cont d = true) :
    String.utf8EncodeChar (mk4 a b c d) = [a, b, c, d] := by
  simp only [second4, cont, Bool.and_eq_true, decide_eq_true_eq, Bool.not_eq_true', Bool.and_eq_false_iff, decide_eq_false_iff_not] at hb hc hd
  have hv : (mk4 a b c d).toNat = (a.toNat - 0xF0) * 262144 + (b.toNat - 0x80) * 4096 + (c.toNat - 0x80) * 64 + (d.toNat - 0x80) := by
    apply valid_ofNat
    unfold Nat.isValidChar
    omega
  rcases encodeChar_cases (mk4 a b c d) with ⟨h, e⟩ | ⟨h1, h2, e⟩ | ⟨h1, h2, h3, e⟩ | ⟨h1, h2, e⟩ <;> rw [hv] at * <;> try omega
  rw [e, ofNat_eq (b := a) (by omega), ofNat_eq (b := b) (by omega), ofNat_eq (b := c) (by omega), ofNat_eq (b := d) (by omega)]

/-- A character decoded is what was there, unless it is U+FFFD. -/
theorem next_faithful (a : Byte) (r : Bytes) (h : (next a r).1 ≠ repl) : a :: r = String.utf8EncodeChar (next a r).1 ++ (next a r).2 := by
  revert h
  fun_cases next a r <;> intro h <;> first
    | (rw [encode_ascii _ (by assumption)]; rfl)
    | (rw [encode_mk2 _ _ (by omega) (by omega) (by assumption)]; rfl)
    | (rw [encode_mk3 _ _ _ (by omega) (by omega) (by assumption) (by assumption)]; rfl)
    | (rw [encode_mk4 _ _ _ _ (by omega) (by omega) (by assumption) (by assumption) (by assumption)]; rfl)
    | exact absurd rfl h

theorem faithful (b : Bytes) (h : repl ∉ decode b) : encode (decode b) = b := by
  fun_induction decode b with
  | case1 => rfl
  | case2 a r ih =>
    simp only [List.mem_cons, not_or] at h
    rw [next_faithful a r (fun e => h.1 e.symm), encode, List.flatMap_cons]
    rw [← encode, ih h.2]

theorem encode_length_pos (c : Char) : 0 < (String.utf8EncodeChar c).length :=
  List.length_pos_iff.2 String.utf8EncodeChar_ne_nil

/-- Cutting bytes anywhere. -/
theorem decode_take (t : Text) (n : Nat) : ∃ k, Fits t n k ∧
    (((encode (t.take k)).length = min n (encode t).length ∧ decode ((encode t).take n) = t.take k) ∨
     ((encode (t.take k)).length < n ∧ n < (encode (t.take (k + 1))).length ∧ k < t.length ∧ decode ((encode t).take n) = t.take k ++ [repl])) := by
  induction t generalizing n with
  | nil => exact ⟨0, ⟨Nat.le_refl _, Nat.zero_le _, fun h => absurd h (by simp)⟩, Or.inl ⟨by simp [encode], by simp [encode, decode]⟩⟩
  | cons c t ih =>
    have hp := encode_length_pos c
    have he : encode (c :: t) = String.utf8EncodeChar c ++ encode t := by simp [encode]
    by_cases hn : (String.utf8EncodeChar c).length ≤ n
    · obtain ⟨k, ⟨f1, f2, f3⟩, hk⟩ := ih (n - (String.utf8EncodeChar c).length)
      have htk : ∀ j, encode ((c :: t).take (j + 1)) = String.utf8EncodeChar c ++ encode (t.take j) := fun j => by simp [encode]
      have hd : decode ((encode (c :: t)).take n) = c :: decode ((encode t).take (n - (String.utf8EncodeChar c).length)) := by
        rw [he, List.take_append, List.take_of_length_le hn, decode_char]
      refine ⟨k + 1, ⟨by simpa using f1, ?_, ?_⟩, ?_⟩
      · rw [htk, List.length_append]; omega
      · intro h; rw [htk, List.length_append]; have := f3 (by simpa using h); omega
      · rcases hk with ⟨a1, a2⟩ | ⟨a1, a2, a3, a4⟩
        · left
          refine ⟨?_, by rw [hd, a2]; rfl⟩
          rw [htk, he, List.length_append, List.length_append]; omega
        · right
          refine ⟨by rw [htk, List.length_append]; omega, by rw [htk, List.length_append]; omega, by simpa using a3, by rw [hd, a4]; rfl⟩
    · refine ⟨0, ⟨by simp, by simp [encode], fun _ => ?_⟩, ?_⟩
      · simp only [encode, List.take_succ_cons, List.take_zero, List.flatMap_cons, List.flatMap_nil, List.append_nil]; omega
      · have htk : (encode (c :: t)).take n = (String.utf8EncodeChar c).take n := by
          rw [he, List.take_append_of_le_length (by omega)]
        by_cases h0 : n = 0
        · left; subst h0; simp [encode, decode]
        · right
          refine ⟨by simp [encode]; omega, ?_, by simp, ?_⟩
          · simp only [encode, List.take_succ_cons, List.take_zero, List.flatMap_cons, List.flatMap_nil, List.append_nil]; omega
          rw [htk, decode_part c n (by omega) (by omega)]; rfl

theorem encode_take_mono (t : Text) {i j : Nat} (h : i ≤ j) : (encode (t.take i)).length ≤ (encode (t.take j)).length := by
  have he : t.take j = t.take i ++ (t.take j).drop i := by
    conv => lhs; rw [← List.take_append_drop i (t.take j)]
    rw [List.take_take, Nat.min_eq_left h]
  rw [he]; simp [encode]

theorem encode_take_le (t : Text) (i : Nat) : (encode (t.take i)).length ≤ (encode t).length := by
  have he : encode t = encode (t.take i) ++ encode (t.drop i) := by
    rw [encode, encode, encode, ← List.flatMap_append, List.take_append_drop]
  rw [he, List.length_append]; omega

theorem output_length (n : Nat) (p : Value) : (output (some n) p).length ≤ n := by
  cases p with
  | bytes b => exact Nat.le_trans (decode_length _) (by simp [cut]; omega)
  | text t => simp [output, cut]; omega

theorem status_nat (n : Nat) (p : Value) : status (some n) p = output (some n) p := by
  have h := output_length n p
  show (output (some n) p).take n = _
  exact List.take_of_length_le h

/-- No continuation byte in front. -/
def Starts (e : Bytes) : Prop := ∀ b r, e = b :: r → cont b = false

theorem encode_starts (u : Text) : Starts (encode u) := by
  cases u with
  | nil => intro b r h; cases h
  | cons c u =>
    intro b r h
    rw [encode, List.flatMap_cons] at h
    rcases encodeChar_cases c with ⟨h1, e⟩ | ⟨h1, h2, e⟩ | ⟨h1, h2, h3, e⟩ | ⟨h1, h2, e⟩ <;> rw [e] at h <;>
      simp only [List.cons_append, List.cons.injEq] at h <;> rw [← h.1] <;>
      simp only [cont, Bool.and_eq_false_iff, decide_eq_false_iff_not] <;> rw [toNat_ofNat (by omega)] <;> omega

theorem next_append (a : Byte) (r e : Bytes) (he : Starts e) : next a (r ++ e) = ((next a r).1, (next a r).2 ++ e) := by
  have h2 : ∀ a b r, e = b :: r → second3 a b = false := fun a b r h => by simp [second3, he b r h]
  have h3 : ∀ a b r, e = b :: r → second4 a b = false := fun a b r h => by simp [second4, he b r h]
  unfold Starts at he
  fun_cases next a r <;> (rw [next.eq_def]; cases e <;> grind)

theorem decode_append (b : Bytes) (e : Bytes) (he : Starts e) : decode (b ++ e) = decode b ++ decode e := by
  fun_induction decode b with
  | case1 => rfl
  | case2 a r ih =>
    rw [List.cons_append, decode, next_append a r e he]
    simp [ih]
end Shown

open Shown

/-- The output of a program that writes text, with a limit of `n` bytes: all the characters that lie wholly in the first `n` bytes; if
these end inside a character, then one U+FFFD in its place. -/
theorem C78_output (t : Text) (n : Nat) : ∃ k, Fits t n k ∧
    (¬ CutInside t n → status (some n) (.bytes (encode t)) = t.take k) ∧
    (CutInside t n → status (some n) (.bytes (encode t)) = t.take k ++ [repl]) := by
  obtain ⟨k, hf, h⟩ := decode_take t n
  refine ⟨k, hf, ?_⟩
  rw [status_nat]
  show (_ → decode ((encode t).take n) = _) ∧ (_ → decode ((encode t).take n) = _)
  rcases h with ⟨h1, h2⟩ | ⟨h1, h2, h3, h4⟩
  · refine ⟨fun _ => h2, fun hc => absurd h1 ?_⟩
    have := hc.1
    rw [Nat.min_eq_left (by omega)]
    exact hc.2 k
  · refine ⟨fun hc => absurd ⟨?_, ?_⟩ hc, fun _ => h4⟩
    · exact Nat.lt_of_lt_of_le h2 (encode_take_le t _)
    · intro j hj
      by_cases hjk : j ≤ k
      · have := encode_take_mono t hjk; omega
      · have := encode_take_mono t (show k + 1 ≤ j by omega); omega

/-- `"naïve"` cut after two and after three bytes. -/
example : status (some 2) (.bytes (encode "naïve".toList)) = "na".toList ∧
    status (some 3) (.bytes (encode "naïve".toList)) = "na".toList ++ [repl] ∧
    status (some 4) (.bytes (encode "naïve".toList)) = "naï".toList ∧ CutInside "naïve".toList 3 := by
  refine ⟨by decide +kernel, by decide +kernel, by decide +kernel, by decide +kernel, fun k => ?_⟩
  rcases Nat.lt_or_ge 2 k with h | h
  · have := encode_take_mono "naïve".toList (show 3 ≤ k by omega)
    have h3 : (encode ("naïve".toList.take 3)).length = 4 := by decide +kernel
    omega
  · have := encode_take_mono "naïve".toList (show k ≤ 2 by omega)
    have h3 : (encode ("naïve".toList.take 2)).length = 2 := by decide +kernel
    omega

/-- Whatever a program writes, an output shown without U+FFFD is exactly the first bytes of it. -/
theorem C78_faithful (b : Bytes) (n : Nat) (h : repl ∉ status (some n) (.bytes b)) : encode (status (some n) (.bytes b)) = b.take n := by
  rw [status_nat] at h ⊢
  exact faithful _ h

/-- Bytes that are no text. -/
example : status (some 64) (.bytes [0x61, 0xE2, 0x82, 0x62, 0xFF, 0xED, 0xA0, 0x80]) = 'a' :: repl :: 'b' :: List.replicate 4 repl ∧
    repl ∉ status (some 1) (.bytes [0x61, 0xE2, 0x82]) := by decide +kernel

/-- Text after bytes that are none is shown as it is: damage never spreads. -/
theorem C78_damage (b : Bytes) (u : Text) : sent (.bytes (b ++ encode u)) = sent (.bytes b) ++ u ∧
    ∀ n : Nat, (b ++ encode u).length ≤ n → status (some n) (.bytes (b ++ encode u)) = status (some n) (.bytes b) ++ u := by
  have h : decode (b ++ encode u) = decode b ++ u := by rw [decode_append b _ (encode_starts u), decode_encode]
  refine ⟨h, ?_⟩
  intro n hn
  rw [status_nat, status_nat]
  have hb : b.length ≤ n := by simp at hn; omega
  show decode ((b ++ encode u).take n) = decode (b.take n) ++ u
  rw [List.take_of_length_le hn, List.take_of_length_le hb, h]

/-- A character cut short, then text. -/
example : sent (.bytes ([0x61, 0xE2, 0x82] ++ encode "né".toList)) = ['a', repl, 'n', 'é'] := by decide +kernel

/-- No more than `n` characters are shown, and trimming in the worker and again in the controller is trimming once; without a limit all
is shown. -/
theorem C78_length (p : Value) (n : Nat) : (status (some n) p).length ≤ n ∧ status (some n) p = output (some n) p ∧
    status none p = sent p := by
  refine ⟨?_, status_nat n p, by cases p <;> rfl⟩
  rw [status_nat]; exact output_length n p

/-- With a negative `output_prefix_length` the end of the output is cut off twice. -/
theorem C78_negative_fails : ∃ (n : Int) (b : Bytes), status (some n) (.bytes b) ≠ output (some n) (.bytes b) ∧
    status (some n) (.bytes b) = ['a'] ∧ output (some n) (.bytes b) = ['a', 'b'] :=
  ⟨-1, [97, 98, 99], by decide +kernel, by decide +kernel, by decide +kernel⟩

/-- A failed compilation is reported once, with a log that is not empty and is the compiler's text if it wrote text. -/
theorem C78_log (m : Value) : ∃ log, compiling (.error m) = [.compileError log] ∧ log ≠ [] ∧
    ∀ t, t ≠ [] → m = .bytes (encode t) ∨ m = .text t → log = t := by
  refine ⟨_, rfl, ?_, ?_⟩
  · split
    · decide +kernel
    · next h =>
      cases m with
      | bytes b =>
        cases b with
        | nil => exact absurd rfl h
        | cons a r => simp [sent, decode]
      | text t =>
        cases t with
        | nil => exact absurd rfl h
        | cons a r => simp [sent]
  · rintro t ht (rfl | rfl)
    · have : (Value.bytes (encode t)).isEmpty = false := by
        cases t with
        | nil => exact absurd rfl ht
        | cons c t =>
          have := encode_length_pos c
          simp only [Value.isEmpty, List.isEmpty_eq_false_iff]
          intro h
          have := congrArg List.length h
          simp only [encode, List.flatMap_cons, List.length_append, List.length_nil] at this
          omega
      rw [this]
      exact decode_encode t
    · have : (Value.text t).isEmpty = false := by
        cases t with
        | nil => exact absurd rfl ht
        | cons c t => rfl
      rw [this]
      rfl

/-- The message of a compiler that succeeded is sent if the executor has one, as it was if it was text; the submission is not reported as
failing. -/
theorem C78_message (w : Option Value) : (compiling (.binary w) = [] ↔ w = none) ∧
    (∀ t, w = some (.bytes (encode t)) ∨ w = some (.text t) → compiling (.binary w) = [.compileMessage t]) ∧
    ∀ log, .compileError log ∉ compiling (.binary w) := by
  refine ⟨?_, ?_, ?_⟩
  · cases w <;> simp [compiling]
  · rintro t (rfl | rfl)
    · simp [compiling, sent, decode_encode]
    · simp [compiling, sent]
  · cases w <;> simp [compiling]

/-- A compiler that fails without saying anything is reported with a message all the same. -/
theorem C78_nothing_said (m : Value) (h : m = .bytes [] ∨ m = .text []) :
    compiling (.error m) = [.compileError "compiler exited abnormally".toList] := by
  rcases h with rfl | rfl <;> decide +kernel

/-- A compiler that says nothing and fails; one that warns. -/
example : compiling (.error (.bytes [])) = [.compileError "compiler exited abnormally".toList] ∧
    compiling (.binary (some (.bytes [0x77, 0xFF]))) = [.compileMessage ['w', repl]] := by decide +kernel

end Verif.Props
