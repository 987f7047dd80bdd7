import Verif.Model.Main
import Verif.Spec.Main
import Verif.Props.Net

/-!
# C83: starting, updating and stopping the judge
-/

namespace Verif.Main

open Spec

/-! ## Starting -/

theorem blank_iff (c : Char) : blank c = true ↔ c = ' ' ∨ c = '\n' ∨ c = '\t' ∨ c = '\r' := by
  simp [blank, or_assoc]

theorem dropWhile_blank (a : Str) (s : Str) (h : Blank a) : (a ++ s).dropWhile blank = s.dropWhile blank := by
  induction a with
  | nil => rfl
  | cons c a ih =>
    have hc := (blank_iff c).mpr (h c (by simp))
    simp [hc]
    exact ih (fun d hd => h d (by simp [hd]))

theorem exists_blank (s : Str) : ∃ a, Blank a ∧ s = a ++ s.dropWhile blank := by
  refine ⟨s.takeWhile blank, ?_, (List.takeWhile_append_dropWhile).symm⟩
  intro c hc
  exact (blank_iff c).mp (List.all_takeWhile (l := s) (p := blank) |> (List.all_eq_true.mp · c hc))

theorem trim_one (s : Str) : trim s = ['1'] ↔ SaysOne s := by
  unfold trim
  constructor
  · intro h
    obtain ⟨a, ha, h1⟩ := exists_blank s
    obtain ⟨b, hb, h2⟩ := exists_blank (s.dropWhile blank).reverse
    rw [List.reverse_eq_iff] at h
    rw [h] at h2
    have h3 : s.dropWhile blank = '1' :: b.reverse := by
      rw [List.reverse_eq_iff] at h2; simpa using h2
    refine ⟨a, b.reverse, by rw [h3] at h1; exact h1, ha, ?_⟩
    intro c hc
    exact hb c (by simpa using hc)
  · rintro ⟨a, b, rfl, ha, hb⟩
    rw [dropWhile_blank a _ ha]
    have h1 : blank '1' = false := by decide
    rw [List.dropWhile_cons, h1]
    simp only [Bool.false_eq_true, if_false, List.reverse_cons]
    rw [dropWhile_blank b.reverse _ (fun c hc => hb c (by simpa using hc))]
    rw [List.dropWhile_cons, h1]
    simp

/-- **C83** the judge starts only where it can keep submissions in the sandbox and only as an ordinary user. -/
theorem C83_sane (h : Host) : sanityCheck h ≠ none ↔ h.windows = false ∧ h.cptbox = true ∧ h.uid ≠ 0 := by
  unfold sanityCheck
  cases h.windows <;> cases h.cptbox <;> by_cases h0 : h.uid = 0 <;> simp [h0]

example : sanityCheck ⟨false, true, 1000, some ['0', '\n'], false⟩ = some [.jit, .checker] := by decide
example : sanityCheck ⟨false, true, 0, none, true⟩ = none := by decide

/-- **C83** and it warns exactly when the filter of system calls or the checker will be slow. -/
theorem C83_warns (h : Host) (ws : List Warn) (hw : sanityCheck h = some ws) :
    (.jit ∈ ws ↔ ∃ s, h.jit = some s ∧ ¬ SaysOne s) ∧ (.checker ∈ ws ↔ h.checker = false) := by
  unfold sanityCheck at hw
  split at hw
  · exact nomatch hw
  split at hw
  · exact nomatch hw
  split at hw
  · exact nomatch hw
  cases hw
  cases hj : h.jit with
  | none => cases h.checker <;> simp
  | some s =>
    have := trim_one s
    by_cases ht : trim s = ['1']
    · cases h.checker <;> simp [ht, this.mp ht]
    · have hn : ¬ SaysOne s := fun hx => ht (this.mpr hx)
      cases h.checker <;> simp [ht, hn]

example : SaysOne "1\n".toList := ⟨[], ['\n'], rfl, by simp [Blank], by simp [Blank]⟩

/-! ## The name of the log -/

theorem Fmt.prepend_nil (f : Fmt) : f.prepend [] = f := by cases f <;> rfl

theorem Fmt.prepend_prepend (a b : Str) (f : Fmt) : (f.prepend b).prepend a = f.prepend (a ++ b) := by cases f <;> simp [Fmt.prepend]

theorem format_plain (q : Str → Str) (id : Str) (used : Bool) (a s : Str) (h : '%' ∉ a) :
    format q id used (a ++ s) = (format q id used s).prepend a := by
  induction a with
  | nil => simp [Fmt.prepend_nil]
  | cons c a ih =>
    have hc : c ≠ '%' := fun e => h (by simp [e])
    rw [List.cons_append, format, if_pos hc, ih (fun e => h (by simp [e])), Fmt.prepend_prepend]
    rfl

theorem conv_s (s : Str) : conv ('s' :: s) = .field false 0 none 's' s := by
  simp [conv, flag, isDigit, precision, modifier, number]

theorem format_s (q : Str → Str) (id : Str) (s : Str) :
    format q id false ('%' :: 's' :: s) = (format q id true s).prepend id := by
  rw [format, if_neg (by simp)]
  split <;> rename_i h <;> rw [conv_s] at h <;> cases h
  simp [convert, pad]

theorem format_s_used (q : Str → Str) (id : Str) (s : Str) : format q id true ('%' :: 's' :: s) = .typeError := by
  rw [format, if_neg (by simp)]
  split <;> rename_i h <;> rw [conv_s] at h <;> cases h
  simp

theorem isDigit_mem (c : Char) (h : isDigit c = true) : c ∈ "0123456789".toList := by
  have h1 : 48 ≤ c.toNat ∧ c.toNat ≤ 57 := by
    simp only [isDigit, Bool.and_eq_true, decide_eq_true_eq, Char.le_def, UInt32.le_iff_toNat_le] at h
    exact h
  have key : ∀ n, n < 58 → 48 ≤ n → Char.ofNat n ∈ "0123456789".toList := by decide
  have := key c.toNat (by omega) h1.1
  rwa [Char.ofNat_toNat] at this

theorem conv_wrong (c : Char) (s : Str) (h : Wrong c) : conv (c :: s) = .field false 0 none c s := by
  have h0 : ∀ d ∈ "%(-+ #0123456789*.hlLsracdiuoxXeEfFgG".toList, c ≠ d := fun d hd e => h (e ▸ hd)
  have hd : isDigit c = false := by
    cases hc : isDigit c with
    | false => rfl
    | true =>
      refine absurd ?_ h
      have := isDigit_mem c hc
      revert this
      simp
      grind
  have hf : flag c = false := by
    simp [Wrong] at h
    simp [flag, h]
  have hp : precision (c :: s) = some (none, c :: s) := by
    unfold precision
    split
    · next heq => simp at heq; exact absurd heq.1 (h0 '.' (by decide))
    · next heq => simp at heq; exact absurd heq.1 (h0 '.' (by decide))
    · rfl
  have hm : modifier (c :: s) = c :: s := by
    unfold modifier
    split
    · next heq => simp at heq; exact absurd heq.1 (h0 'h' (by decide))
    · next heq => simp at heq; exact absurd heq.1 (h0 'l' (by decide))
    · next heq => simp at heq; exact absurd heq.1 (h0 'L' (by decide))
    · rfl
  have e1 : c ≠ '(' := h0 _ (by decide)
  have e2 : c ≠ '*' := h0 _ (by decide)
  have e3 : c ≠ '%' := h0 _ (by decide)
  simp [conv, hf, hd, hp, hm, e1, e2, e3, number]

theorem format_wrong (q : Str → Str) (id : Str) (c : Char) (s : Str) (h : Wrong c) :
    format q id false ('%' :: c :: s) = .valueError := by
  rw [format, if_neg (by simp)]
  split <;> rename_i h' <;> rw [conv_wrong c s h] at h' <;> cases h'
  have : convert q c id = none := by
    simp [Wrong] at h
    simp [convert, h]
  simp [this]

/-- **C83** a log file whose name has no `%` is opened under that name, `%s` is replaced by the judge's name, and a name that asks for it twice is
taken literally. -/
theorem C83_log (q : Str → Str) (id a b c : Str) (ha : '%' ∉ a) (hb : '%' ∉ b) :
    logName q id none = some none ∧ logName q id (some a) = some (some a) ∧
      logName q id (some (a ++ '%' :: 's' :: b)) = some (some (a ++ id ++ b)) ∧
      logName q id (some (a ++ '%' :: 's' :: (b ++ '%' :: 's' :: c))) = some (some (a ++ '%' :: 's' :: (b ++ '%' :: 's' :: c))) := by
  have e0 : format q id false [] = .typeError := by rw [format]; rfl
  have e1 : format q id true [] = .text [] := by rw [format]; rfl
  have ha' := format_plain q id false a [] ha
  have hb' := format_plain q id true b [] hb
  rw [List.append_nil] at ha' hb'
  refine ⟨rfl, ?_, ?_, ?_⟩
  · simp only [logName, ha', e0, Fmt.prepend]
  · simp only [logName, format_plain q id false a _ ha, format_s, hb', e1, Fmt.prepend]
    simp
  · simp only [logName, format_plain q id false a _ ha, format_s, format_plain q id true b _ hb, format_s_used, Fmt.prepend]

example : logName id "oj1".toList (some "judge-%s.log".toList) = some (some "judge-oj1.log".toList) :=
  (C83_log id "oj1".toList "judge-".toList ".log".toList [] (by decide) (by decide)).2.2.1

theorem digits_number (n : Nat) : number (Nat.toDigits 10 n) = n := by
  have : ∀ (l : Str) (k : Nat), l.foldl (fun n c => n * 10 + (c.toNat - 48)) k = Nat.ofDigitChars 10 l k := by
    intro l
    induction l with
    | nil => intro k; simp
    | cons c l ih => intro k; rw [List.foldl_cons, ih, Nat.ofDigitChars_cons, Nat.mul_comm]; rfl
  unfold number
  rw [this, Nat.ofDigitChars_ten_toDigits]

theorem digits_isDigit (n : Nat) : ∀ c ∈ Nat.toDigits 10 n, isDigit c = true := by
  intro c hc
  have := Nat.isDigit_of_mem_toDigits (by decide : 0 < 10) (by decide) hc
  simp only [Char.isDigit, Bool.and_eq_true, decide_eq_true_eq] at this
  simp only [isDigit, Bool.and_eq_true, decide_eq_true_eq, Char.le_def]
  exact this

theorem digits_head (n : Nat) (h : 0 < n) : ∃ c cs, Nat.toDigits 10 n = c :: cs ∧ flag c = false := by
  induction n using Nat.strongRecOn with
  | ind n ih =>
    by_cases hn : n < 10
    · have key : ∀ n, n < 10 → 0 < n → flag (Nat.digitChar n) = false := by decide
      exact ⟨_, [], Nat.toDigits_of_lt_base hn, key n hn h⟩
    · obtain ⟨c, cs, e, hc⟩ := ih (n / 10) (by omega) (by omega)
      refine ⟨c, cs ++ [Nat.digitChar (n % 10)], ?_, hc⟩
      rw [Nat.toDigits_of_base_le (by decide) (by omega), e]
      rfl

theorem conv_width (fl : Str) (hfl : ∀ x ∈ fl, flag x = true) (n : Nat) (h : 0 < n) (s : Str) :
    conv (fl ++ (Nat.toDigits 10 n ++ 's' :: s)) = .field ('-' ∈ fl) n none 's' s := by
  obtain ⟨c, cs, e, hc⟩ := digits_head n h
  have hd := digits_isDigit n
  have h1 : (Nat.toDigits 10 n ++ 's' :: s).dropWhile flag = Nat.toDigits 10 n ++ 's' :: s := by
    rw [e, List.cons_append, List.dropWhile_cons_of_neg (by simp [hc])]
  have h1' : (Nat.toDigits 10 n ++ 's' :: s).takeWhile flag = [] := by
    rw [e, List.cons_append, List.takeWhile_cons_of_neg (by simp [hc])]
  have h2 : (Nat.toDigits 10 n ++ 's' :: s).dropWhile isDigit = 's' :: s := by
    rw [List.dropWhile_append_of_pos hd]; simp [isDigit]
  have h3 : (Nat.toDigits 10 n ++ 's' :: s).takeWhile isDigit = Nat.toDigits 10 n := by
    rw [List.takeWhile_append_of_pos hd]; simp [isDigit]
  have h4 : (Nat.toDigits 10 n ++ 's' :: s).head? ≠ some '*' ∧ (Nat.toDigits 10 n ++ 's' :: s).head? ≠ some '(' := by
    have := isDigit_mem c (hd c (by rw [e]; simp))
    rw [e]
    constructor <;>
    · intro hx
      simp at hx
      subst hx
      revert this
      decide
  have h5 : (fl ++ (Nat.toDigits 10 n ++ 's' :: s)).dropWhile flag = Nat.toDigits 10 n ++ 's' :: s := by
    rw [List.dropWhile_append_of_pos hfl, h1]
  have h6 : (fl ++ (Nat.toDigits 10 n ++ 's' :: s)).takeWhile flag = fl := by
    rw [List.takeWhile_append_of_pos hfl, h1', List.append_nil]
  have h7 : (fl ++ (Nat.toDigits 10 n ++ 's' :: s)).head? ≠ some '(' := by
    cases fl with
    | nil => exact h4.2
    | cons x fl =>
      have := hfl x (by simp)
      intro hx
      simp at hx
      subst hx
      revert this
      decide
  unfold conv
  rw [if_neg h7, h5, if_neg h4.1, h6, h2, h3, digits_number]
  simp [precision, modifier]

theorem format_field (q : Str → Str) (id : Str) (r r' : Str) (left : Bool) (w : Nat) (h : conv r = .field left w none 's' r') :
    format q id false ('%' :: r) = (format q id true r').prepend (pad left w id) := by
  rw [format, if_neg (by simp)]
  split <;> rename_i h' <;> rw [h] at h' <;> cases h'
  simp [convert]

/-- **C83** `%7s` in the name of the log is the judge's name filled up with spaces in front of it to seven characters, `%-7s` the same with the spaces after
it, and nothing is cut off. The other flags make no difference: `%07s` fills up with spaces too. -/
theorem C83_log_width (q : Str → Str) (id a b : Str) (fl : Str) (hfl : ∀ x ∈ fl, x ∈ "-+ #0".toList) (n : Nat) (hn : 0 < n) (ha : '%' ∉ a) (hb : '%' ∉ b) :
    logName q id (some (a ++ '%' :: (fl ++ (Nat.toDigits 10 n ++ 's' :: b)))) = some (some (if '-' ∈ fl then
        a ++ id ++ List.replicate (n - id.length) ' ' ++ b else a ++ List.replicate (n - id.length) ' ' ++ id ++ b)) := by
  have e1 : format q id true [] = .text [] := by rw [format]; rfl
  have hb' := format_plain q id true b [] hb
  rw [List.append_nil] at hb'
  have h1 := conv_width fl (fun x hx => by
    have := hfl x hx
    simp at this
    rcases this with rfl | rfl | rfl | rfl | rfl <;> decide) n hn b
  simp only [logName, format_plain q id false a _ ha, format_field q id _ _ _ _ h1, hb', e1, Fmt.prepend]
  by_cases h : '-' ∈ fl <;> simp [pad, h]

example : logName id "oj1".toList (some "judge-%5s.log".toList) = some (some "judge-  oj1.log".toList) :=
  C83_log_width id "oj1".toList "judge-".toList ".log".toList [] (by simp) 5 (by decide) (by decide) (by decide)

example : logName id "oj1".toList (some "judge-%0-5s.log".toList) = some (some "judge-oj1  .log".toList) :=
  C83_log_width id "oj1".toList "judge-".toList ".log".toList "0-".toList (by decide) 5 (by decide) (by decide) (by decide)

theorem conv_precision (n : Nat) (s : Str) : conv ('.' :: (Nat.toDigits 10 n ++ 's' :: s)) = .field false 0 (some n) 's' s := by
  have hd := digits_isDigit n
  have h2 : (Nat.toDigits 10 n ++ 's' :: s).dropWhile isDigit = 's' :: s := by
    rw [List.dropWhile_append_of_pos hd]; simp [isDigit]
  have h3 : (Nat.toDigits 10 n ++ 's' :: s).takeWhile isDigit = Nat.toDigits 10 n := by
    rw [List.takeWhile_append_of_pos hd]; simp [isDigit]
  have h4 : ∃ c cs, Nat.toDigits 10 n ++ 's' :: s = c :: cs ∧ c ≠ '*' := by
    cases e : Nat.toDigits 10 n with
    | nil => exact ⟨'s', s, rfl, by decide⟩
    | cons c cs =>
      refine ⟨c, cs ++ 's' :: s, rfl, ?_⟩
      rintro rfl
      have := isDigit_mem '*' (hd '*' (by rw [e]; simp))
      revert this
      decide
  have e1 : ('.' :: (Nat.toDigits 10 n ++ 's' :: s)).dropWhile flag = '.' :: (Nat.toDigits 10 n ++ 's' :: s) :=
    List.dropWhile_cons_of_neg (by decide)
  have e2 : ('.' :: (Nat.toDigits 10 n ++ 's' :: s)).takeWhile flag = [] := List.takeWhile_cons_of_neg (by decide)
  have e3 : ('.' :: (Nat.toDigits 10 n ++ 's' :: s)).dropWhile isDigit = '.' :: (Nat.toDigits 10 n ++ 's' :: s) :=
    List.dropWhile_cons_of_neg (by decide)
  have e4 : ('.' :: (Nat.toDigits 10 n ++ 's' :: s)).takeWhile isDigit = [] := List.takeWhile_cons_of_neg (by decide)
  have hp : precision ('.' :: (Nat.toDigits 10 n ++ 's' :: s)) = some (some n, 's' :: s) := by
    obtain ⟨c, cs, e, hc⟩ := h4
    have : precision ('.' :: (c :: cs)) = some (some (number ((c :: cs).takeWhile isDigit)), (c :: cs).dropWhile isDigit) := by
      unfold precision
      split
      · next h => simp at h; exact absurd h.1 hc
      · next h => simp at h; rw [← h]
      · next h1 h2 => exact absurd rfl (h2 _)
    rw [e, this, ← e, h2, h3, digits_number]
  unfold conv
  rw [if_neg (by simp), e1, if_neg (by simp), e2, e3, e4, hp]
  simp [modifier, number]

/-- **C83** `%.7s` in the name of the log is the judge's name cut to seven characters. -/
theorem C83_log_cut (q : Str → Str) (id a b : Str) (n : Nat) (ha : '%' ∉ a) (hb : '%' ∉ b) :
    logName q id (some (a ++ '%' :: '.' :: (Nat.toDigits 10 n ++ 's' :: b))) = some (some (a ++ id.take n ++ b)) := by
  have e1 : format q id true [] = .text [] := by rw [format]; rfl
  have hb' := format_plain q id true b [] hb
  rw [List.append_nil] at hb'
  have h2 : format q id false ('%' :: '.' :: (Nat.toDigits 10 n ++ 's' :: b)) = (format q id true b).prepend (id.take n) := by
    rw [format, if_neg (by simp)]
    split <;> rename_i h' <;> rw [conv_precision n b] at h' <;> cases h'
    simp [convert, pad]
  simp only [logName, format_plain q id false a _ ha, h2, hb', e1, Fmt.prepend]
  simp

example : logName id "judge-one".toList (some "%.5s.log".toList) = some (some "judge.log".toList) :=
  C83_log_cut id "judge-one".toList [] ".log".toList 5 (by decide) (by decide)

/-- **C83** `%r` and `%a` stand for the judge's name in quotes. -/
theorem C83_log_quoted (q : Str → Str) (id a b : Str) (c : Char) (ha : '%' ∉ a) (hb : '%' ∉ b) (hc : c = 'r' ∨ c = 'a') :
    logName q id (some (a ++ '%' :: c :: b)) = some (some (a ++ q id ++ b)) := by
  have e1 : format q id true [] = .text [] := by rw [format]; rfl
  have hb' := format_plain q id true b [] hb
  rw [List.append_nil] at hb'
  have hv : conv (c :: b) = .field false 0 none c b := by
    rcases hc with rfl | rfl <;> simp [conv, flag, isDigit, precision, modifier, number]
  have h2 : format q id false ('%' :: c :: b) = (format q id true b).prepend (q id) := by
    rw [format, if_neg (by simp)]
    split <;> rename_i h' <;> rw [hv] at h' <;> cases h'
    rcases hc with rfl | rfl <;> simp [convert, pad]
  simp only [logName, format_plain q id false a _ ha, h2, hb', e1, Fmt.prepend]
  simp

example : logName (fun s => '"' :: s ++ ['"']) "one".toList (some "%r.log".toList) = some (some "\"one\".log".toList) :=
  C83_log_quoted (fun s => '"' :: s ++ ['"']) "one".toList [] ".log".toList 'r' (by decide) (by decide) (.inl rfl)

/-- **C83** `%c` takes a name of one character; with a longer one, or with a conversion that wants a number, the name of the log is taken literally. -/
theorem C83_log_kind (q : Str → Str) (id a b : Str) (c : Char) (ha : '%' ∉ a) (hb : '%' ∉ b) (hc : c ∈ "cdiuoxXeEfFgG".toList) :
    logName q id (some (a ++ '%' :: c :: b)) = some (some (if c = 'c' ∧ id.length = 1 then a ++ id ++ b else a ++ '%' :: c :: b)) := by
  have e1 : format q id true [] = .text [] := by rw [format]; rfl
  have hb' := format_plain q id true b [] hb
  rw [List.append_nil] at hb'
  have hv : conv (c :: b) = .field false 0 none c b := by
    simp at hc
    rcases hc with rfl | rfl | rfl | rfl | rfl | rfl | rfl | rfl | rfl | rfl | rfl | rfl | rfl <;>
      simp [conv, flag, isDigit, precision, modifier, number]
  have hf : format q id false ('%' :: c :: b) = if c = 'c' ∧ id.length = 1 then .text (id ++ b) else .typeError := by
    rw [format, if_neg (by simp)]
    split <;> rename_i h' <;> rw [hv] at h' <;> cases h'
    simp only [Bool.false_eq_true, if_false]
    by_cases h : c = 'c'
    · subst h
      by_cases h1 : id.length = 1
      · simp [convert, h1, hb', e1, Fmt.prepend, pad]
      · simp [convert, h1]
    · rw [if_neg (fun hx => h hx.1)]
      simp [h] at hc
      rcases hc with rfl | rfl | rfl | rfl | rfl | rfl | rfl | rfl | rfl | rfl | rfl | rfl <;> simp [convert]
  simp only [logName, format_plain q id false a _ ha, hf]
  by_cases h : c = 'c' ∧ id.length = 1
  · simp [h, Fmt.prepend]
  · simp [h, Fmt.prepend]

example : logName id "oj1".toList (some "%d.log".toList) = some (some "%d.log".toList) :=
  (C83_log_kind id "oj1".toList [] ".log".toList 'd' (by decide) (by decide) (by decide)).trans (by decide)

theorem format_percent (q : Str → Str) (id : Str) (used : Bool) (s : Str) :
    format q id used ('%' :: '%' :: s) = (format q id used s).prepend ['%'] := by
  have hv : conv ('%' :: s) = .percent s := by simp [conv, flag, isDigit, precision, modifier]
  rw [format, if_neg (by simp)]
  split <;> rename_i h <;> rw [hv] at h <;> cases h
  rfl

/-- **C83** with a `%s` a doubled `%` is a single one, before it and after it; without one the name of the log is taken literally, both signs included. -/
theorem C83_log_percent (q : Str → Str) (id a b c d : Str) (ha : '%' ∉ a) (hb : '%' ∉ b) (hc : '%' ∉ c) (hd : '%' ∉ d) :
    logName q id (some (a ++ '%' :: '%' :: (b ++ '%' :: 's' :: (c ++ '%' :: '%' :: d)))) =
        some (some (a ++ '%' :: (b ++ id ++ c ++ '%' :: d))) ∧
      logName q id (some (a ++ '%' :: '%' :: b)) = some (some (a ++ '%' :: '%' :: b)) := by
  have e0 : format q id false [] = .typeError := by rw [format]; rfl
  have e1 : format q id true [] = .text [] := by rw [format]; rfl
  have hb' := format_plain q id false b [] hb
  have hd' := format_plain q id true d [] hd
  rw [List.append_nil] at hb' hd'
  constructor
  · simp only [logName, format_plain q id false a _ ha, format_percent, format_plain q id false b _ hb, format_s, format_plain q id true c _ hc, hd', e1,
      Fmt.prepend]
    simp
  · simp only [logName, format_plain q id false a _ ha, format_percent, hb', e0, Fmt.prepend]

example : logName id "oj1".toList (some "100%%-%s%%".toList) = some (some "100%-oj1%".toList) :=
  (C83_log_percent id "oj1".toList "100".toList "-".toList [] [] (by decide) (by decide) (by decide) (by decide)).1

/-- **C83** fails for other names with a `%`: the judge does not start. -/
theorem C83_log_fails (q : Str → Str) (id a b : Str) (c : Char) (ha : '%' ∉ a) (hc : Wrong c) :
    logName q id (some (a ++ '%' :: c :: b)) = none ∧ logName q id (some (a ++ ['%'])) = none := by
  have e : format q id false ['%'] = .valueError := by
    rw [format, if_neg (by simp)]
    split <;> rename_i h <;> simp [conv, precision, modifier] at h
    rfl
  constructor
  · simp only [logName, format_plain q id false a _ ha, format_wrong q id c b hc, Fmt.prepend]
  · simp only [logName, format_plain q id false a _ ha, e, Fmt.prepend]

example : Wrong 't' := by unfold Wrong; decide

/-! ## Asking for an update -/

/-- **C83** over HTTP the list of problems is sent again for a `POST` of `/update/problems` and nothing else, and the answer says whether it will be. -/
theorem C83_control (m : Method) (path : Str) :
    ((control m path).2 = true ↔ m = .post ∧ path = "/update/problems".toList) ∧
      ((control m path).1 = 200 ↔ (control m path).2 = true) := by
  cases m <;> simp only [control] <;> (try split) <;> simp_all

theorem Refresh.run_nil {U : Type} (urls : List U) (web up : U → Bool) (s : Refresh U) : Refresh.run urls web up s [] = s := rfl

theorem Refresh.run_cons {U : Type} (urls : List U) (web up : U → Bool) (s : Refresh U) (a : RAct) (as : List RAct) :
    Refresh.run urls web up s (a :: as) = Refresh.run urls web up (s.step urls web up a) as := rfl

/-- Steps of the thread until all addresses have been tried. -/
inductive Due {U : Type} (urls base : List U) : Refresh U → Nat → Prop
  | pinging (s : Refresh U) (rest pre : List U) : s.terminate = false → s.trigger = true → s.pc = .pinging rest → s.tried = base ++ pre →
      Due urls base s (rest.length + 4 + urls.length)
  | wait (s : Refresh U) (pre : List U) : s.terminate = false → s.trigger = true → s.pc = .wait → s.tried = base ++ pre →
      Due urls base s (3 + urls.length)
  | woken (s : Refresh U) (pre : List U) : s.terminate = false → s.pc = .woken → s.tried = base ++ pre → Due urls base s (2 + urls.length)
  | cleared (s : Refresh U) (pre : List U) : s.terminate = false → s.pc = .cleared → s.tried = base ++ pre → Due urls base s (1 + urls.length)
  | now (s : Refresh U) (pre fst rest : List U) : s.pc = .pinging rest → urls = fst ++ rest → s.tried = base ++ pre ++ fst →
      Due urls base s rest.length
  | done (s : Refresh U) : Since base urls s.tried → Due urls base s 0

theorem Due.step {U : Type} (urls : List U) (web up : U → Bool) (base : List U) (s : Refresh U) (n : Nat) (a : RAct) (h : Due urls base s n)
    (ha : a ≠ .stop) : ∃ m, Due urls base (s.step urls web up a) m ∧ (if a = .worker then m ≤ n - 1 else m ≤ n) := by
  cases a with
  | stop => exact absurd rfl ha
  | refresh =>
    refine ⟨n, ?_, by simp⟩
    cases h with
    | pinging rest pre h1 h2 h3 h4 => exact .pinging _ rest pre h1 rfl h3 h4
    | wait pre h1 h2 h3 h4 => exact .wait _ pre h1 rfl h3 h4
    | woken pre h1 h3 h4 => exact .woken _ pre h1 h3 h4
    | cleared pre h1 h3 h4 => exact .cleared _ pre h1 h3 h4
    | now pre fst rest h1 h2 h3 => exact .now _ pre fst rest h1 h2 h3
    | done h1 => exact .done _ h1
  | worker =>
    simp only [if_true]
    cases h with
    | pinging rest pre h1 h2 h3 h4 =>
      cases rest with
      | nil => exact ⟨_, .wait _ pre (by simp [Refresh.step, h3, h1]) (by simp [Refresh.step, h3, h2]) (by simp [Refresh.step, h3])
          (by simp [Refresh.step, h3, h4]), by simp <;> omega⟩
      | cons u rest => exact ⟨_, .pinging _ rest (pre ++ [u]) (by simp [Refresh.step, h3, h1]) (by simp [Refresh.step, h3, h2])
          (by simp [Refresh.step, h3]) (by simp [Refresh.step, h3, h4]), by simp <;> omega⟩
    | wait pre h1 h2 h3 h4 =>
      exact ⟨_, .woken _ pre (by simp [Refresh.step, h3, h1, h2]) (by simp [Refresh.step, h3, h2]) (by simp [Refresh.step, h3, h4, h2]), by omega⟩
    | woken pre h1 h3 h4 =>
      exact ⟨_, .cleared _ pre (by simp [Refresh.step, h3, h1]) (by simp [Refresh.step, h3]) (by simp [Refresh.step, h3, h4]), by omega⟩
    | cleared pre h1 h3 h4 =>
      exact ⟨_, .now _ pre [] urls (by simp [Refresh.step, h3, h1]) rfl (by simp [Refresh.step, h3, h4, h1]), by omega⟩
    | now pre fst rest h1 h2 h3 =>
      cases rest with
      | nil => exact ⟨0, .done _ ⟨pre, [], by simp [Refresh.step, h1, h3, h2]⟩, by simp⟩
      | cons u rest =>
        exact ⟨_, .now _ pre (fst ++ [u]) rest (by simp [Refresh.step, h1]) (by simp [h2]) (by simp [Refresh.step, h1, h3]), by simp⟩
    | done h1 =>
      refine ⟨0, .done _ ?_, by omega⟩
      obtain ⟨a, b, e⟩ := h1
      unfold Refresh.step
      simp only
      split
      · split <;> exact ⟨a, b, e⟩
      · exact ⟨a, b, e⟩
      · split <;> exact ⟨a, b, e⟩
      · exact ⟨a, b, e⟩
      · next u rest _ => exact ⟨a, b ++ [u], by simp [e]⟩
      · exact ⟨a, b, e⟩

theorem Due.zero {U : Type} (urls base : List U) (s : Refresh U) (h : Due urls base s 0) : Since base urls s.tried := by
  generalize hn : (0 : Nat) = n at h
  cases h with
  | pinging rest pre h1 h2 h3 h4 => omega
  | wait pre h1 h2 h3 h4 => omega
  | woken pre h1 h3 h4 => omega
  | cleared pre h1 h3 h4 => omega
  | now pre fst rest h1 h2 h3 =>
    have : rest = [] := List.length_eq_zero_iff.mp hn.symm
    subst this
    exact ⟨pre, [], by simp [h3, h2]⟩
  | done h1 => exact h1

theorem Due.run {U : Type} (urls : List U) (web up : U → Bool) (base : List U) (as : List RAct) (s : Refresh U) (n : Nat) (h : Due urls base s n)
    (ha : .stop ∉ as) (hn : n ≤ as.count .worker) : Since base urls (Refresh.run urls web up s as).tried := by
  induction as generalizing s n with
  | nil =>
    simp at hn
    subst hn
    exact h.zero
  | cons a as ih =>
    rw [Refresh.run_cons]
    obtain ⟨m, h1, h2⟩ := h.step urls web up base s n a (fun e => ha (by simp [e]))
    refine ih _ m h1 (fun e => ha (by simp [e])) ?_
    rw [List.count_cons] at hn
    by_cases e : a = .worker
    · simp [e] at hn h2; omega
    · simp [e] at hn h2; omega

theorem Refresh.not_exited {U : Type} (urls : List U) (web up : U → Bool) (as : List RAct) (s : Refresh U)
    (h : s.pc = .exited → s.terminate = true) :
    (Refresh.run urls web up s as).pc = .exited → (Refresh.run urls web up s as).terminate = true := by
  induction as generalizing s with
  | nil => exact h
  | cons a as ih =>
    rw [Refresh.run_cons]
    refine ih _ ?_
    unfold Refresh.step
    cases a with
    | refresh => exact h
    | stop => simp
    | worker => simp only; split <;> (try split) <;> simp_all

/-- Attempts made and still to be made for the changes so far. -/
def Refresh.owed {U : Type} (urls : List U) (s : Refresh U) : Nat :=
  s.tried.length +
    match s.pc with
    | .wait => if s.terminate then 0 else if s.trigger then urls.length else 0
    | .woken => if s.terminate then 0 else urls.length
    | .cleared => if s.terminate then 0 else urls.length + (if s.trigger then urls.length else 0)
    | .pinging rest => rest.length + (if s.terminate then 0 else if s.trigger then urls.length else 0)
    | .exited => 0

theorem Refresh.owed_step {U : Type} (urls : List U) (web up : U → Bool) (s : Refresh U) (a : RAct) :
    (s.step urls web up a).owed urls ≤ s.owed urls + (if a = .refresh then urls.length else 0) := by
  obtain ⟨tr, te, pc, t, p⟩ := s
  cases a with
  | refresh => cases pc <;> cases tr <;> cases te <;> simp [Refresh.step, Refresh.owed] <;> omega
  | stop => cases pc <;> cases tr <;> cases te <;> simp [Refresh.step, Refresh.owed] <;> omega
  | worker =>
    cases pc with
    | wait => cases tr <;> cases te <;> simp [Refresh.step, Refresh.owed]
    | woken => cases tr <;> cases te <;> simp [Refresh.step, Refresh.owed]
    | cleared => cases tr <;> cases te <;> simp [Refresh.step, Refresh.owed] <;> omega
    | pinging rest => cases rest <;> cases tr <;> cases te <;> simp [Refresh.step, Refresh.owed] <;> omega
    | exited => cases tr <;> cases te <;> simp [Refresh.step, Refresh.owed]

/-- **C83** and there is at most one round for each change, so that none is made without a change. -/
theorem C83_refresh_once {U : Type} (urls : List U) (web up : U → Bool) (as : List RAct) :
    (Refresh.run urls web up {} as).tried.length ≤ as.count .refresh * urls.length := by
  have key : ∀ (as : List RAct) (s : Refresh U), (Refresh.run urls web up s as).owed urls ≤ s.owed urls + as.count .refresh * urls.length := by
    intro as
    induction as with
    | nil => intro s; simp [Refresh.run_nil]
    | cons a as ih =>
      intro s
      rw [Refresh.run_cons]
      have h1 := ih (s.step urls web up a)
      have h2 := s.owed_step urls web up a
      by_cases e : a = .refresh
      · rw [if_pos e] at h2
        rw [e, List.count_cons_self, Nat.add_mul, Nat.one_mul]
        subst e
        omega
      · rw [if_neg e] at h2
        rw [List.count_cons_of_ne e]
        omega
  have h := key as {}
  have h0 : Refresh.owed urls ({} : Refresh U) = 0 := rfl
  have h1 : (Refresh.run urls web up {} as).tried.length ≤ (Refresh.run urls web up {} as).owed urls := Nat.le_add_right _ _
  omega

example : (Refresh.run [1, 2] (fun _ => false) (fun _ => true) {} (.refresh :: List.replicate 20 .worker)).tried = [1, 2] := by decide

/-- Steps of the thread until it ends, once it has been told to. -/
def Refresh.left {U : Type} (s : Refresh U) : Nat :=
  match s.pc with
  | .wait => 3
  | .woken => 2
  | .cleared => 1
  | .pinging rest => rest.length + 4
  | .exited => 0

/-- It has been told to end, and will not wait for anything else. -/
def Refresh.Told {U : Type} (s : Refresh U) : Prop :=
  s.terminate = true ∧ ((s.pc = .wait ∨ ∃ rest, s.pc = .pinging rest) → s.trigger = true)

theorem Refresh.told_step {U : Type} (urls : List U) (web up : U → Bool) (s : Refresh U) (a : RAct) (h : s.Told) :
    (s.step urls web up a).Told ∧ (s.step urls web up a).left ≤ s.left - (if a = .worker then 1 else 0) := by
  obtain ⟨tr, te, pc, t, p⟩ := s
  obtain ⟨h1, h2⟩ := h
  dsimp only at h1 h2
  subst h1
  cases a with
  | refresh => cases pc <;> simp [Refresh.step, Refresh.Told, Refresh.left]
  | stop => cases pc <;> simp [Refresh.step, Refresh.Told, Refresh.left]
  | worker =>
    cases pc with
    | wait => have := h2 (.inl rfl); subst this; simp [Refresh.step, Refresh.Told, Refresh.left]
    | woken => simp [Refresh.step, Refresh.Told, Refresh.left]
    | cleared => simp [Refresh.step, Refresh.Told, Refresh.left]
    | pinging rest =>
      have := h2 (.inr ⟨rest, rfl⟩)
      subst this
      cases rest <;> simp [Refresh.step, Refresh.Told, Refresh.left]
    | exited => simp [Refresh.step, Refresh.Told, Refresh.left]

theorem Refresh.told_run {U : Type} (urls : List U) (web up : U → Bool) (as : List RAct) (s : Refresh U) (h : s.Told) (hn : s.left ≤ as.count .worker) :
    (Refresh.run urls web up s as).pc = .exited := by
  induction as generalizing s with
  | nil =>
    rw [Refresh.run_nil]
    simp at hn
    unfold Refresh.left at hn
    split at hn <;> first | omega | assumption
  | cons a as ih =>
    rw [Refresh.run_cons]
    obtain ⟨h1, h2⟩ := s.told_step urls web up a h
    refine ih _ h1 ?_
    rw [List.count_cons] at hn
    by_cases e : a = .worker
    · simp [e] at hn h2 ⊢; omega
    · simp [e] at hn h2; omega

theorem Refresh.left_run {U : Type} (urls : List U) (web up : U → Bool) (as : List RAct) (s : Refresh U) (h : s.left ≤ urls.length + 4) :
    (Refresh.run urls web up s as).left ≤ urls.length + 4 := by
  induction as generalizing s with
  | nil => exact h
  | cons a as ih =>
    rw [Refresh.run_cons]
    refine ih _ ?_
    obtain ⟨tr, te, pc, t, p⟩ := s
    cases a with
    | refresh => exact h
    | stop => exact h
    | worker =>
      cases pc with
      | wait => cases tr <;> simp [Refresh.step, Refresh.left] <;> omega
      | woken => simp [Refresh.step, Refresh.left]
      | cleared => cases te <;> simp [Refresh.step, Refresh.left]
      | pinging rest => cases rest <;> simp [Refresh.step, Refresh.left] at h ⊢ <;> omega
      | exited => exact h

/-- **C83** when the judge stops the thread ends, after at most the round it is in, whatever it was doing, so that waiting for it ends. -/
theorem C83_refresh_stops {U : Type} (urls : List U) (web up : U → Bool) (before after : List RAct) (hn : urls.length + 4 ≤ after.count .worker) :
    (Refresh.run urls web up {} (before ++ .stop :: after)).pc = .exited := by
  have e : Refresh.run urls web up ({} : Refresh U) (before ++ .stop :: after) =
      Refresh.run urls web up ((Refresh.run urls web up {} before).step urls web up .stop) after := by
    simp [Refresh.run]
  rw [e]
  refine Refresh.told_run urls web up after _ ⟨rfl, fun _ => rfl⟩ ?_
  exact Nat.le_trans (Refresh.left_run urls web up before {} (by simp [Refresh.left])) hn

example : (Refresh.run [1, 2] (fun _ => false) (fun _ => true) {} ([.refresh, .worker, .worker] ++ .stop :: List.replicate 6 .worker)).pc = .exited :=
  C83_refresh_stops _ _ _ _ _ (by decide)

/-- **C83** after any change all other servers are tried, in order, however the change falls together with an earlier round: as soon as the thread
has made so many steps, whatever else happens. -/
theorem C83_refresh {U : Type} (urls : List U) (web up : U → Bool) (before after : List RAct) (h1 : .stop ∉ before) (h2 : .stop ∉ after)
    (hn : 2 * urls.length + 4 ≤ after.count .worker) :
    Since (Refresh.run urls web up {} before).tried urls (Refresh.run urls web up {} (before ++ .refresh :: after)).tried := by
  have hr : Refresh.run urls web up {} (before ++ .refresh :: after) =
      Refresh.run urls web up ((Refresh.run urls web up {} before).step urls web up .refresh) after := by
    simp [Refresh.run, List.foldl_append]
  rw [hr]
  have ht : (Refresh.run urls web up {} before).terminate = false := by
    have : ∀ (as : List RAct) (s : Refresh U), .stop ∉ as → s.terminate = false → (Refresh.run urls web up s as).terminate = false := by
      intro as
      induction as with
      | nil => intro s _ h; exact h
      | cons a as ih =>
        intro s hs h
        rw [Refresh.run_cons]
        refine ih _ (fun e => hs (by simp [e])) ?_
        cases a with
        | refresh => exact h
        | stop => exact absurd (by simp) hs
        | worker => unfold Refresh.step; simp only; split <;> (try split) <;> simp_all
    exact this before {} h1 rfl
  have hrest : ∀ (as : List RAct) (s : Refresh U), (∀ r, s.pc = .pinging r → r.length ≤ urls.length) →
      ∀ r, (Refresh.run urls web up s as).pc = .pinging r → r.length ≤ urls.length := by
    intro as
    induction as with
    | nil => intro s h; exact h
    | cons a as ih =>
      intro s h
      rw [Refresh.run_cons]
      refine ih _ ?_
      cases a with
      | refresh => exact h
      | stop => exact h
      | worker =>
        intro r
        unfold Refresh.step
        simp only
        split <;> (try split) <;> intro e <;> simp_all <;> omega
  have hx := Refresh.not_exited urls web up before {} (by simp)
  generalize hs : Refresh.run urls web up {} before = s at *
  have hr := hrest before {} (by simp)
  rw [hs] at hr
  cases hp : s.pc with
  | wait => exact Due.run urls web up s.tried after _ _ (.wait _ [] ht rfl hp (by simp [Refresh.step])) h2 (by omega)
  | woken => exact Due.run urls web up s.tried after _ _ (.woken _ [] ht hp (by simp [Refresh.step])) h2 (by omega)
  | cleared => exact Due.run urls web up s.tried after _ _ (.cleared _ [] ht hp (by simp [Refresh.step])) h2 (by omega)
  | pinging rest =>
    have := hr rest hp
    exact Due.run urls web up s.tried after _ _ (.pinging _ rest [] ht rfl hp (by simp [Refresh.step])) h2 (by omega)
  | exited => rw [hx hp] at ht; exact nomatch ht

example : (Refresh.run [1, 2] (fun _ => false) (fun _ => true) {} ([.refresh] ++ List.replicate 9 .worker)).tried = [1, 2] := by decide

/-- **C83** any change below the problem directories has the list of problems sent again, unless the judge is stopping, and the other servers tried if there
are any configured. -/
theorem C83_event {U : Type} (urls : List U) (web up : U → Bool) (ub ua : List Net.UAct) (rb ra : List RAct) (h1 : .stop ∉ rb) (h2 : .stop ∉ ra)
    (hn : 2 * urls.length + 4 ≤ ra.count .worker) (r : Bool) :
    ((Net.Upd.init.run ub).pushes < (Net.Upd.init.run (ub ++ (onEvent r).1 :: ua)).pushes ∨ (Net.Upd.init.run (ub ++ (onEvent r).1 :: ua)).exit = true ∨
        ∃ n ≤ 5, (Net.Upd.init.run (ub ++ (onEvent r).1 :: ua)).pushes <
          ((Net.Upd.init.run (ub ++ (onEvent r).1 :: ua)).run (List.replicate n .updater)).pushes) ∧
      (r = true → Since (Refresh.run urls web up {} rb).tried urls (Refresh.run urls web up {} (rb ++ (onEvent r).2.toList ++ ra)).tried) := by
  refine ⟨Props.C21_no_lost_update ub ua, ?_⟩
  rintro rfl
  have := C83_refresh urls web up rb ra h1 h2 hn
  simpa [onEvent] using this

/-- **C83** but fails for servers on the web: the request is never made, as its empty body is a string. -/
theorem C83_ping_fails {U : Type} (urls : List U) (web up : U → Bool) (as : List RAct) (u : U) (hu : web u = true) :
    u ∉ (Refresh.run urls web up {} as).pinged := by
  have : ∀ (as : List RAct) (s : Refresh U), u ∉ s.pinged → u ∉ (Refresh.run urls web up s as).pinged := by
    intro as
    induction as with
    | nil => intro s h; exact h
    | cons a as ih =>
      intro s h
      rw [Refresh.run_cons]
      refine ih _ ?_
      cases a with
      | refresh => exact h
      | stop => exact h
      | worker =>
        unfold Refresh.step
        simp only
        split
        · split <;> exact h
        · exact h
        · split <;> exact h
        · exact h
        · next v rest _ =>
          simp only [List.mem_append, not_or]
          refine ⟨h, ?_⟩
          unfold reach
          by_cases e : u = v
          · subst e; simp [hu]
          · split <;> simp [e]
        · exact h
  exact this as {} (by simp)

/-! ## Stopping -/

theorem St.run_nil (s : St) : s.run [] = s := rfl

theorem St.run_cons (s : St) (a : Act) (as : List Act) : s.run (a :: as) = (s.act a).run as := rfl

theorem St.run_append (s : St) (as bs : List Act) : s.run (as ++ bs) = (s.run as).run bs := List.foldl_append

theorem St.act_exited (s : St) (a : Act) (h : s.exited.isSome = true) : s.act a = s := by
  simp [St.act, St.step, h]

theorem St.run_exited (s : St) (as : List Act) (h : s.exited.isSome = true) : s.run as = s := by
  induction as with
  | nil => rfl
  | cons a as ih => rw [St.run_cons, St.act_exited s a h, ih]

/-- An invariant of all actions in a set holds at the end. -/
theorem St.run_inv (P : St → Prop) (A : Act → Prop) (hs : ∀ s a s', P s → A a → s.step a = some s' → P s') (s : St) (as : List Act)
    (h : P s) (ha : ∀ a ∈ as, A a) : P (s.run as) := by
  induction as generalizing s with
  | nil => exact h
  | cons a as ih =>
    rw [St.run_cons]
    refine ih _ ?_ (fun b hb => ha b (by simp [hb]))
    unfold St.act
    cases e : s.step a with
    | none => exact h
    | some s' => exact hs s a s' h (ha a (by simp)) e

/-- How far the main thread is. -/
def far : Pc → Nat
  | .listen => 9
  | .dClose => 8
  | .dWait => 7
  | .mWait => 6
  | .mExit => 5
  | .mSignal => 4
  | .mClose => 3
  | .mApi => 2
  | .mMonitor => 1
  | .done _ => 0

/-- What holds while the judge stops, unless it is interrupted once more. -/
structure Stops (s : St) : Prop where
  left : s.main ≠ .listen
  exit : far s.main ≤ 4 → s.upd.exit = true
  signal : far s.main ≤ 3 → s.upd.signal = true ∨ s.upd.pc = .cleared ∨ s.upd.pc = .exited
  closed : far s.main ≤ 2 → s.closed = true

theorem Stops.step (s : St) (a : Act) (s' : St) (h : Stops s) (ha : a ≠ .interrupt) (e : s.step a = some s') : Stops s' := by
  obtain ⟨h1, h2, h3, h4⟩ := h
  unfold St.step at e
  split at e
  · exact nomatch e
  cases a <;> simp only at e
  case interrupt => exact absurd rfl ha
  case main t =>
    unfold St.mainStep at e
    constructor <;> cases hm : s.main <;> simp only [hm] at e <;> (try split at e) <;> (try contradiction) <;> cases e <;>
      simp_all [far, Net.Upd.step]
  case updater ok =>
    have hu := h2
    constructor <;> grind [St.send, Net.Upd.step, Net.Upd.loop]
  case flusher => constructor <;> grind [St.flStep, St.send]
  case reap => constructor <;> grind
  all_goals constructor <;> grind [St.send, Net.Upd.step, far]

/-- Steps of the updater until it ends. -/
def uFar : Net.UPc → Nat
  | .ready => 5
  | .pushing => 4
  | .wait => 3
  | .woken => 2
  | .cleared => 1
  | .exited => 0

/-- Steps of the flusher until it ends. -/
def fFar : Fl → Nat
  | .nap => 3
  | .flush => 2
  | .check => 1
  | .done => 0

theorem main_far (s : St) (a : Act) (h : Stops s) (ha : a ≠ .interrupt) (hx : s.exited = none) :
    far (s.act a).main ≤ far s.main ∧ (a = .main true → far (s.act a).main ≤ far s.main - 1) := by
  obtain ⟨h1, h2, h3, h4⟩ := h
  unfold St.act St.step
  cases a <;> simp only [hx, Option.isSome_none, Bool.false_eq_true, if_false]
  case interrupt => exact absurd rfl ha
  case main t =>
    unfold St.mainStep
    by_cases g1 : s.gr = .idle <;> by_cases g2 : s.gr = .gone <;> cases hm : s.main <;> cases t <;> simp_all [far]
  case flusher => grind [St.flStep, St.send, Option.getD]
  all_goals grind [St.send, far, Option.getD]

theorem thread_far (s : St) (a : Act) (h : Stops s) (ha : a ≠ .interrupt) (hm : far s.main = 0) (hx : (s.act a).exited = none) :
    uFar (s.act a).upd.pc ≤ uFar s.upd.pc ∧ fFar (s.act a).fl ≤ fFar s.fl ∧
      ((∃ ok, a = .updater ok) → uFar (s.act a).upd.pc ≤ uFar s.upd.pc - 1) ∧
      (a = .flusher → fFar (s.act a).fl ≤ fFar s.fl - 1) := by
  obtain ⟨h1, h2, h3, h4⟩ := h
  have h2 := h2 (by omega)
  have h3 := h3 (by omega)
  have h4 := h4 (by omega)
  revert hx
  unfold St.act St.step
  by_cases hs : s.exited.isSome = true
  · simp only [hs, if_true, Option.getD]
    intro hx; rw [hx] at hs; exact nomatch hs
  cases a <;> simp only [hs, if_false] <;> intro hx
  case interrupt => exact absurd rfl ha
  case main t =>
    unfold St.mainStep
    cases hm' : s.main <;> simp [hm', far] at hm <;> simp
  case flusher =>
    revert hx
    unfold St.flStep St.send
    cases hf : s.fl <;> simp [fFar, h4, hf]
    split <;> simp
  case updater ok =>
    revert hx
    unfold St.send Net.Upd.step Net.Upd.loop
    cases hp : s.upd.pc <;> simp_all [uFar] <;> (try split) <;> simp
  all_goals grind [St.send, Option.getD, Net.Upd.step]

theorem Stops.act (s : St) (a : Act) (h : Stops s) (ha : a ≠ .interrupt) : Stops (s.act a) := by
  unfold St.act
  cases e : s.step a with
  | none => exact h
  | some s' => exact h.step s a s' ha e

theorem Stops.run (s : St) (as : List Act) (h : Stops s) (ha : .interrupt ∉ as) : Stops (s.run as) :=
  St.run_inv Stops (· ≠ .interrupt) (fun s a s' h ha e => h.step s a s' ha e) s as h (fun a h' e => ha (e ▸ h'))

theorem main_done (s : St) (as : List Act) (h : Stops s) (ha : .interrupt ∉ as) (hn : far s.main ≤ as.count (.main true)) :
    (s.run as).exited.isSome = true ∨ far (s.run as).main = 0 := by
  induction as generalizing s with
  | nil => right; rw [St.run_nil]; simpa using hn
  | cons a as ih =>
    rw [St.run_cons]
    cases hx : s.exited with
    | some c => left; rw [St.act_exited s a (by simp [hx]), St.run_exited s as (by simp [hx])]; simp [hx]
    | none =>
      have ha' : a ≠ .interrupt := fun e => ha (by simp [e])
      obtain ⟨h1, h2⟩ := main_far s a h ha' hx
      refine ih _ (h.act s a ha') (fun e => ha (by simp [e])) ?_
      rw [List.count_cons] at hn
      by_cases e : a = .main true
      · have := h2 e
        simp [e] at hn ⊢
        rw [e] at this
        omega
      · simp [e] at hn; omega

/-- Whether it is the updater's turn. -/
def isUpdater : Act → Bool
  | .updater _ => true
  | _ => false

theorem main_stays (s : St) (a : Act) (h : far s.main = 0) (ha : a ≠ .interrupt) : far (s.act a).main = 0 := by
  unfold St.act St.step
  by_cases hs : s.exited.isSome = true
  · simp [hs, h]
  cases a <;> simp only [hs, if_false]
  case interrupt => exact absurd rfl ha
  case main t =>
    unfold St.mainStep
    cases hm' : s.main <;> simp [hm', far] at h <;> simp [hm', far]
  case flusher => grind [St.flStep, St.send, Option.getD]
  all_goals grind [St.send, Option.getD, far]

theorem threads_done (s : St) (as : List Act) (h : Stops s) (hm : far s.main = 0) (ha : .interrupt ∉ as)
    (hu : uFar s.upd.pc ≤ as.countP isUpdater) (hf : fFar s.fl ≤ as.count .flusher) :
    (s.run as).exited.isSome = true ∨ (far (s.run as).main = 0 ∧ (s.run as).upd.pc = .exited ∧ (s.run as).fl = .done) := by
  induction as generalizing s with
  | nil =>
    right
    simp at hu hf
    rw [St.run_nil]
    refine ⟨hm, ?_, ?_⟩
    · cases hp : s.upd.pc <;> simp [hp, uFar] at hu; rfl
    · cases hp : s.fl <;> simp [hp, fFar] at hf; rfl
  | cons a as ih =>
    rw [St.run_cons]
    cases hx : (s.act a).exited with
    | some c => left; rw [St.run_exited _ as (by simp [hx])]; simp [hx]
    | none =>
      have ha' : a ≠ .interrupt := fun e => ha (by simp [e])
      obtain ⟨h1, h2, h3, h4⟩ := thread_far s a h ha' hm hx
      refine ih _ (h.act s a ha') (main_stays s a hm ha') (fun e => ha (by simp [e])) ?_ ?_
      · rw [List.countP_cons] at hu
        cases e : isUpdater a with
        | true =>
          have := h3 (by cases a <;> simp [isUpdater] at e; exact ⟨_, rfl⟩)
          simp [e] at hu; omega
        | false => simp [e] at hu; omega
      · rw [List.count_cons] at hf
        by_cases e : a = .flusher
        · have := h4 e
          simp [e] at hf ⊢
          rw [e] at this
          omega
        · simp [e] at hf; omega

/-- The ways the judge is told to stop while it listens. -/
def stopping : List Act := [.disconnect, .interrupt, .fail]

theorem Stops.begin (s : St) (a : Act) (ha : a ∈ stopping) (hl : s.main = .listen) (hx : s.exited = none) :
    Stops (s.act a) ∧ far (s.act a).main ≤ 8 := by
  simp [stopping] at ha
  rcases ha with rfl | rfl | rfl <;> simp only [St.act, St.step, hx, hl] <;> refine ⟨⟨?_, ?_, ?_, ?_⟩, ?_⟩ <;> simp [far]

/-- **C83** once told to stop, the judge ends: in every state, whatever the other threads do meanwhile, unless it is interrupted a second time. The main
thread needs eight steps, in which waiting for the worker may take too long, and after them the updater five and the flusher three. -/
theorem C83_ends_partial (s : St) (hl : s.main = .listen) (stop : Act) (hs : stop ∈ stopping) (as bs : List Act) (ha : .interrupt ∉ as)
    (hb : .interrupt ∉ bs) (hm : 8 ≤ as.count (.main true)) (hu : 5 ≤ bs.countP isUpdater) (hf : 3 ≤ bs.count .flusher) :
    (s.run (stop :: as ++ bs ++ [.reap])).exited.isSome = true := by
  have hrun : s.run (stop :: as ++ bs ++ [.reap]) = ((((s.act stop).run as).run bs).act .reap) := by
    simp [St.run, List.foldl_append]
  rw [hrun]
  have keep : ∀ t : St, t.exited.isSome = true → (t.act .reap).exited.isSome = true := fun t h => by rw [St.act_exited t _ h]; exact h
  cases hx : s.exited with
  | some c =>
    have h' : s.exited.isSome = true := by simp [hx]
    rw [St.act_exited s _ h', St.run_exited s _ h', St.run_exited s _ h', St.act_exited s _ h']
    exact h'
  | none =>
    obtain ⟨h1, h2⟩ := Stops.begin s stop hs hl hx
    have h3 := h1.run _ as ha
    rcases main_done _ as h1 ha (by omega) with h | h
    · rw [St.run_exited _ bs h]; exact keep _ h
    · have hu' : uFar ((s.act stop).run as).upd.pc ≤ 5 := by cases ((s.act stop).run as).upd.pc <;> simp [uFar]
      have hf' : fFar ((s.act stop).run as).fl ≤ 3 := by cases ((s.act stop).run as).fl <;> simp [fFar]
      rcases threads_done _ bs h3 h hb (by omega) (by omega) with h | ⟨h4, h5, h6⟩
      · exact keep _ h
      · cases hx' : (((s.act stop).run as).run bs).exited with
        | some c => exact keep _ (by simp [hx'])
        | none =>
          generalize ((s.act stop).run as).run bs = t at *
          unfold St.act St.step
          cases hm' : t.main <;> simp [hm', far] at h4
          simp [hx', h5, h6]

/-- What holds at all times. -/
structure Sound (s : St) : Prop where
  queue : s.gr ≠ .busy → s.queue = 0
  flusher : s.fl = .done → s.closed = true
  exit : s.main = .listen → s.upd.exit = false
  shut : s.main = .listen → s.closed = false

theorem Sound.step (s : St) (a : Act) (s' : St) (h : Sound s) (e : s.step a = some s') : Sound s' := by
  obtain ⟨h1, h2, h3, h4⟩ := h
  unfold St.step at e
  split at e
  · exact nomatch e
  cases a <;> simp only at e
  case main t =>
    unfold St.mainStep at e
    constructor <;> cases hm : s.main <;> simp only [hm] at e <;> (try split at e) <;> (try contradiction) <;> cases e <;>
      simp_all [Net.Upd.step]
  case updater ok => constructor <;> grind [St.send, Net.Upd.step, Net.Upd.loop]
  case flusher => constructor <;> grind [St.flStep, St.send]
  all_goals constructor <;> grind [St.send, Net.Upd.step]

theorem Sound.run (m : Bool) (as : List Act) : Sound (St.run { monitor := m } as) :=
  St.run_inv Sound (fun _ => True) (fun s a s' h _ e => h.step s a s' e) _ as
    ⟨fun _ => rfl, fun h => (nomatch h), fun _ => rfl, fun _ => rfl⟩ (fun _ _ => trivial)

/-- What holds while the judge stops with all said. -/
structure Clean (s : St) : Prop where
  code : s.exited = none ∨ s.exited = some 0
  done : ∀ c, s.main = .done c → c = 0
  monitor : s.monitor = true
  left : s.main ≠ .listen
  early : 4 ≤ far s.main → s.upd.pc = .wait ∧ s.upd.signal = false
  exit : far s.main ≤ 4 → s.upd.exit = true
  upd : s.upd.pc = .wait ∨ s.upd.pc = .woken ∨ s.upd.pc = .cleared ∨ s.upd.pc = .exited
  free : far s.main ≤ 5 ∨ 8 = far s.main ∨ s.closed = true → s.gr = .idle ∨ s.gr = .gone
  queue : s.gr ≠ .busy → s.queue = 0

theorem Clean.step (s : St) (a : Act) (s' : St) (h : Clean s) (ha : a ≠ .interrupt ∧ a ≠ .main true ∧ a ≠ .request)
    (e : s.step a = some s') : Clean s' := by
  obtain ⟨h1, h2, h3, h4, h5, h6, h7, h8, h9⟩ := h
  obtain ⟨a1, a2, a3⟩ := ha
  unfold St.step at e
  split at e
  · exact nomatch e
  cases a <;> simp only at e
  case interrupt => exact absurd rfl a1
  case request => exact absurd rfl a3
  case main t =>
    cases t with
    | true => exact absurd rfl a2
    | false =>
      unfold St.mainStep at e
      constructor <;> cases hm : s.main <;> simp only [hm] at e <;> (try split at e) <;> (try contradiction) <;> cases e <;>
        simp_all [Net.Upd.step, far]
  case updater ok => constructor <;> grind [St.send, Net.Upd.step, Net.Upd.loop]
  case flusher => constructor <;> grind [St.flStep, St.send]
  all_goals constructor <;> grind [St.send, Net.Upd.step]

example : (St.run { gr := .busy, upd := ⟨true, false, .ready, true, 0⟩ }
    (.interrupt :: List.replicate 8 (.main true) ++ (List.replicate 5 (.updater false) ++ List.replicate 3 .flusher) ++ [.reap])).exited =
    some 0 := by decide

/-- The state when the judge is told to stop: nothing else is asked of the updater. -/
def Quiet (s : St) : Prop := s.main = .listen ∧ s.exited = none ∧ s.upd.pc = .wait ∧ s.upd.signal = false

/-- **C83** a judge that is told to stop by a signal while it grades, or by the site while it does not, ends with code 0, and results that were waiting
have been sent when the connection is closed. As long as it is not interrupted a second time, the list of problems is not sent meanwhile, the worker
ends in time and the directories of problems were watched. -/
theorem C83_clean_partial (before as : List Act) (stop : Act) (hs : stop ∈ stopping) (hq : Quiet (St.run {} before))
    (hd : stop = .disconnect → (St.run {} before).gr = .idle) (ha : ∀ a ∈ as, a ≠ .interrupt ∧ a ≠ .main true ∧ a ≠ .request) :
    ((St.run {} (before ++ stop :: as)).exited = none ∨ (St.run {} (before ++ stop :: as)).exited = some 0) ∧
      ((St.run {} (before ++ stop :: as)).closed = true → (St.run {} (before ++ stop :: as)).queue = 0) := by
  have hso := Sound.run true before
  have hmon : ∀ as : List Act, (St.run {} as).monitor = true := fun as =>
    St.run_inv (fun s => s.monitor = true) (fun _ => True) (by
      intro s a s' h _ e
      unfold St.step at e
      split at e
      · exact nomatch e
      cases a <;> simp only at e
      case main t =>
        unfold St.mainStep at e
        cases hm : s.main <;> simp only [hm] at e <;> (try split at e) <;> (try contradiction) <;> cases e <;> exact h
      case flusher => grind [St.flStep, St.send]
      all_goals grind [St.send]) {} as rfl (fun _ _ => trivial)
  have hm := hmon before
  have hrun : St.run {} (before ++ stop :: as) = ((St.run {} before).act stop).run as := by simp [St.run, List.foldl_append]
  rw [hrun]
  change Sound (St.run {} before) at hso
  obtain ⟨q1, q2, q3, q4⟩ := hq
  generalize St.run {} before = s at *
  have hc : Clean (s.act stop) := by
    have e1 := hso.queue
    have e2 := hso.shut q1
    simp [stopping] at hs
    rcases hs with rfl | rfl | rfl <;> simp only [St.act, St.step, q1, q2] <;> constructor <;> simp_all [far]
  have hfin := St.run_inv Clean _ (fun s a s' h ha e => h.step s a s' ha e) _ as hc ha
  refine ⟨hfin.code, fun hcl => hfin.queue ?_⟩
  rcases hfin.free (.inr (.inr hcl)) with h | h <;> simp [h]

example : Quiet (St.run {} [.submit, .result]) ∧
    (St.run {} ([.submit, .result] ++ .interrupt :: ([.last, .bye] ++ List.replicate 6 (.main false) ++ List.replicate 3 (.updater true) ++
      [.flusher, .reap]))).exited = some 0 := by unfold Quiet; decide

/-- **C83** fails when the site asks to disconnect while a submission is graded: the connection is closed first, so saying that it was aborted ends the
process with code 1, and it ends in no other way. -/
theorem C83_disconnect_fails (s : St) (hl : s.main = .listen) (hx : s.exited = none) (hg : s.gr = .busy) (as : List Act)
    (ha : ∀ a ∈ as, a ≠ .interrupt ∧ a ≠ .main true) :
    (s.run (.disconnect :: .main false :: as)).exited = none ∨ (s.run (.disconnect :: .main false :: as)).exited = some 1 := by
  have hP := St.run_inv (fun t => t.exited = some 1 ∨ (t.exited = none ∧ t.main = .dWait ∧ t.closed = true ∧ t.gr = .busy))
    (fun a => a ≠ .interrupt ∧ a ≠ .main true) (by
      intro t a t' h ha e
      have hsome : t.exited.isSome = false := by
        cases h' : t.exited.isSome with
        | false => rfl
        | true => simp [St.step, h'] at e
      rcases h with h | ⟨h1, h2, h3, h4⟩
      · simp [h] at hsome
      unfold St.step at e
      simp only [hsome, Bool.false_eq_true, if_false] at e
      cases a <;> simp only at e
      case main b =>
        cases b with
        | true => exact absurd rfl ha.2
        | false => simp [St.mainStep, h2, h4] at e
      case interrupt => exact absurd rfl ha.1
      case flusher => grind [St.flStep, St.send]
      all_goals grind [St.send]) (s.run [.disconnect, .main false]) as
    (.inr (by simp [St.run, St.act, St.step, St.mainStep, hl, hx, hg])) ha
  have hrun : s.run (.disconnect :: .main false :: as) = (s.run [.disconnect, .main false]).run as := rfl
  rw [hrun]
  rcases hP with h | h
  · exact .inr h
  · exact .inl h.1

example : (St.run {} [.submit, .disconnect, .main false, .last]).exited = some 1 := by decide

/-- **C83** fails when the directories of problems could not be watched: the thread that was not started cannot be waited for, and the code is 1. -/
theorem C83_monitor_fails (as : List Act) (c : Nat) (h : (St.run { monitor := false } as).exited = some c) : c = 1 := by
  have hP := St.run_inv (fun s => s.monitor = false ∧ (∀ c, s.main = .done c → c = 1) ∧ (∀ c, s.exited = some c → c = 1)) (fun _ => True) (by
    intro s a s' ⟨h1, h2, h3⟩ _ e
    unfold St.step at e
    split at e
    · exact nomatch e
    cases a <;> simp only at e
    case main t =>
      unfold St.mainStep at e
      cases hm : s.main <;> simp only [hm] at e <;> (try split at e) <;> (try contradiction) <;> cases e <;> simp_all
    case flusher => grind [St.flStep, St.send]
    all_goals grind [St.send]) { monitor := false } as ⟨rfl, by simp, by simp⟩ (fun _ _ => trivial)
  exact hP.2.2 c h

example : (St.run { monitor := false } (.interrupt :: List.replicate 6 (.main false) ++ List.replicate 3 (.updater true) ++
    [.flusher, .reap])).exited = some 1 := by decide

/-- **C83** fails when the judge is interrupted again while it waits for the worker: neither of the other threads is told, and the process never ends. -/
theorem C83_twice_fails (m : Bool) (before as : List Act) (h1 : (St.run { monitor := m } before).main = .mWait)
    (h2 : (St.run { monitor := m } before).closed = false) (h3 : (St.run { monitor := m } before).exited = none) :
    (St.run { monitor := m } (before ++ .interrupt :: as)).exited = none := by
  have hso := Sound.run m before
  have hrun : St.run { monitor := m } (before ++ .interrupt :: as) = ((St.run { monitor := m } before).act .interrupt).run as := by
    simp [St.run, List.foldl_append]
  rw [hrun]
  generalize St.run { monitor := m } before = s at *
  have hP := St.run_inv (fun s => far s.main = 0 ∧ s.closed = false ∧ s.fl ≠ .done ∧ s.exited = none) (fun _ => True) (by
    intro s a s' ⟨h1, h2, h3, h4⟩ _ e
    unfold St.step at e
    simp only [h4, Option.isSome_none, Bool.false_eq_true, if_false] at e
    cases a <;> simp only at e
    case main t =>
      unfold St.mainStep at e
      cases hm : s.main <;> simp [hm, far] at h1 <;> simp [hm] at e
    case flusher => grind [St.flStep, St.send]
    all_goals grind [St.send, far]) (s.act .interrupt) as (by
      have := hso.flusher
      refine ⟨?_, ?_, ?_, ?_⟩ <;> simp [St.act, St.step, h1, h3, far, h2]
      intro h; simp [this h] at h2) (fun _ _ => trivial)
  exact hP.2.2.2

example : (St.run { monitor := true } [.submit, .interrupt]).main = .mWait ∧ (St.run { monitor := true } [.submit, .interrupt]).closed = false ∧
    (St.run { monitor := true } [.submit, .interrupt]).exited = none := by decide

/-- **C83** fails when the list of problems is being sent at the time, even if nothing is graded. -/
theorem C83_update_fails : ∃ as : List Act, .submit ∉ as ∧ .main true ∉ as ∧ as.count .interrupt = 1 ∧ (St.run {} as).exited = some 1 :=
  ⟨[.request, .updater true, .updater true, .updater true, .updater true, .interrupt] ++ List.replicate 4 (.main false) ++ [.updater true],
    by decide, by decide, by decide, by decide⟩

end Verif.Main
