import Verif.Spec.Memory
import Verif.Lemmas.Monitor

/-! # C81: memory accounting -/

namespace Verif.Props
namespace Memory
open Verif.Monitor Verif.Memory

theorem fgets_line (n : Nat) (l rest : Bytes) (hn : 10 ∉ l) (h : l.length < n) : fgets n (l ++ 10 :: rest) = (l ++ [10], rest) := by
  induction l generalizing n with
  | nil =>
    cases n with
    | zero => simp at h
    | succ n => simp [fgets]
  | cons c l ih =>
    cases n with
    | zero => simp at h
    | succ n =>
      have hc : c ≠ 10 := fun e => hn (by simp [e])
      have := ih n (fun h => hn (by simp [h])) (by simpa using h)
      simp [fgets, hc, this]

theorem fgets_part (n : Nat) (l rest : Bytes) (hn : 10 ∉ l) (h : n ≤ l.length) : fgets n (l ++ rest) = (l.take n, l.drop n ++ rest) := by
  induction l generalizing n with
  | nil =>
    cases n with
    | zero => simp [fgets]
    | succ n => simp at h
  | cons c l ih =>
    cases n with
    | zero => simp [fgets]
    | succ n =>
      have hc : c ≠ 10 := fun e => hn (by simp [e])
      have := ih n (fun h => hn (by simp [h])) (by simpa using h)
      simp [fgets, hc, this]

theorem hwm_eq : hwm = field := by decide

theorem peakLine_eq (pad n : Nat) : peakLine pad n = field ++ 9 :: (List.replicate pad 32 ++ decimal n) ++ [32, 107, 66, 10] := by
  rw [peakLine, hwm_eq]

theorem get_cons (s : Bytes) (h : s ≠ []) :
    getMemory s = if field.isPrefixOf (fgets 127 s).1 then number (fgets 127 s).1 else getMemory (fgets 127 s).2 := by
  cases s with
  | nil => exact absurd rfl h
  | cons c s => rw [getMemory]

theorem not_field (l r : Bytes) (h : 86 ∉ l) (hl : l ≠ [] ∨ ∃ r', r = 10 :: r') : field.isPrefixOf (l ++ r) = false := by
  cases l with
  | nil =>
    rcases hl with hl | ⟨r', rfl⟩
    · exact absurd rfl hl
    · rfl
  | cons c l =>
    have hc : 86 ≠ c := fun e => h (by simp [e])
    simp [field, List.isPrefixOf, hc]

/-- A line without `V` is passed over, however long it is. -/
theorem skip_long (k : Nat) : ∀ (l rest : Bytes), l.length ≤ k → 10 ∉ l → 86 ∉ l → getMemory (l ++ 10 :: rest) = getMemory rest := by
  induction k with
  | zero =>
    intro l rest hk _ _
    have : l = [] := List.length_eq_zero_iff.1 (by omega)
    subst this
    rw [get_cons _ (by simp)]
    simp [fgets, field]
  | succ k ih =>
    intro l rest hk hn hv
    rw [get_cons _ (by simp)]
    by_cases hl : l.length < 127
    · rw [fgets_line 127 l rest hn hl]
      rw [not_field l [10] hv (.inr ⟨[], rfl⟩)]
      simp
    · rw [fgets_part 127 l _ hn (by omega)]
      have h1 : 86 ∉ l.take 127 := fun h => hv (List.mem_of_mem_take h)
      have h2 := not_field (l.take 127) [] h1 (.inl (by intro e; have := congrArg List.length e; simp only [List.length_take, List.length_nil] at this; omega))
      rw [List.append_nil] at h2
      rw [h2]
      exact ih _ _ (by simp; omega) (fun h => hn (List.mem_of_mem_drop h)) (fun h => hv (List.mem_of_mem_drop h))

theorem skip (l rest : Bytes) (h : Other l) : getMemory (l ++ 10 :: rest) = getMemory rest := by
  obtain ⟨h1, h2, h3 | h3⟩ := h
  · rw [get_cons _ (by simp), fgets_line 127 l rest h1 (by omega)]
    have : field.isPrefixOf (l ++ [10]) = false := by
      rw [Bool.eq_false_iff]
      intro e
      have e := List.isPrefixOf_iff_prefix.1 e
      rcases List.prefix_concat_iff.1 e with e | e
      · have : (10 : Byte) ∈ field := by rw [e]; simp
        revert this; decide
      · exact h2 (hwm_eq ▸ e)
    rw [this]
    simp
  · exact skip_long _ l rest (Nat.le_refl _) h1 h3

theorem skip_lines (ls : List Bytes) (rest : Bytes) (h : ∀ l ∈ ls, Other l) : getMemory (lines ls ++ rest) = getMemory rest := by
  induction ls with
  | nil => rfl
  | cons l ls ih =>
    rw [lines, List.append_assoc, List.cons_append, skip _ _ (h l (by simp)), ih fun x hx => h x (by simp [hx])]

/-! ## The number -/

theorem isDigit_nat {c : Char} (h : c.isDigit = true) : 48 ≤ c.toNat ∧ c.toNat ≤ 57 := by
  simp only [Char.isDigit, ge_iff_le, Bool.and_eq_true, decide_eq_true_eq, UInt32.le_iff_toNat_le] at h
  exact h

theorem byte_digit {c : Char} (h : c.isDigit = true) : (UInt8.ofNat c.toNat).toNat = c.toNat := by
  have := isDigit_nat h
  rw [UInt8.toNat_ofNat']
  omega

theorem digits_chars (cs : List Char) (h : ∀ c ∈ cs, c.isDigit = true) (acc : Nat) (r : Bytes) :
    digits 10 acc (cs.map (fun c => UInt8.ofNat c.toNat) ++ 32 :: r) = Nat.ofDigitChars 10 cs acc := by
  induction cs generalizing acc with
  | nil => simp [digits, value, Nat.ofDigitChars]
  | cons c cs ih =>
    have h1 := h c (by simp)
    have h2 := isDigit_nat h1
    have h3 := byte_digit h1
    have hv : value (UInt8.ofNat c.toNat) = c.toNat - 48 := by rw [value, h3, if_pos ⟨h2.1, h2.2⟩]
    rw [List.map_cons, List.cons_append, digits, hv, if_pos (by omega), ih (fun x hx => h x (by simp [hx]))]
    simp [Nat.ofDigitChars, Nat.mul_comm]

theorem head_nonzero : ∀ (n : Nat), 0 < n → ∃ c cs, Nat.toDigits 10 n = c :: cs ∧ c ≠ '0' := by
  intro n
  induction n using Nat.strongRecOn with
  | ind n ih =>
    intro hn
    by_cases h : n < 10
    · refine ⟨Nat.digitChar n, [], Nat.toDigits_of_lt_base h, ?_⟩
      have : n = 1 ∨ n = 2 ∨ n = 3 ∨ n = 4 ∨ n = 5 ∨ n = 6 ∨ n = 7 ∨ n = 8 ∨ n = 9 := by omega
      rcases this with rfl | rfl | rfl | rfl | rfl | rfl | rfl | rfl | rfl <;> decide
    · obtain ⟨c, cs, h1, h2⟩ := ih (n / 10) (by omega) (by omega)
      refine ⟨c, cs ++ [Nat.digitChar (n % 10)], ?_, h2⟩
      rw [Nat.toDigits_of_base_le (by decide) (by omega), h1]
      rfl

theorem strtoul_decimal (n : Nat) (h : n < 2 ^ 64) : strtoul (decimal n ++ [32]) = n := by
  by_cases hn : n = 0
  · subst hn; decide +kernel
  · obtain ⟨c, cs, h1, h2⟩ := head_nonzero n (by omega)
    have hd : ∀ x ∈ c :: cs, x.isDigit = true := fun x hx => Nat.isDigit_of_mem_toDigits (b := 10) (n := n) (by decide) (by decide) (h1 ▸ hx)
    have hb : UInt8.ofNat c.toNat ≠ 48 := by
      intro e
      have e := congrArg UInt8.toNat e
      rw [byte_digit (hd c (by simp))] at e
      exact h2 (Char.ext (UInt32.toNat_inj.1 e))
    have hv := digits_chars (c :: cs) hd 0 []
    have := Nat.ofDigitChars_ten_toDigits (n := n)
    rw [h1] at this
    rw [this] at hv
    unfold strtoul decimal
    rw [h1]
    split
    · simp_all
    · simp_all
    · rw [hv]; exact Nat.min_eq_left (by omega)

theorem number_peak (pad n : Nat) (h : n < 2 ^ 64) : number (peakLine pad n) = some n := by
  have hcut : (peakLine pad n).take ((peakLine pad n).length - 3) = field ++ 9 :: (List.replicate pad 32 ++ (decimal n ++ [32])) := by
    have e : peakLine pad n = (field ++ 9 :: (List.replicate pad 32 ++ (decimal n ++ [32]))) ++ [107, 66, 10] := by simp [peakLine_eq]
    rw [e]
    exact List.take_left' (by simp only [List.length_append, List.length_cons, List.length_nil]; omega)
  have hdrop : (field ++ 9 :: (List.replicate pad 32 ++ (decimal n ++ [32]))).dropWhile (fun c => !digit c) = decimal n ++ [32] := by
    have e : field ++ 9 :: (List.replicate pad 32 ++ (decimal n ++ [32])) = (field ++ 9 :: List.replicate pad 32) ++ (decimal n ++ [32]) := by simp
    rw [e, List.dropWhile_append_of_pos]
    · obtain ⟨c, cs, h1⟩ : ∃ c cs, Nat.toDigits 10 n = c :: cs := List.exists_cons_of_ne_nil Nat.toDigits_ne_nil
      have hc : c.isDigit = true := Nat.isDigit_of_mem_toDigits (b := 10) (n := n) (by decide) (by decide) (by rw [h1]; simp)
      have h2 := isDigit_nat hc
      have h3 := byte_digit hc
      simp only [decimal, h1, List.map_cons, List.cons_append]
      rw [List.dropWhile_cons_of_neg]
      simp [digit, h3, h2]
    · intro x hx
      simp only [field, List.cons_append, List.nil_append, List.mem_cons, List.mem_replicate] at hx
      rcases hx with rfl | rfl | rfl | rfl | rfl | rfl | rfl | ⟨-, rfl⟩ <;> decide
  unfold number
  rw [hcut]
  dsimp only
  rw [hdrop]
  obtain ⟨c, cs, h1⟩ : ∃ c cs, decimal n ++ [32] = c :: cs := List.exists_cons_of_ne_nil (by simp)
  have := strtoul_decimal n h
  rw [h1] at this ⊢
  dsimp only
  rw [this]

theorem decimal_length (n : Nat) (h : n < 2 ^ 64) : (decimal n).length ≤ 20 := by
  rw [decimal, List.length_map]
  exact (Nat.length_toDigits_le_iff (by decide) (by decide)).2 (by omega)

theorem decimal_newline (n : Nat) : (10 : Byte) ∉ decimal n := by
  intro h
  obtain ⟨c, hc, e⟩ := List.mem_map.1 h
  have hd : c.isDigit = true := Nat.isDigit_of_mem_toDigits (b := 10) (n := n) (by decide) (by decide) hc
  have e := congrArg UInt8.toNat e
  rw [byte_digit hd] at e
  have := isDigit_nat hd
  simp at e; omega

theorem reading_shows {status : Option Bytes} {n : Nat} (h : Shows status n) : reading status = some n := by
  obtain ⟨before, pad, rest, h1, h2, h3, rfl⟩ := h
  rw [reading, List.append_assoc, skip_lines _ _ h1]
  have e : peakLine pad n ++ rest = (field ++ 9 :: (List.replicate pad 32 ++ decimal n) ++ [32, 107, 66]) ++ 10 :: rest := by simp [peakLine_eq]
  have hl := decimal_length n h3
  rw [get_cons _ (by simp [peakLine_eq]), e, fgets_line]
  · have e2 : field ++ 9 :: (List.replicate pad 32 ++ decimal n) ++ [32, 107, 66] ++ [10] = peakLine pad n := by simp [peakLine_eq]
    dsimp only
    rw [e2, if_pos (List.isPrefixOf_iff_prefix.2 ⟨_, by rw [peakLine_eq, List.append_assoc]⟩), number_peak pad n h3]
  · simp only [List.mem_append, List.mem_cons, not_or, List.mem_replicate]
    refine ⟨⟨by decide, by decide, fun h => by simp at h, decimal_newline n⟩, by decide⟩
  · simp [field]; omega

theorem reading_empty {status : Option Bytes} (h : Empty status) : reading status = some 0 := by
  rcases h with rfl | ⟨ls, h1, rfl⟩
  · rfl
  · have := skip_lines ls [] h1
    rw [List.append_nil] at this
    rw [reading, this, getMemory]

/-! ## The loop -/

theorem look_loop (s : St) (t : Option Bytes) : (s.look t).loop = s.loop ∧ (s.look t).rss = s.rss := by
  unfold St.look; split <;> exact ⟨rfl, rfl⟩

theorem look_shows {s : St} {t : Option Bytes} {n : Nat} (h : Shows t n) (hn : 0 < n) : (s.look t).memory = n ∧ (s.look t).ub = s.ub := by
  unfold St.look
  rw [reading_shows h]
  cases n with
  | zero => omega
  | succ n => exact ⟨rfl, rfl⟩

theorem look_empty {s : St} {t : Option Bytes} (h : Empty t) : s.look t = s := by
  unfold St.look; rw [reading_empty h]; rfl

/-- A property kept by looking at proper files. -/
theorem look_proper {s : St} {t : Option Bytes} (h : Empty t ∨ ∃ n, Shows t n) : (s.look t).ub = s.ub := by
  rcases h with h | ⟨n, h⟩
  · rw [look_empty h]
  · unfold St.look
    rw [reading_shows h]
    cases n <;> rfl

theorem after_append {C : Type} (cfg : Cfg C) (s : St) (a b : List (Event C)) : after cfg s (a ++ b) = after cfg (after cfg s a) b := by
  induction a generalizing s with
  | nil => rfl
  | cons e a ih => exact ih _

/-- Nothing is seen in empty files. -/
theorem after_empty {C : Type} (cfg : Cfg C) (s : St) (l : List (Event C)) (h : ∀ e ∈ l, Empty e.status) :
    (after cfg s l).memory = s.memory ∧ (after cfg s l).ub = s.ub := by
  induction l generalizing s with
  | nil => exact ⟨rfl, rfl⟩
  | cons e l ih =>
    obtain ⟨h1, h2⟩ := ih (advance cfg s e) fun x hx => h x (by simp [hx])
    have he := h e (by simp)
    have : (advance cfg s e).memory = s.memory ∧ (advance cfg s e).ub = s.ub := by
      cases e with
      | ask t =>
        simp only [advance]
        split
        · exact ⟨rfl, rfl⟩
        · rw [look_empty (t := t) he]; exact ⟨rfl, rfl⟩
      | stop e t r =>
        simp only [advance]
        split
        · exact ⟨rfl, rfl⟩
        · have he : Empty t := he
          split
          · rw [look_empty he]; exact ⟨rfl, rfl⟩
          · exact ⟨rfl, rfl⟩
    exact ⟨h1.trans this.1, h2.trans this.2⟩

theorem after_proper {C : Type} (cfg : Cfg C) (s : St) (l : List (Event C)) (h : Proper l) : (after cfg s l).ub = s.ub := by
  induction l generalizing s with
  | nil => rfl
  | cons e l ih =>
    rw [after, ih _ fun x hx => h x (by simp [hx])]
    have he := h e (by simp)
    cases e with
    | ask t =>
      simp only [advance]
      split
      · rfl
      · exact look_proper he
    | stop e t r =>
      simp only [advance]
      split
      · rfl
      · split
        · exact look_proper he
        · rfl

theorem finish_live {C : Type} (cfg : Cfg C) (s : State) (pid : Nat) (v : View C) (enter : Bool) (nr : Option Int) (h1 : s.first = false)
    (h2 : s.finished = false) : (finish cfg s pid v enter nr).1.first = false ∧ (finish cfg s pid v enter nr).1.finished = false := by
  unfold finish
  dsimp only
  split <;> split <;> simp [State.faultAt, h1, h2]

theorem sys_live {C : Type} (cfg : Cfg C) (s : State) (pid : Nat) (v : View C) (h1 : s.first = false) (h2 : s.finished = false) :
    (sysStep cfg s pid v).1.first = false ∧ (sysStep cfg s pid v).1.finished = false := by
  have hs : (if cfg.seccomp = true then s else { s with toggle := upd s.toggle pid (!s.toggle pid) }).first = false ∧
      (if cfg.seccomp = true then s else { s with toggle := upd s.toggle pid (!s.toggle pid) }).finished = false := by
    split <;> exact ⟨h1, h2⟩
  unfold sysStep
  dsimp only
  generalize (if cfg.seccomp = true then s else { s with toggle := upd s.toggle pid (!s.toggle pid) }) = s' at hs ⊢
  obtain ⟨h1, h2⟩ := hs
  split
  · exact ⟨h1, h2⟩
  · exact ⟨h1, h2⟩
  · split
    · exact ⟨rfl, h2⟩
    · split
      · split
        · exact finish_live _ _ _ _ _ _ h1 h2
        · split
          · exact finish_live _ _ _ _ _ _ h1 h2
          · exact finish_live _ _ _ _ _ _ h1 h2
        · split
          · exact finish_live _ _ _ _ _ _ h1 h2
          · exact finish_live _ _ _ _ _ _ h1 h2
          · exact ⟨h1, h2⟩
        · exact ⟨h1, h2⟩
      · exact finish_live _ _ _ _ _ _ h1 h2

theorem step_live {C : Type} (cfg : Cfg C) (s : State) (e : Stop C) (h1 : s.first = false) (h2 : s.finished = false) (he : e ≠ .gone cfg.main) :
    (step cfg s e).1.first = false ∧ (step cfg s e).1.finished = false := by
  unfold step
  rw [if_neg (by simp [h2])]
  cases e with
  | gone p =>
    dsimp only
    rw [if_neg (by rintro (h | h); exact absurd h (by simp [h1]); exact he (by rw [h]))]
    exact ⟨h1, h2⟩
  | sys p v => exact sys_live cfg s p v h1 h2
  | trap p t => cases t <;> exact ⟨rfl, h2⟩
  | signal p n => exact ⟨rfl, h2⟩
  | continued p => exact ⟨rfl, h2⟩

theorem advance_loop {C : Type} (cfg : Cfg C) (s : St) (e : Stop C) (t : Option Bytes) (r : Nat) (h : s.loop.finished = false) :
    (advance cfg s (.stop e t r)).loop = (step cfg s.loop e).1 := by
  rw [advance, if_neg (by simp [h])]

theorem after_live {C : Type} (cfg : Cfg C) (s : St) (l : List (Event C)) (h1 : s.loop.first = false) (h2 : s.loop.finished = false)
    (h : ∀ t r, Event.stop (.gone cfg.main) t r ∉ l) : (after cfg s l).loop.first = false ∧ (after cfg s l).loop.finished = false := by
  induction l generalizing s with
  | nil => exact ⟨h1, h2⟩
  | cons e l ih =>
    have : (advance cfg s e).loop.first = false ∧ (advance cfg s e).loop.finished = false := by
      cases e with
      | ask t =>
        simp only [advance]
        split
        · exact ⟨h1, h2⟩
        · rw [(look_loop _ _).1]; exact ⟨h1, h2⟩
      | stop e t r =>
        rw [advance_loop _ _ _ _ _ h2]
        exact step_live cfg s.loop e h1 h2 (fun he => h t r (by rw [he]; simp))
    exact ih _ this.1 this.2 fun t r hx => h t r (by simp [hx])

theorem begun_live {C : Type} (cfg : Cfg C) (l : List (Event C)) (h : Begun cfg l) :
    (after cfg {} l).loop.first = false ∧ (after cfg {} l).loop.finished = false := by
  unfold Begun at h
  split at h
  · next p sig t r l =>
    obtain ⟨rfl, h⟩ := h
    rw [after]
    refine after_live cfg _ l ?_ ?_ h
    all_goals rw [advance_loop _ _ _ _ _ rfl]; rfl
  · exact h.elim

/-- The main thread's exit is looked at. -/
theorem leaving_memory {C : Type} (cfg : Cfg C) (s : St) (e : Event C) (n : Nat) (h1 : s.loop.first = false) (h2 : s.loop.finished = false)
    (he : Leaving cfg n e) (hn : 0 < n) : (advance cfg s e).memory = n ∧ (advance cfg s e).ub = s.ub := by
  unfold Leaving at he
  split at he
  · next p t r =>
    obtain ⟨rfl, ht⟩ := he
    have hl : looks cfg s.loop (.trap cfg.main .exit) = true := by
      simp [looks, step, h1, h2]
    rw [advance, if_neg (by simp [h2])]
    dsimp only
    rw [if_pos hl]
    exact look_shows (s := { s with rss := r }) ht hn
  · exact he.elim

theorem finish_report {C : Type} (cfg : Cfg C) (s : State) (pid : Nat) (v : View C) (en : Bool) (n : Option Int) (nr : Int)
    (h : Act.report nr ∈ (finish cfg s pid v en n).2) : (finish cfg s pid v en n).1.faulted = true := by
  unfold finish faultActs State.faultAt at *
  grind

theorem sysStep_report {C : Type} (cfg : Cfg C) (s : State) (pid : Nat) (v : View C) (nr : Int)
    (h : Act.report nr ∈ (sysStep cfg s pid v).2) : (sysStep cfg s pid v).1.faulted = true := by
  have h1 := @finish_report C cfg
  have h2 := @finish_faulted C cfg
  unfold sysStep State.faultAt at *
  generalize (if cfg.seccomp = true then s else { s with toggle := upd s.toggle pid (!s.toggle pid) }) = s0 at h
  grind

theorem report_faulted {C : Type} (cfg : Cfg C) (s : State) (e : Stop C) (nr : Int) (h : Act.report nr ∈ (step cfg s e).2) :
    (step cfg s e).1.faulted = true := by
  have := @sysStep_report C cfg
  unfold step at h ⊢
  grind

theorem after_faulted {C : Type} (cfg : Cfg C) : ∀ (l : List (Event C)) (s : St), s.loop.faulted = true → (after cfg s l).loop.faulted = true
  | [], _, h => h
  | e :: l, s, h => by
    refine after_faulted cfg l _ ?_
    cases e with
    | ask t => rw [advance]; split; · exact h
               · unfold St.look; split <;> exact h
    | stop e t r =>
      rw [advance]
      split
      · exact h
      · exact step_faulted cfg s.loop e h

theorem report_looks {C : Type} (cfg : Cfg C) (s : State) (e : Stop C) (nr : Int) (h : Act.report nr ∈ (step cfg s e).2) : looks cfg s e = true := by
  unfold looks
  rw [Bool.or_eq_true]
  exact .inl (List.any_eq_true.2 ⟨_, h, rfl⟩)

theorem bounded {C : Type} (cfg : Cfg C) (L : Nat) (s : St) (l : List (Event C)) (h1 : s.memory ≤ L) (h2 : s.rss ≤ L) (hp : Proper l)
    (hs : ∀ e ∈ l, ∀ n, Shows e.status n → n ≤ L) (hr : ∀ e t r, Event.stop e t r ∈ l → r ≤ L) :
    (after cfg s l).memory ≤ L ∧ (after cfg s l).rss ≤ L := by
  have hlook : ∀ (s : St) (t : Option Bytes), (Empty t ∨ ∃ n, Shows t n) → (∀ n, Shows t n → n ≤ L) → s.memory ≤ L → (s.look t).memory ≤ L := by
    intro s t h hb hm
    rcases h with h | ⟨n, h⟩
    · rw [look_empty h]; exact hm
    · cases n with
      | zero => unfold St.look; rw [reading_shows h]; exact hm
      | succ n => rw [(look_shows h (by omega)).1]; exact hb _ h
  induction l generalizing s with
  | nil => exact ⟨h1, h2⟩
  | cons e l ih =>
    have hpe := hp e (by simp)
    have hse := hs e (by simp)
    have : (advance cfg s e).memory ≤ L ∧ (advance cfg s e).rss ≤ L := by
      cases e with
      | ask t =>
        simp only [advance]
        split
        · exact ⟨h1, h2⟩
        · exact ⟨hlook _ _ hpe hse h1, by rw [(look_loop _ _).2]; exact h2⟩
      | stop e t r =>
        have hr := hr e t r (by simp)
        simp only [advance]
        split
        · exact ⟨h1, h2⟩
        · split
          · exact ⟨hlook _ _ hpe hse h1, by rw [(look_loop _ _).2]; exact hr⟩
          · exact ⟨h1, hr⟩
    exact ih _ this.1 this.2 (fun x hx => hp x (by simp [hx])) (fun x hx => hs x (by simp [hx])) (fun e t r hx => hr e t r (by simp [hx]))

end Memory

open Memory Verif.Memory Verif.Monitor

/-- `get_memory` returns the peak the kernel shows, however long the lines before it are, and 0 if none is shown; it never leaves its buffer. -/
theorem C81_reads (status : Option Bytes) : (∀ n, Shows status n → reading status = some n) ∧ (Empty status → reading status = some 0) :=
  ⟨fun _ h => reading_shows h, reading_empty⟩

/-- The memory reported, and the verdict, of a program whose memory does not grow after its main thread has left: its peak. (Full property: for every
program; see `C81_threads_fails`.) -/
theorem C81_peak_partial {C : Type} (cfg : Cfg C) (before : List (Event C)) (during : List (Event C × Nat)) (leave : Event C) (n : Nat)
    (later : List (Event C × Nat)) (hb : Begun cfg before) (hp : Proper before) (hk : Kernel cfg during leave n later) (hn : 0 < n)
    (hl : ∀ x ∈ later, x.2 = n) :
    let s := after cfg {} (before ++ during.map (·.1) ++ leave :: later.map (·.1))
    s.maxMemory = peak n (later.map (·.2)) ∧ s.ub = false ∧
    ∀ p : Process.Proc, p.maxMemory = s.maxMemory → (Process.Proc.isMle p = true ↔ p.memLimit ≠ 0 ∧ p.memLimit < peak n (later.map (·.2))) := by
  intro s
  have hpk : peak n (later.map (·.2)) = n := by
    unfold peak
    cases h : (later.map (·.2)).getLast? with
    | none => rfl
    | some m =>
      obtain ⟨x, hx, rfl⟩ := List.mem_map.1 (List.mem_of_getLast? h)
      exact hl x hx
  have hm : s.memory = n ∧ s.ub = false := by
    have h1 := begun_live cfg before hb
    have h2 := after_live cfg (after cfg {} before) (during.map (·.1)) h1.1 h1.2 hk.present
    rw [← after_append] at h2
    have h3 := leaving_memory cfg _ leave n h2.1 h2.2 hk.leaving hn
    have h4 := after_empty cfg (advance cfg (after cfg {} (before ++ during.map (·.1))) leave) (later.map (·.1)) (by
      intro e he
      obtain ⟨x, hx, rfl⟩ := List.mem_map.1 he
      exact hk.hidden x hx)
    have h5 := after_proper cfg {} (before ++ during.map (·.1)) (by
      intro e he
      rcases List.mem_append.1 he with he | he
      · exact hp e he
      · obtain ⟨x, hx, rfl⟩ := List.mem_map.1 he
        exact .inr ⟨_, hk.shown x hx⟩)
    have hs : s = after cfg (advance cfg (after cfg {} (before ++ during.map (·.1))) leave) (later.map (·.1)) := by
      show after cfg {} (before ++ during.map (·.1) ++ leave :: later.map (·.1)) = _
      rw [after_append]; rfl
    rw [hs, h4.1, h4.2, h3.1, h3.2, h5]
    exact ⟨rfl, rfl⟩
  have hmm : s.maxMemory = n := by rw [St.maxMemory, if_neg (by omega), hm.1]
  refine ⟨by rw [hmm, hpk], hm.2, ?_⟩
  intro p h
  rw [hpk]
  simp only [Process.Proc.isMle, h, hmm]
  simp

/-! A run of a program with two threads, for the examples: the main thread leaves at 1000 kB. -/

namespace Memory

/-- A status file: the name (chosen by the program), long lines, the peak. -/
def file (n : Nat) : Option Bytes :=
  some (lines ["Name:\tVmHWM: 1".toUTF8.toList, "Groups:\t".toUTF8.toList ++ List.replicate 300 49, "VmPeak:\t    9999 kB".toUTF8.toList] ++ peakLine 4 n ++
    "VmRSS:\t     800 kB\n".toUTF8.toList)

theorem file_shows (n : Nat) (h : n < 2 ^ 64) : Shows (file n) n := by
  refine ⟨_, 4, _, ?_, by omega, h, rfl⟩
  intro l hl
  simp only [List.mem_cons, List.not_mem_nil, or_false] at hl
  rcases hl with rfl | rfl | rfl
  · exact ⟨by decide +kernel, by decide +kernel, by decide +kernel⟩
  · exact ⟨by decide +kernel, by decide +kernel, by decide +kernel⟩
  · exact ⟨by decide +kernel, by decide +kernel, by decide +kernel⟩

/-- A zombie's file. -/
def zombie : Option Bytes := some (lines ["Name:\ta.out".toUTF8.toList, "State:\tZ (zombie)".toUTF8.toList])

theorem zombie_empty : Empty zombie := by
  refine .inr ⟨_, ?_, rfl⟩
  intro l hl
  simp only [List.mem_cons, List.not_mem_nil, or_false] at hl
  rcases hl with rfl | rfl
  · exact ⟨by decide +kernel, by decide +kernel, by decide +kernel⟩
  · exact ⟨by decide +kernel, by decide +kernel, by decide +kernel⟩

def demo : Cfg Unit := { seccomp := true, tables := fun _ => ⟨fun _ => 1, fun _ => none⟩, noop := fun _ => 39, main := 7 }

def early : List (Event Unit) := [.stop (.signal 7 19) zombie 0]
def middle : List (Event Unit × Nat) := [(.stop (.sys 7 { nr := 59 }) (file 500) 0, 500), (.ask (file 600), 600), (.stop (.trap 7 .clone) (file 800) 0, 800)]
def leaving : Event Unit := .stop (.trap 7 .exit) (file 1000) 0
def late (m : Nat) : List (Event Unit × Nat) :=
  [(.stop (.trap 8 .exit) zombie 0, m), (.stop (.gone 8) zombie m, m), (.stop (.gone 7) none m, m)]

theorem demo_begun : Begun demo early ∧ Proper early := by
  refine ⟨⟨rfl, by simp⟩, ?_⟩
  intro e he
  simp only [early, List.mem_cons, List.not_mem_nil, or_false] at he
  subst he
  exact .inl zombie_empty

theorem demo_kernel (m : Nat) (h : 1000 ≤ m) : Kernel demo middle leaving 1000 (late m) := by
  refine ⟨?_, ⟨rfl, file_shows _ (by decide)⟩, ?_, ?_, ?_⟩
  · intro x hx
    simp only [middle, List.mem_cons, List.not_mem_nil, or_false] at hx
    rcases hx with rfl | rfl | rfl <;> exact file_shows _ (by decide)
  · intro x hx
    simp only [late, List.mem_cons, List.not_mem_nil, or_false] at hx
    rcases hx with rfl | rfl | rfl
    · exact zombie_empty
    · exact zombie_empty
    · exact .inl rfl
  · simp [middle, late]; omega
  · simp [middle]

end Memory

/-- The hypotheses of `C81_peak_partial` are met by a program with two threads. -/
example : Begun demo early ∧ Proper early ∧ Kernel demo middle leaving 1000 (late 1000) ∧ (∀ x ∈ late 1000, x.2 = 1000) ∧
    (after demo {} (early ++ middle.map (·.1) ++ leaving :: (late 1000).map (·.1))).loop.finished = true :=
  ⟨demo_begun.1, demo_begun.2, demo_kernel _ (by omega), by simp [late], by decide +kernel⟩

/-- Memory used by other threads after the main thread has left is not counted: a program with a peak far above its limit is reported below it. -/
theorem C81_threads_fails : ∃ (cfg : Cfg Unit) (before : List (Event Unit)) (during : List (Event Unit × Nat)) (leave : Event Unit) (n : Nat)
    (later : List (Event Unit × Nat)) (p : Process.Proc), Begun cfg before ∧ Proper before ∧ Kernel cfg during leave n later ∧ 0 < n ∧
    let s := after cfg {} (before ++ during.map (·.1) ++ leave :: later.map (·.1))
    s.loop.finished = true ∧ p.maxMemory = s.maxMemory ∧ 0 < p.memLimit ∧ p.memLimit < peak n (later.map (·.2)) ∧ Process.Proc.isMle p = false := by
  refine ⟨demo, early, middle, leaving, 1000, late 500000, ⟨0, 0, 0, 65536, 1000, false, false, false, false⟩, demo_begun.1, demo_begun.2,
    demo_kernel _ (by omega), by omega, ?_⟩
  have hm : (after demo {} (early ++ middle.map (·.1) ++ leaving :: (late 500000).map (·.1))).memory = 1000 := by
    have h1 := begun_live demo early demo_begun.1
    have h2 := after_live demo (after demo {} early) (middle.map (·.1)) h1.1 h1.2 (demo_kernel 1000 (by omega)).present
    rw [← after_append] at h2
    have h3 := leaving_memory demo _ leaving 1000 h2.1 h2.2 ⟨rfl, file_shows _ (by decide)⟩ (by omega)
    have h4 := after_empty demo (advance demo (after demo {} (early ++ middle.map (·.1))) leaving) ((late 500000).map (·.1)) (by
      intro e he
      obtain ⟨x, hx, rfl⟩ := List.mem_map.1 he
      exact (demo_kernel 500000 (by omega)).hidden x hx)
    rw [after_append]
    exact h4.1.trans h3.1
  refine ⟨by decide +kernel, ?_, by decide, by decide +kernel, by decide +kernel⟩
  rw [St.maxMemory, hm]
  rfl

/-- A program stopped for a forbidden call is reported with the memory it had then, if nothing is shown of it afterwards. -/
theorem C81_fault {C : Type} (cfg : Cfg C) (before later : List (Event C)) (e : Stop C) (t : Option Bytes) (r n : Nat) (nr : Int)
    (hf : (after cfg {} before).loop.finished = false) (hr : Act.report nr ∈ (step cfg (after cfg {} before).loop e).2) (ht : Shows t n) (hn : 0 < n)
    (hl : ∀ e ∈ later, Empty e.status) : (after cfg {} (before ++ .stop e t r :: later)).maxMemory = n := by
  rw [after_append, after, St.maxMemory, (after_empty cfg _ later hl).1]
  have : (advance cfg (after cfg {} before) (.stop e t r)).memory = n := by
    rw [advance, if_neg (by simp [hf])]
    dsimp only
    rw [if_pos (report_looks cfg _ e nr hr)]
    exact (look_shows ht hn).1
  rw [this, if_neg (by omega)]

/-- Nor is what another thread shows on its way out after such a stop lost. -/
theorem C81_fault_exit {C : Type} (cfg : Cfg C) (before between later : List (Event C)) (e : Stop C) (s t : Option Bytes) (q r n p : Nat) (nr : Int)
    (hr : Act.report nr ∈ (step cfg (after cfg {} before).loop e).2)
    (hf : (after cfg {} (before ++ .stop e s q :: between)).loop.finished = false) (ht : Shows t n) (hn : 0 < n) (hl : ∀ e ∈ later, Empty e.status) :
    (after cfg {} (before ++ .stop e s q :: between ++ .stop (.trap p .exit) t r :: later)).maxMemory = n := by
  have hfl : (after cfg {} (before ++ .stop e s q :: between)).loop.faulted = true := by
    rw [after_append, after]
    refine after_faulted cfg between _ ?_
    rw [advance]
    have := report_faulted cfg _ e nr hr
    split
    · next h => rw [step.eq_def, if_pos h] at hr; exact nomatch hr
    · exact this
  rw [after_append, after, St.maxMemory, (after_empty cfg _ later hl).1]
  generalize after cfg {} (before ++ .stop e s q :: between) = x at hf hfl
  have : (advance cfg x (.stop (.trap p .exit) t r)).memory = n := by
    rw [advance, if_neg (by simp [hf])]
    dsimp only
    rw [if_pos (by unfold looks; rw [hfl, hf]; simp)]
    exact (look_shows ht hn).1
  rw [this, if_neg (by omega)]

/-- But before such a stop nobody looks at another thread, or another process of the program, on its way out. -/
theorem C81_others_exit {C : Type} (cfg : Cfg C) (before : List (Event C)) (t : Option Bytes) (r p : Nat) (hp : p ≠ cfg.main)
    (hf : (after cfg {} before).loop.faulted = false) :
    (after cfg {} (before ++ [.stop (.trap p .exit) t r])).memory = (after cfg {} before).memory := by
  rw [after_append, after, after]
  generalize after cfg {} before = x at hf
  rw [advance]
  split
  · rfl
  · next h => simp [looks, step, h, hf, hp]

example : (7 : Nat) ≠ 8 ∧ demo.main = 7 ∧ (after demo {} early).loop.faulted = false ∧ (after demo {} early).loop.finished = false := by
  decide +kernel

/-- Such a stop: everything is forbidden. -/
example : let cfg : Cfg Unit := { demo with tables := fun _ => ⟨fun _ => 0, fun _ => none⟩ }
    let before : List (Event Unit) := [.stop (.signal 7 19) none 0, .stop (.sys 7 { nr := 59 }) none 0]
    (after cfg {} before).loop.finished = false ∧ Act.report 41 ∈ (step cfg (after cfg {} before).loop (.sys 7 { nr := 41 })).2 ∧ Shows (file 1200) 1200 :=
  ⟨by decide +kernel, by decide +kernel, file_shows _ (by decide)⟩

/-- And another thread leaving after it. -/
example : let cfg : Cfg Unit := { demo with tables := fun _ => ⟨fun _ => 0, fun _ => none⟩ }
    let before : List (Event Unit) := [.stop (.signal 7 19) none 0, .stop (.sys 7 { nr := 59 }) none 0]
    (after cfg {} (before ++ .stop (.sys 7 { nr := 41 }) (file 1200) 0 :: [.ask none])).loop.finished = false ∧ Shows (file 1300) 1300 :=
  ⟨by decide +kernel, file_shows _ (by decide)⟩

/-- Who asks while the program is traced is told what it has used by then; once its end has been seen, neither asking nor anything else changes
what is reported. -/
theorem C81_asked {C : Type} (cfg : Cfg C) (before later : List (Event C)) (t : Option Bytes) (n : Nat) :
    ((after cfg {} before).loop.finished = false → Shows t n → 0 < n → (after cfg {} (before ++ [.ask t])).memory = n) ∧
    ((after cfg {} before).loop.finished = true → after cfg {} (before ++ later) = after cfg {} before) := by
  constructor
  · intro hf ht hn
    rw [after_append, after, after, advance, if_neg (by simp [hf])]
    exact (look_shows ht hn).1
  · intro hf
    rw [after_append]
    generalize after cfg {} before = x at hf
    induction later with
    | nil => rfl
    | cons e l ih =>
      have : advance cfg x e = x := by cases e <;> simp [advance, hf]
      rw [after, this, ih]

/-- The hypotheses of `C81_asked`. -/
example : (after demo {} (early ++ middle.map (·.1))).loop.finished = false ∧ Shows (file 1300) 1300 ∧
    (after demo {} (early ++ middle.map (·.1) ++ leaving :: (late 1000).map (·.1))).loop.finished = true :=
  ⟨by decide +kernel, file_shows _ (by decide), by decide +kernel⟩

/-- Leaving the buffer is not forgotten: once a file was looked at in which the wanted line has no number, the run counts as undefined, so that `C81_peak_partial`
says that this does not happen. -/
theorem C81_overrun {C : Type} (cfg : Cfg C) (before later : List (Event C)) (t : Option Bytes)
    (hf : (after cfg {} before).loop.finished = false) (ht : reading t = none) :
    (after cfg {} (before ++ .ask t :: later)).ub = true := by
  have keep : ∀ (l : List (Event C)) (s : St), s.ub = true → (after cfg s l).ub = true := by
    intro l
    induction l with
    | nil => exact fun _ h => h
    | cons e l ih =>
      intro s h
      refine ih _ ?_
      have hl : ∀ (s : St) u, s.ub = true → (s.look u).ub = true := by
        intro s u h
        unfold St.look
        split
        · rfl
        · exact h
        · exact h
      cases e with
      | ask u =>
        simp only [advance]
        split
        · exact h
        · exact hl _ _ h
      | stop e u r =>
        simp only [advance]
        split
        · exact h
        · split
          · exact hl _ _ h
          · exact h
  rw [after_append, after]
  refine keep _ _ ?_
  rw [advance, if_neg (by simp [hf]), St.look, ht]

/-- A file that has the wanted line without a number, as no kernel writes it. -/
example : reading (some "VmHWM: kB\n".toUTF8.toList) = none ∧ (after demo {} early).loop.finished = false := ⟨by decide +kernel, by decide +kernel⟩

/-- A program that is never seen above the limit, by the kernel's accounts either, is not reported above it. -/
theorem C81_innocent {C : Type} (cfg : Cfg C) (l : List (Event C)) (L : Nat) (hp : Proper l) (hs : ∀ e ∈ l, ∀ n, Shows e.status n → n ≤ L)
    (hr : ∀ e t r, Event.stop e t r ∈ l → r ≤ L) : (after cfg {} l).maxMemory ≤ L ∧
    ∀ p : Process.Proc, p.maxMemory = (after cfg {} l).maxMemory → p.memLimit = L → Process.Proc.isMle p = false := by
  obtain ⟨h1, h2⟩ := bounded cfg L {} l (Nat.zero_le _) (Nat.zero_le _) hp hs hr
  have hm : (after cfg {} l).maxMemory ≤ L := by unfold St.maxMemory; split <;> assumption
  refine ⟨hm, ?_⟩
  intro p h hl
  simp only [Process.Proc.isMle, h, hl]
  simp
  omega

/-- The hypotheses of `C81_innocent` are met. -/
example : Proper (early ++ [leaving, .stop (.gone 7) none 900]) ∧
    (∀ e ∈ early ++ [leaving, .stop (.gone 7) none 900], ∀ n, Shows e.status n → n ≤ 65536) := by
  have hz := zombie_empty
  have hf := file_shows 1000 (by decide)
  constructor
  · intro e he
    simp only [early, List.cons_append, List.nil_append, List.mem_cons, List.not_mem_nil, or_false] at he
    rcases he with rfl | rfl | rfl
    · exact .inl hz
    · exact .inr ⟨_, hf⟩
    · exact .inl (.inl rfl)
  · intro e he n hn
    simp only [early, List.cons_append, List.nil_append, List.mem_cons, List.not_mem_nil, or_false] at he
    have h1 := reading_shows hn
    rcases he with rfl | rfl | rfl
    · have h2 : some n = some 0 := h1.symm.trans (reading_empty hz)
      simp at h2; omega
    · have h2 : some n = some 1000 := h1.symm.trans (reading_shows hf)
      simp at h2; omega
    · have h2 : some n = some 0 := h1.symm.trans (reading_empty (.inl rfl))
      simp at h2; omega

end Verif.Props
