import Verif.Model.Title
import Mathlib.Tactic.ByContra

/-!
# Titles tell judges apart (C123)
-/

namespace Verif.Props

open Verif.Title

namespace TitleL

/-- The last of a kind is found in one way only. -/
theorem split_last {α : Type} (x : α) : ∀ (a a' b b' : List α), x ∉ b → x ∉ b' → a ++ x :: b = a' ++ x :: b' → a = a' ∧ b = b'
  | [], [], _, _, _, _, h => by simpa using h
  | [], y :: a', b, b', h1, _, h => by
    simp only [List.nil_append, List.cons_append, List.cons.injEq] at h
    exact absurd (by rw [h.2]; simp) h1
  | y :: a, [], b, b', _, h2, h => by
    simp only [List.nil_append, List.cons_append, List.cons.injEq] at h
    exact absurd (by rw [← h.2]; simp) h2
  | y :: a, y' :: a', b, b', h1, h2, h => by
    simp only [List.cons_append, List.cons.injEq] at h
    obtain ⟨e1, e2⟩ := split_last x a a' b b' h1 h2 h.2
    exact ⟨by rw [h.1, e1], e2⟩

theorem digit_of {n : Nat} {c : Char} (h : c ∈ Nat.toDigits 10 n) : c.isDigit = true :=
  Nat.isDigit_of_mem_toDigits (b := 10) (n := n) (by decide) (by decide) h

theorem decimal_mem {p : Int} {c : Char} (h : c ∈ Cli.decimal p) : c = '-' ∨ c.isDigit = true := by
  cases p with
  | ofNat n => exact .inr (digit_of h)
  | negSucc n =>
    rcases List.mem_cons.1 h with h | h
    · exact .inl h
    · exact .inr (digit_of h)

theorem toDigits_inj {m n : Nat} (h : Nat.toDigits 10 m = Nat.toDigits 10 n) : m = n := by
  have hm : Nat.ofDigitChars 10 (Nat.toDigits 10 m) 0 = m := Nat.ofDigitChars_ten_toDigits
  have hn : Nat.ofDigitChars 10 (Nat.toDigits 10 n) 0 = n := Nat.ofDigitChars_ten_toDigits
  rw [h] at hm
  exact hm.symm.trans hn

theorem decimal_inj {p q : Int} (h : Cli.decimal p = Cli.decimal q) : p = q := by
  have hd : ∀ n m, Nat.toDigits 10 n ≠ '-' :: Nat.toDigits 10 m := fun n m e =>
    absurd (digit_of (n := n) (c := '-') (by rw [e]; simp)) (by decide)
  cases p with
  | ofNat n =>
    cases q with
    | ofNat m => rw [toDigits_inj (show Nat.toDigits 10 n = Nat.toDigits 10 m from h)]
    | negSucc m => exact absurd h (hd n (m + 1))
  | negSucc n =>
    cases q with
    | ofNat m => exact absurd h.symm (hd m (n + 1))
    | negSucc m =>
      have := toDigits_inj (List.cons.inj (show '-' :: Nat.toDigits 10 (n + 1) = '-' :: Nat.toDigits 10 (m + 1) from h)).2
      have : n = m := by omega
      rw [this]

theorem tail_mem {p : Int} {s : Bool} {c : Char} (h : c ∈ Cli.decimal p ++ if s then ['s'] else []) : c = 's' ∨ c = '-' ∨ c.isDigit = true := by
  rcases List.mem_append.1 h with h | h
  · exact .inr (decimal_mem h)
  · cases s
    · cases h
    · exact .inl (by simpa using h)

theorem tail_inj {p q : Int} {s t : Bool} (h : (Cli.decimal p ++ if s then ['s'] else []) = Cli.decimal q ++ if t then ['s'] else []) : p = q ∧ s = t := by
  have hs : ∀ p, 's' ∉ Cli.decimal p := fun p hp => by
    rcases decimal_mem hp with h | h
    · exact absurd h (by decide)
    · exact absurd h (by decide)
  cases s <;> cases t
  · exact ⟨decimal_inj (by simpa using h), rfl⟩
  · exact absurd (show 's' ∈ Cli.decimal p by
      have : Cli.decimal p = Cli.decimal q ++ ['s'] := by simpa using h
      rw [this]; simp) (hs p)
  · exact absurd (show 's' ∈ Cli.decimal q by
      have : Cli.decimal p ++ ['s'] = Cli.decimal q := by simpa using h
      rw [← this]; simp) (hs q)
  · exact ⟨decimal_inj (by simpa using h), rfl⟩

theorem on_eq : " on ".toList = [' ', 'o', 'n'] ++ [' '] := by decide +kernel

/-- The title ends with the server, after a space. -/
theorem form (i h : Str) (p : Int) (s : Bool) : title i h p s = ("DMOJ Judge ".toList ++ i ++ [' ', 'o', 'n']) ++ ' ' :: hostPort h p s := by
  unfold title
  generalize "DMOJ Judge ".toList = t
  generalize hostPort h p s = u
  have e := on_eq
  generalize " on ".toList = v at *
  subst e
  simp

end TitleL

open TitleL

/-- **C123**: what is shown of the server tells host, port and whether TLS is used: no two of them look alike, whatever the hosts (names, addresses of
IPv4 or of IPv6). -/
theorem C123_server (h h' : Str) (p p' : Int) (s s' : Bool) : hostPort h p s = hostPort h' p' s' ↔ h = h' ∧ p = p' ∧ s = s' := by
  refine ⟨fun e => ?_, fun ⟨a, b, c⟩ => by rw [a, b, c]⟩
  have hc : ∀ (p : Int) (s : Bool), ':' ∉ Cli.decimal p ++ if s then ['s'] else [] := fun p s hm => by
    rcases tail_mem hm with h | h | h <;> exact absurd h (by decide)
  obtain ⟨e1, e2⟩ := split_last ':' _ _ _ _ (hc p s) (hc p' s') e
  refine ⟨?_, tail_inj e2⟩
  by_cases c : ':' ∈ h <;> by_cases c' : ':' ∈ h'
  · rw [if_pos c, if_pos c'] at e1
    simpa using e1
  · rw [if_pos c, if_neg c'] at e1
    exact absurd (by rw [← e1]; simp [c]) c'
  · rw [if_neg c, if_pos c'] at e1
    exact absurd (by rw [e1]; simp [c']) c
  · rwa [if_neg c, if_neg c'] at e1

/-- **C123**: a name or an address of IPv4 is shown as it is, one of IPv6 in brackets; the port comes after the last colon. -/
theorem C123_form (h : Str) (p : Int) (s : Bool) : ∃ shown rest : Str, hostPort h p s = shown ++ [':'] ++ rest ∧ ':' ∉ rest
    ∧ (':' ∉ h → shown = h) ∧ (':' ∈ h → shown = ['['] ++ h ++ [']']) ∧ (s = false → rest = Cli.decimal p) ∧ (s = true → rest = Cli.decimal p ++ ['s']) := by
  refine ⟨if ':' ∈ h then '[' :: h ++ [']'] else h, Cli.decimal p ++ if s then ['s'] else [], by simp [hostPort], fun hm => ?_, fun c => if_neg c,
    fun c => by rw [if_pos c]; rfl, fun c => by simp [c], fun c => by simp [c]⟩
  rcases tail_mem hm with h | h | h <;> exact absurd h (by decide)

/-- **C123** (partial): the titles of two judges are the same exactly if they have the same name and the same server, seen with the same port and kind of
connection. Missing: hosts with spaces in them, see `C123_title_fails`. -/
theorem C123_title_partial (i i' h h' : Str) (p p' : Int) (s s' : Bool) (hh : ' ' ∉ h) (hh' : ' ' ∉ h') :
    title i h p s = title i' h' p' s' ↔ i = i' ∧ h = h' ∧ p = p' ∧ s = s' := by
  refine ⟨fun e => ?_, fun ⟨a, b, c, d⟩ => by rw [a, b, c, d]⟩
  have key : ∀ (h : Str) (p : Int) (s : Bool), ' ' ∉ h → ' ' ∉ hostPort h p s := by
    intro h p s hh hm
    obtain ⟨shown, rest, e, -, h1, h2, h3, h4⟩ := C123_form h p s
    rw [e] at hm
    rcases List.mem_append.1 hm with hm | hm
    · rcases List.mem_append.1 hm with hm | hm
      · by_cases c : ':' ∈ h
        · rw [h2 c] at hm; simp [hh] at hm
        · rw [h1 c] at hm; exact hh hm
      · simp at hm
    · have : ' ' ∈ Cli.decimal p ++ if s then ['s'] else [] := by
        cases s
        · rw [h3 rfl] at hm; simpa using hm
        · rw [h4 rfl] at hm; simpa using hm
      rcases tail_mem this with h | h | h <;> exact absurd h (by decide)
  rw [form, form] at e
  obtain ⟨e1, e2⟩ := split_last ' ' _ _ _ _ (key h p s hh) (key h' p' s' hh') e
  generalize "DMOJ Judge ".toList = t at e1
  exact ⟨List.append_cancel_left (List.append_cancel_right e1), (C123_server _ _ _ _ _ _).1 e2⟩

/-- **C123** (fails): with spaces in what is given for the host, two judges may look alike. -/
theorem C123_title_fails : ∃ i i' h h' : Str, i ≠ i' ∧ ∀ (p : Int) (s : Bool), title i h p s = title i' h' p s := by
  refine ⟨['a', ' ', 'o', 'n', ' ', 'b'], ['a'], ['c'], ['b', ' ', 'o', 'n', ' ', 'c'], by decide, fun p s => ?_⟩
  rw [form, form]
  generalize "DMOJ Judge ".toList = t
  have h1 : ':' ∉ ['c'] := by decide
  have h2 : ':' ∉ ['b', ' ', 'o', 'n', ' ', 'c'] := by decide
  unfold hostPort
  rw [if_neg h1, if_neg h2]
  generalize (Cli.decimal p ++ if s = true then ['s'] else []) = u
  simp

/-- An address of IPv6 with TLS, and one of which the end could be taken for a port. -/
example : title "judge".toList "::1".toList 9998 true = "DMOJ Judge judge on [::1]:9998s".toList
    ∧ title "judge".toList "localhost".toList 9999 false = "DMOJ Judge judge on localhost:9999".toList ∧ ' ' ∉ "::1".toList :=
  ⟨by decide +kernel, by decide +kernel, by decide +kernel⟩

end Verif.Props
