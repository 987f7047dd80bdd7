import Verif.Spec.Control
import Mathlib.Tactic.ByContra

/-!
# C122: the server for the API
-/

namespace Verif.Props
open Verif.Control Verif.Main

namespace ControlL

/-- The connection being served. -/
def cur : Server → List Nat
  | .serving c => [c]
  | _ => []

open Classical in
structure Inv (s : Verif.Control.St) : Prop where
  order : (s.answers.map Prod.fst ++ cur s.server ++ s.queue).Pairwise (· < ·)
  below : ∀ c ∈ s.answers.map Prod.fst ++ cur s.server ++ s.queue, c < s.opened
  fresh : ∀ c, s.opened ≤ c → s.conns c = .silent
  right : ∀ x ∈ s.answers, Right (s.conns x.1) x.2
  upd : s.updates = s.answers.countP (fun x => decide (Update (s.conns x.1)))
  kept : ∀ c < s.opened, c ∈ s.answers.map Prod.fst ++ cur s.server ++ s.queue ∨ s.conns c = .gone
  ended : s.server = .ended → s.stop = true
  stop : s.stop = true ↔ s.main ≠ .listening
  past : s.main = .past → s.server = .ended

theorem inv_init : Inv {} := by
  constructor <;> simp [cur]

theorem right_control (m : Method) (p : Str) : Right (.asked m p) (Main.control m p).1 := by
  cases m with
  | get => rfl
  | other => rfl
  | post =>
    unfold Right Main.control
    by_cases h : p = "/update/problems".toList
    · left; exact ⟨h, by simp only [if_pos h]⟩
    · right; exact ⟨h, by simp only [if_neg h]⟩

theorem update_control (m : Method) (p : Str) : Update (.asked m p) ↔ (Main.control m p).2 = true := by
  cases m with
  | get => simp [Update, Main.control]
  | other => simp [Update, Main.control]
  | post =>
    unfold Update Main.control
    by_cases h : p = "/update/problems".toList
    · rw [if_pos h]; simp only [h]
    · simp only [if_neg h]; simp only [Conn.asked.injEq, h, and_false, Bool.false_eq_true]

theorem right_ne {c : Conn} {n : Nat} (h : Right c n) : c ≠ .silent := by
  rintro rfl; exact h

theorem inv_serve (s : Verif.Control.St) (h : Inv s) : Inv (serve s) := by
  obtain ⟨h1, h2, h3, h4, h5, h6, h7, h8, h9⟩ := h
  unfold serve
  cases hs : s.server with
  | ended => simp only; rw [hs] at h1 h2 h6; exact ⟨by rw [hs]; exact h1, by rw [hs]; exact h2, h3, h4, h5, by rw [hs]; exact h6, h7, h8, h9⟩
  | loop =>
    rw [hs] at h1 h2 h6
    simp only
    by_cases ht : s.stop = true
    · rw [if_pos ht]
      exact ⟨by simpa [cur] using h1, by simpa [cur] using h2, h3, h4, h5, by simpa [cur] using h6, fun _ => ht, h8, fun _ => rfl⟩
    · rw [if_neg ht]
      cases hq : s.queue with
      | nil => exact ⟨by rw [hs]; exact h1, by rw [hs]; exact h2, h3, h4, h5, by rw [hs]; exact h6, h7, h8, h9⟩
      | cons c q =>
        rw [hq] at h1 h2 h6
        refine ⟨by simpa [cur] using h1, by simpa [cur] using h2, h3, h4, h5, by simpa [cur] using h6, ?_, h8, ?_⟩
        · intro e; simp at e
        · intro e; have := h9 e; rw [hs] at this; simp at this
  | serving c =>
    rw [hs] at h1 h2 h6
    simp only
    have hp : s.main ≠ .past := fun e => by have := h9 e; rw [hs] at this; simp at this
    cases hc : s.conns c with
    | silent => exact ⟨by rw [hs]; exact h1, by rw [hs]; exact h2, h3, h4, h5, by rw [hs]; exact h6, h7, h8, h9⟩
    | gone =>
      refine ⟨?_, ?_, h3, h4, h5, ?_, by simp, h8, fun e => absurd e hp⟩
      · simp only [cur, List.append_nil]
        exact h1.sublist (by simp [cur])
      · intro d hd; apply h2; simp [cur] at hd ⊢; tauto
      · intro d hd; rcases h6 d hd with h | h
        · simp [cur] at h ⊢
          rcases h with h | h | h
          · exact .inl (.inl h)
          · subst h; exact .inr hc
          · exact .inl (.inr h)
        · exact .inr h
    | asked m p =>
      refine ⟨by simpa [cur] using h1, by simpa [cur] using h2, h3, ?_, ?_, by simpa [cur] using h6, by simp, h8, fun e => absurd e hp⟩
      · intro x hx
        simp only [List.mem_append, List.mem_singleton] at hx
        rcases hx with hx | rfl
        · exact h4 x hx
        · simp only [hc]; exact right_control m p
      · simp only [List.countP_append, List.countP_cons, List.countP_nil, hc, h5]
        have := update_control m p
        by_cases hu : (Main.control m p).2 = true <;> simp_all

theorem inv_conn (s : Verif.Control.St) (h : Inv s) (c : Nat) (v : Conn) (hv : v ≠ .silent) (hc : c < s.opened) (hs : s.conns c = .silent) :
    Inv { s with conns := fun d => if d = c then v else s.conns d } := by
  obtain ⟨h1, h2, h3, h4, h5, h6, h7, h8, h9⟩ := h
  have key : ∀ x ∈ s.answers, x.1 ≠ c := fun x hx e => right_ne (h4 x hx) (by rw [e, hs])
  refine ⟨h1, h2, ?_, ?_, ?_, ?_, h7, h8, h9⟩
  · intro d hd; simp only at hd ⊢; rw [if_neg (by omega)]; exact h3 d hd
  · intro x hx; simp only; rw [if_neg (key x hx)]; exact h4 x hx
  · simp only; rw [h5]; apply List.countP_congr; intro x hx; simp [key x hx]
  · intro d hd; rcases h6 d hd with h | h
    · exact .inl h
    · by_cases e : d = c
      · subst e; rw [hs] at h; simp at h
      · right; simp only; rw [if_neg e]; exact h

theorem inv_act (s : Verif.Control.St) (h : Inv s) (a : Verif.Control.Act) : Inv (act s a) := by
  cases a with
  | serve => exact inv_serve s h
  | ask c m p =>
    simp only [act]; split
    · next hh => exact inv_conn s h c _ (by simp) hh.1 hh.2
    · exact h
  | leave c =>
    simp only [act]; split
    · next hh => exact inv_conn s h c _ (by simp) hh.1 hh.2
    · exact h
  | connect =>
    obtain ⟨h1, h2, h3, h4, h5, h6, h7, h8, h9⟩ := h
    refine ⟨?_, ?_, ?_, h4, h5, ?_, h7, h8, h9⟩
    · simp only [act]; rw [← List.append_assoc, List.pairwise_append]
      exact ⟨h1, by simp, fun a ha b hb => by simp at hb; subst hb; exact h2 a ha⟩
    · intro c hc; simp only [act] at hc ⊢; rw [← List.append_assoc, List.mem_append] at hc
      rcases hc with hc | hc
      · have := h2 c hc; omega
      · simp at hc; omega
    · intro c hc; simp only [act] at hc ⊢; exact h3 c (by omega)
    · intro c hc; simp only [act] at hc ⊢; rw [← List.append_assoc, List.mem_append]
      by_cases e : c = s.opened
      · left; right; simp [e]
      · rcases h6 c (by omega) with h | h
        · exact .inl (.inl h)
        · exact .inr h
  | main =>
    obtain ⟨h1, h2, h3, h4, h5, h6, h7, h8, h9⟩ := h
    simp only [act, mainStep]
    cases hm : s.main with
    | listening => exact ⟨h1, h2, h3, h4, h5, h6, fun _ => rfl, by simp, by simp⟩
    | stopping =>
      simp only; split
      · next he => exact ⟨h1, h2, h3, h4, h5, h6, h7, by simp [h8, hm], fun _ => he⟩
      · exact ⟨h1, h2, h3, h4, h5, h6, h7, h8, h9⟩
    | past => exact ⟨h1, h2, h3, h4, h5, h6, h7, h8, h9⟩
    | interrupted => exact ⟨h1, h2, h3, h4, h5, h6, h7, h8, h9⟩
  | interrupt =>
    simp only [act]; split
    · next hm =>
      obtain ⟨h1, h2, h3, h4, h5, h6, h7, h8, h9⟩ := h
      exact ⟨h1, h2, h3, h4, h5, h6, h7, by simp [h8, hm], by simp⟩
    · exact h

theorem inv_run (as : List Verif.Control.Act) : ∀ s, Inv s → Inv (Verif.Control.run s as) := by
  induction as with
  | nil => intro s h; exact h
  | cons a as ih => intro s h; exact ih _ (inv_act s h a)

theorem run_append (s : Verif.Control.St) (as bs : List Verif.Control.Act) :
    Verif.Control.run s (as ++ bs) = Verif.Control.run (Verif.Control.run s as) bs := by simp [Verif.Control.run]

theorem stuck_act (s : Verif.Control.St) (c : Nat) (h : s.server = .serving c) (hs : ¬ Ready s c) (a : Verif.Control.Act)
    (ha : a ≠ .leave c ∧ ∀ m p, a ≠ .ask c m p) :
    (act s a).server = .serving c ∧ ¬ Ready (act s a) c ∧ (act s a).answers = s.answers ∧ (act s a).updates = s.updates
      ∧ ((act s a).main = .past → s.main = .past) ∧ (a ≠ .interrupt → s.main = .stopping → (act s a).main = .stopping) := by
  have hc : s.conns c = .silent := by simpa [Ready] using hs
  cases a with
  | connect => simp [act, h, Ready, hc]
  | ask d m p =>
    have : d ≠ c := fun e => ha.2 m p (by rw [e])
    simp only [act]; split <;> simp [h, Ready, hc, Ne.symm this]
  | leave d =>
    have : d ≠ c := fun e => ha.1 (by rw [e])
    simp only [act]; split <;> simp [h, Ready, hc, Ne.symm this]
  | serve => simp [act, serve, h, hc, Ready]
  | main => cases hm : s.main <;> simp [act, mainStep, h, hc, Ready, hm]
  | interrupt => simp only [act]; split <;> simp [h, Ready, hc]

theorem stuck_run (as : List Verif.Control.Act) (c : Nat) (ha : Quiet c as) : ∀ s : Verif.Control.St, s.server = .serving c → ¬ Ready s c →
    (Verif.Control.run s as).server = .serving c ∧ ¬ Ready (Verif.Control.run s as) c ∧ (Verif.Control.run s as).answers = s.answers
      ∧ (Verif.Control.run s as).updates = s.updates ∧ ((Verif.Control.run s as).main = .past → s.main = .past)
      ∧ (.interrupt ∉ as → s.main = .stopping → (Verif.Control.run s as).main = .stopping) := by
  induction as with
  | nil => intro s h1 h2; simp [Verif.Control.run, h1, h2]
  | cons a as ih =>
    intro s h1 h2
    obtain ⟨a1, a2, a3, a4, a5, a6⟩ := stuck_act s c h1 h2 a (ha a (by simp))
    obtain ⟨b1, b2, b3, b4, b5, b6⟩ := ih (fun b hb => ha b (by simp [hb])) _ a1 a2
    refine ⟨b1, b2, b3.trans a3, b4.trans a4, fun e => a5 (b5 e), ?_⟩
    intro hn hm
    simp only [List.mem_cons, not_or] at hn
    exact b6 hn.2 (a6 (fun e => hn.1 e.symm) hm)

theorem after_act (s : Verif.Control.St) (hs : s.stop = true) (a : Verif.Control.Act) :
    (act s a).stop = true ∧ (∀ x ∈ (act s a).answers, x ∈ s.answers ∨ s.server = .serving x.1)
      ∧ (∀ c, (act s a).server = .serving c → s.server = .serving c) := by
  cases a with
  | connect => exact ⟨hs, fun x hx => .inl hx, fun c h => h⟩
  | ask d m p =>
    simp only [act]; split
    · exact ⟨hs, fun x hx => .inl hx, fun c h => h⟩
    · exact ⟨hs, fun x hx => .inl hx, fun c h => h⟩
  | leave d =>
    simp only [act]; split
    · exact ⟨hs, fun x hx => .inl hx, fun c h => h⟩
    · exact ⟨hs, fun x hx => .inl hx, fun c h => h⟩
  | serve =>
    simp only [act, serve]
    cases h : s.server with
    | loop => rw [if_pos hs]; exact ⟨hs, fun x hx => .inl hx, fun c h => by simp at h⟩
    | ended => exact ⟨hs, fun x hx => .inl hx, fun c hc => by rw [h] at hc; exact hc⟩
    | serving c =>
      simp only
      cases hc : s.conns c with
      | silent => exact ⟨hs, fun x hx => .inl hx, fun d hd => by rw [h] at hd; exact hd⟩
      | gone => exact ⟨hs, fun x hx => .inl hx, fun d hd => by simp at hd⟩
      | asked m p =>
        refine ⟨hs, fun x hx => ?_, fun d hd => by simp at hd⟩
        simp only [List.mem_append, List.mem_singleton] at hx
        rcases hx with hx | rfl
        · exact .inl hx
        · exact .inr rfl
  | main =>
    simp only [act, mainStep]
    split
    · exact ⟨rfl, fun x hx => .inl hx, fun c h => h⟩
    · split
      · exact ⟨hs, fun x hx => .inl hx, fun c h => h⟩
      · exact ⟨hs, fun x hx => .inl hx, fun c h => h⟩
    · exact ⟨hs, fun x hx => .inl hx, fun c h => h⟩
    · exact ⟨hs, fun x hx => .inl hx, fun c h => h⟩
  | interrupt =>
    simp only [act]; split
    · exact ⟨hs, fun x hx => .inl hx, fun c h => h⟩
    · exact ⟨hs, fun x hx => .inl hx, fun c h => h⟩

theorem after_run (as : List Verif.Control.Act) : ∀ s : Verif.Control.St, s.stop = true →
    (∀ x ∈ (Verif.Control.run s as).answers, x ∈ s.answers ∨ s.server = .serving x.1) := by
  induction as with
  | nil => intro s _ x hx; exact .inl hx
  | cons a as ih =>
    intro s hs x hx
    obtain ⟨h1, h2, h3⟩ := after_act s hs a
    rcases ih _ h1 x hx with h | h
    · exact h2 x h
    · exact .inr (h3 _ h)

theorem drain (n : Nat) : ∀ s : Verif.Control.St, s.queue.length = n → s.stop = false → s.server = .loop → (∀ c ∈ s.queue, Ready s c) →
    (Verif.Control.run s (List.replicate (2 * n) .serve)).queue = [] ∧ (Verif.Control.run s (List.replicate (2 * n) .serve)).server = .loop
    ∧ (Verif.Control.run s (List.replicate (2 * n) .serve)).conns = s.conns ∧ (Verif.Control.run s (List.replicate (2 * n) .serve)).opened = s.opened := by
  induction n with
  | zero => intro s h1 h2 h3 _; simpa [Verif.Control.run, h3] using h1
  | succ n ih =>
    intro s h1 h2 h3 h4
    match hq : s.queue with
    | [] => rw [hq] at h1; simp at h1
    | c :: q =>
      rw [hq] at h1 h4
      have hr := h4 c (by simp)
      have e : Verif.Control.run s (List.replicate (2 * (n + 1)) .serve)
          = Verif.Control.run (serve (serve s)) (List.replicate (2 * n) .serve) := by
        rw [show 2 * (n + 1) = 2 * n + 1 + 1 by omega, List.replicate_succ, List.replicate_succ]; rfl
      have h5 : (serve (serve s)).queue = q ∧ (serve (serve s)).stop = false ∧ (serve (serve s)).server = .loop
          ∧ (serve (serve s)).conns = s.conns ∧ (serve (serve s)).opened = s.opened := by
        have e1 : serve s = { s with server := .serving c, queue := q } := by simp [serve, h3, h2, hq]
        rw [e1]
        cases hc : s.conns c with
        | silent => exact absurd hc hr
        | asked m p => simp [serve, hc, h2]
        | gone => simp [serve, hc, h2]
      obtain ⟨a, b, d, f, g⟩ := h5
      have := ih (serve (serve s)) (by rw [a]; simpa using h1) b d (by rw [a]; intro x hx; unfold Ready; rw [f]; exact h4 x (by simp [hx]))
      rw [e]
      exact ⟨this.1, this.2.1, this.2.2.1.trans f, this.2.2.2.trans g⟩

/-- Connection `c` has asked and is answered after `n` steps of the server. -/
def Turn (s : Verif.Control.St) (c n : Nat) : Prop :=
  s.stop = false ∧ Ready s c ∧ s.conns c ≠ .gone ∧
    ((s.server = .serving c ∧ n = 1)
      ∨ ∃ q₁ q₂, s.queue = q₁ ++ c :: q₂ ∧ (∀ d ∈ q₁, Ready s d)
          ∧ ((s.server = .loop ∧ n = 2 * (q₁.length + 1)) ∨ ∃ d, s.server = .serving d ∧ Ready s d ∧ n = 2 * (q₁.length + 1) + 1))

theorem turn_serve (s : Verif.Control.St) (c n : Nat) (h : Turn s c n) :
    (∃ k, (c, k) ∈ (serve s).answers) ∨ (1 ≤ n ∧ Turn (serve s) c (n - 1)) := by
  obtain ⟨h1, h2, h3, ⟨h4, rfl⟩ | ⟨q₁, q₂, hq, hr, ⟨hl, rfl⟩ | ⟨d, hd, hrd, rfl⟩⟩⟩ := h
  · left
    cases hc : s.conns c with
    | silent => exact absurd hc h2
    | gone => exact absurd hc h3
    | asked m p => exact ⟨(Main.control m p).1, by simp [serve, h4, hc]⟩
  · right
    refine ⟨by omega, ?_⟩
    cases q₁ with
    | nil =>
      have e : serve s = { s with server := .serving c, queue := q₂ } := by simp [serve, hl, h1, hq]
      rw [e]
      exact ⟨h1, h2, h3, .inl ⟨rfl, by simp⟩⟩
    | cons d q₁ =>
      have e : serve s = { s with server := .serving d, queue := q₁ ++ c :: q₂ } := by simp [serve, hl, h1, hq]
      rw [e]
      exact ⟨h1, h2, h3, .inr ⟨q₁, q₂, rfl, fun x hx => hr x (by simp [hx]), .inr ⟨d, rfl, hr d (by simp), by simp; omega⟩⟩⟩
  · right
    refine ⟨by omega, ?_⟩
    cases hc : s.conns d with
    | silent => exact absurd hc hrd
    | gone =>
      have e : serve s = { s with server := .loop } := by simp [serve, hd, hc]
      rw [e]
      exact ⟨h1, h2, h3, .inr ⟨q₁, q₂, hq, hr, .inl ⟨rfl, by omega⟩⟩⟩
    | asked m p =>
      have e : serve s = { s with
          server := .loop
          answers := s.answers ++ [(d, (Main.control m p).1)]
          updates := s.updates + if (Main.control m p).2 then 1 else 0 } := by simp [serve, hd, hc]
      rw [e]
      exact ⟨h1, h2, h3, .inr ⟨q₁, q₂, hq, hr, .inl ⟨rfl, by omega⟩⟩⟩

theorem turn_conn (s : Verif.Control.St) (c n : Nat) (h : Turn s c n) (e : Nat) (v : Conn) (hv : v ≠ .silent) (hs : s.conns e = .silent) :
    Turn { s with conns := fun d => if d = e then v else s.conns d } c n := by
  obtain ⟨h1, h2, h3, h4⟩ := h
  have hce : c ≠ e := fun x => h2 (by rw [x, hs])
  have key : ∀ d, Ready s d → Ready { s with conns := fun d => if d = e then v else s.conns d } d := by
    intro d hd; unfold Ready at hd ⊢; simp only; split
    · exact hv
    · exact hd
  refine ⟨h1, key c h2, by simp [hce, h3], ?_⟩
  rcases h4 with h4 | ⟨q₁, q₂, hq, hr, hl | ⟨d, hd, hrd, hn⟩⟩
  · exact .inl h4
  · exact .inr ⟨q₁, q₂, hq, fun d hd => key d (hr d hd), .inl hl⟩
  · exact .inr ⟨q₁, q₂, hq, fun d hd => key d (hr d hd), .inr ⟨d, hd, key d hrd, hn⟩⟩

theorem turn_other (s : Verif.Control.St) (c n : Nat) (h : Turn s c n) (a : Verif.Control.Act) (ha : a ≠ .serve) (hm : a ≠ .main) :
    Turn (act s a) c n := by
  cases a with
  | serve => exact absurd rfl ha
  | main => exact absurd rfl hm
  | connect =>
    obtain ⟨h1, h2, h3, h4⟩ := h
    refine ⟨h1, h2, h3, ?_⟩
    rcases h4 with h4 | ⟨q₁, q₂, hq, hr, hl⟩
    · exact .inl h4
    · exact .inr ⟨q₁, q₂ ++ [s.opened], by simp [act, hq], hr, hl⟩
  | ask d m p =>
    simp only [act]; split
    · next hh => exact turn_conn s c n h d _ (by simp) hh.2
    · exact h
  | leave d =>
    simp only [act]; split
    · next hh => exact turn_conn s c n h d _ (by simp) hh.2
    · exact h
  | interrupt => simp only [act]; split <;> exact h

theorem answers_act (s : Verif.Control.St) (a : Verif.Control.Act) (x : Nat × Nat) (h : x ∈ s.answers) : x ∈ (act s a).answers := by
  cases a with
  | serve =>
    simp only [act, serve]
    split
    · split
      · exact h
      · split <;> exact h
    · split
      · exact h
      · exact h
      · simp [h]
    · exact h
  | main =>
    simp only [act, mainStep]
    split
    · exact h
    · split <;> exact h
    · exact h
    · exact h
  | connect => exact h
  | ask d m p => simp only [act]; split <;> exact h
  | leave d => simp only [act]; split <;> exact h
  | interrupt => simp only [act]; split <;> exact h

theorem answers_run (as : List Verif.Control.Act) : ∀ (s : Verif.Control.St) (x : Nat × Nat), x ∈ s.answers → x ∈ (Verif.Control.run s as).answers := by
  induction as with
  | nil => intro s x h; exact h
  | cons a as ih => intro s x h; exact ih _ x (answers_act s a x h)

theorem turn_run (as : List Verif.Control.Act) (hm : .main ∉ as) (c : Nat) : ∀ (s : Verif.Control.St) (n : Nat), Turn s c n → 1 ≤ n →
    n ≤ as.count .serve → ∃ k, (c, k) ∈ (Verif.Control.run s as).answers := by
  induction as with
  | nil => intro s n _ h1 h2; simp at h2; omega
  | cons a as ih =>
    intro s n h h1 h2
    simp only [List.mem_cons, not_or] at hm
    by_cases ha : a = .serve
    · subst ha
      rw [List.count_cons_self] at h2
      rcases turn_serve s c n h with ⟨k, hk⟩ | ⟨_, ht⟩
      · exact ⟨k, answers_run as _ _ hk⟩
      · by_cases hn : n = 1
        · subst hn
          obtain ⟨_, _, _, ⟨_, h⟩ | ⟨_, _, _, _, ⟨_, h⟩ | ⟨_, _, _, h⟩⟩⟩ := ht <;> omega
        · exact ih hm.2 _ (n - 1) ht (by omega) (by omega)
    · rw [List.count_cons_of_ne ha] at h2
      exact ih hm.2 _ n (turn_other s c n h a ha (fun e => hm.1 e.symm)) h1 h2

end ControlL

open Classical in
/-- Whatever clients do and whenever the judge stops: what is answered is right, one connection after the other in the order in which they came, none
twice; and an update was asked for as often as it was answered. -/
theorem C122_answers (as : List Verif.Control.Act) :
    (∀ x ∈ (Verif.Control.run {} as).answers, Right ((Verif.Control.run {} as).conns x.1) x.2)
    ∧ ((Verif.Control.run {} as).answers.map Prod.fst).Pairwise (· < ·)
    ∧ (Verif.Control.run {} as).updates
        = (Verif.Control.run {} as).answers.countP (fun x => decide (Update ((Verif.Control.run {} as).conns x.1))) := by
  have h := ControlL.inv_run as {} ControlL.inv_init
  exact ⟨h.right, (List.pairwise_append.mp (List.pairwise_append.mp h.order).1).1, h.upd⟩

/-- No request is lost: one that was made is answered, at hand, or waits. -/
theorem C122_kept (as : List Verif.Control.Act) (c : Nat) (m : Method) (p : Str) (h : (Verif.Control.run {} as).conns c = .asked m p) :
    (∃ n, (c, n) ∈ (Verif.Control.run {} as).answers) ∨ (Verif.Control.run {} as).server = .serving c ∨ c ∈ (Verif.Control.run {} as).queue := by
  have hi := ControlL.inv_run as {} ControlL.inv_init
  have hc : c < (Verif.Control.run {} as).opened := by
    by_contra hn
    have := hi.fresh c (by omega)
    rw [h] at this; simp at this
  rcases hi.kept c hc with hk | hk
  · simp only [List.mem_append, List.mem_map] at hk
    rcases hk with (⟨x, hx, rfl⟩ | hk) | hk
    · exact .inl ⟨x.2, hx⟩
    · right; left
      cases hs : (Verif.Control.run {} as).server <;> simp [ControlL.cur, hs] at hk
      rw [hk]
    · exact .inr (.inr hk)
  · rw [h] at hk; simp at hk

/-- All that was asked is answered by the server alone, if no client it has to wait for is silent and the judge does not stop. Missing for the full
statement: a silent client, see `C122_stuck_fails`. -/
theorem C122_served_partial (as : List Verif.Control.Act) (hs : (Verif.Control.run {} as).stop = false)
    (hr : ∀ c, (Verif.Control.run {} as).server = .serving c ∨ c ∈ (Verif.Control.run {} as).queue → Ready (Verif.Control.run {} as) c) :
    ∃ k ≤ 2 * (Verif.Control.run {} as).queue.length + 1, ∀ c m p, (Verif.Control.run {} as).conns c = .asked m p →
      ∃ n, (c, n) ∈ (Verif.Control.run {} (as ++ List.replicate k .serve)).answers := by
  have hi := ControlL.inv_run as {} ControlL.inv_init
  suffices h : ∃ k ≤ 2 * (Verif.Control.run {} as).queue.length + 1,
      (Verif.Control.run {} (as ++ List.replicate k .serve)).queue = [] ∧ (Verif.Control.run {} (as ++ List.replicate k .serve)).server = .loop
      ∧ (Verif.Control.run {} (as ++ List.replicate k .serve)).conns = (Verif.Control.run {} as).conns by
    obtain ⟨k, hk, h1, h2, h3⟩ := h
    refine ⟨k, hk, fun c m p h => ?_⟩
    rcases C122_kept (as ++ List.replicate k .serve) c m p (by rw [h3]; exact h) with h | h | h
    · exact h
    · rw [h2] at h; simp at h
    · rw [h1] at h; simp at h
  simp only [ControlL.run_append]
  generalize Verif.Control.run {} as = s at *
  cases hl : s.server with
  | loop =>
    obtain ⟨a, b, c, d⟩ := ControlL.drain _ s rfl hs hl (fun c hc => hr c (.inr hc))
    exact ⟨2 * s.queue.length, by omega, a, b, c⟩
  | ended => have := hi.ended hl; rw [hs] at this; simp at this
  | serving c =>
    have hc := hr c (.inl hl)
    have h5 : (serve s).queue = s.queue ∧ (serve s).stop = false ∧ (serve s).server = .loop ∧ (serve s).conns = s.conns := by
      cases hv : s.conns c with
      | silent => exact absurd hv hc
      | asked m p => simp [serve, hl, hv, hs]
      | gone => simp [serve, hl, hv, hs]
    obtain ⟨e1, e2, e3, e4⟩ := h5
    obtain ⟨a, b, d, _⟩ := ControlL.drain s.queue.length (serve s) (by rw [e1]) e2 e3
      (by rw [e1]; intro x hx; unfold Ready; rw [e4]; exact hr x (.inr hx))
    refine ⟨2 * s.queue.length + 1, by omega, ?_⟩
    have e : Verif.Control.run s (List.replicate (2 * s.queue.length + 1) .serve)
        = Verif.Control.run (serve s) (List.replicate (2 * s.queue.length) .serve) := by rw [List.replicate_succ]; rfl
    rw [e]
    exact ⟨a, b, d.trans e4⟩

/-- Two clients have asked, none is silent. -/
example : (Verif.Control.run {} [.connect, .connect, .ask 1 .get [], .ask 0 .post "/update/problems".toList, .serve]).stop = false
    ∧ (Verif.Control.run {} [.connect, .connect, .ask 1 .get [], .ask 0 .post "/update/problems".toList, .serve]).server = .serving 0
    ∧ (Verif.Control.run {} [.connect, .connect, .ask 1 .get [], .ask 0 .post "/update/problems".toList, .serve]).queue = [1]
    ∧ (Verif.Control.run {} [.connect, .connect, .ask 1 .get [], .ask 0 .post "/update/problems".toList, .serve, .serve, .serve, .serve]).answers
        = [(0, 200), (1, 404)]
    ∧ (Verif.Control.run {} [.connect, .connect, .ask 1 .get [], .ask 0 .post "/update/problems".toList, .serve, .serve, .serve, .serve]).updates = 1 := by
  decide +kernel

/-- A request is answered once the server has gone on for twice as many steps as connections wait, whatever clients do meanwhile and however many more
connect, if none of those before it is silent and the judge does not stop. Missing for the full statement: a silent client, see `C122_stuck_fails`. -/
theorem C122_turn_partial (as bs : List Verif.Control.Act) (c : Nat) (m : Method) (p : Str) (hs : (Verif.Control.run {} as).stop = false)
    (hc : (Verif.Control.run {} as).conns c = .asked m p)
    (hr : ∀ d < c, (Verif.Control.run {} as).server = .serving d ∨ d ∈ (Verif.Control.run {} as).queue → Ready (Verif.Control.run {} as) d)
    (hm : .main ∉ bs) (hn : 2 * (Verif.Control.run {} as).queue.length + 1 ≤ bs.count .serve) :
    ∃ n, (c, n) ∈ (Verif.Control.run {} (as ++ bs)).answers := by
  have hi := ControlL.inv_run as {} ControlL.inv_init
  have hk := C122_kept as c m p hc
  rw [ControlL.run_append]
  generalize Verif.Control.run {} as = s at *
  have hrc : Ready s c := by unfold Ready; rw [hc]; simp
  have hg : s.conns c ≠ .gone := by rw [hc]; simp
  rcases hk with ⟨n, hk⟩ | hk | hk
  · exact ⟨n, ControlL.answers_run bs s _ hk⟩
  · exact ControlL.turn_run bs hm c s 1 ⟨hs, hrc, hg, .inl ⟨hk, rfl⟩⟩ (by omega) (by omega)
  · obtain ⟨q₁, q₂, hq⟩ := List.append_of_mem hk
    have ho := hi.order
    rw [hq] at ho
    have hlt : ∀ d ∈ ControlL.cur s.server ++ q₁, d < c := by
      intro d hd
      rw [List.append_assoc, List.pairwise_append] at ho
      have h2 := ho.2.1
      rw [← List.append_assoc, List.pairwise_append] at h2
      exact h2.2.2 d hd c (by simp)
    have hr₁ : ∀ d ∈ q₁, Ready s d := fun d hd => hr d (hlt d (by simp [hd])) (.inr (by rw [hq]; simp [hd]))
    have hlen : s.queue.length = q₁.length + (q₂.length + 1) := by rw [hq]; simp
    cases hl : s.server with
    | loop =>
      exact ControlL.turn_run bs hm c s (2 * (q₁.length + 1)) ⟨hs, hrc, hg, .inr ⟨q₁, q₂, hq, hr₁, .inl ⟨hl, rfl⟩⟩⟩ (by omega) (by omega)
    | serving d =>
      have hd := hr d (hlt d (by rw [hl]; simp [ControlL.cur])) (.inl hl)
      exact ControlL.turn_run bs hm c s (2 * (q₁.length + 1) + 1) ⟨hs, hrc, hg, .inr ⟨q₁, q₂, hq, hr₁, .inr ⟨d, hl, hd, rfl⟩⟩⟩ (by omega)
        (by omega)
    | ended => have := hi.ended hl; rw [hs] at this; simp at this

/-- Connection 1 asks after connection 0, which has left; 2 is silent and others connect meanwhile. -/
example : ∃ as bs : List Verif.Control.Act, (Verif.Control.run {} as).stop = false ∧ (Verif.Control.run {} as).conns 1 = .asked .get []
    ∧ (Verif.Control.run {} as).conns 0 = .gone ∧ (Verif.Control.run {} as).conns 2 = .silent ∧ (Verif.Control.run {} as).queue = [0, 1, 2]
    ∧ .main ∉ bs ∧ 2 * (Verif.Control.run {} as).queue.length + 1 ≤ bs.count .serve ∧ .connect ∈ bs :=
  ⟨[.connect, .connect, .connect, .leave 0, .ask 1 .get []], [.serve, .connect, .serve, .serve, .connect, .serve, .serve, .serve, .serve],
    by decide +kernel⟩

/-- The judge that stops gets past the server by itself exactly if the client being served, if any, is not silent. Missing for the full statement: the
other case, see `C122_hang_fails`. -/
theorem C122_stops_partial (as : List Verif.Control.Act) (hm : (Verif.Control.run {} as).main = .stopping) :
    (∃ bs, (∀ b ∈ bs, Own b) ∧ (Verif.Control.run {} (as ++ bs)).main = .past)
      ↔ ∀ c, (Verif.Control.run {} as).server = .serving c → Ready (Verif.Control.run {} as) c := by
  have hi := ControlL.inv_run as {} ControlL.inv_init
  simp only [ControlL.run_append]
  generalize Verif.Control.run {} as = s at *
  have ht : s.stop = true := hi.stop.mpr (by rw [hm]; simp)
  constructor
  · rintro ⟨bs, hb, hp⟩ c hc
    by_contra hr
    have := (ControlL.stuck_run bs c (fun b hb' => by rcases hb b hb' with rfl | rfl <;> simp) s hc hr).2.2.2.2.1 hp
    rw [hm] at this; simp at this
  · intro h
    refine ⟨[.serve, .serve, .main], by simp [Own], ?_⟩
    cases hl : s.server with
    | loop => simp [Verif.Control.run, act, serve, mainStep, hl, ht, hm]
    | ended => simp [Verif.Control.run, act, serve, mainStep, hl, hm]
    | serving c =>
      have hr := h c hl
      cases hv : s.conns c with
      | silent => exact absurd hv hr
      | asked m p => simp [Verif.Control.run, act, serve, mainStep, hl, ht, hm, hv]
      | gone => simp [Verif.Control.run, act, serve, mainStep, hl, ht, hm, hv]

/-- The judge stops while a client that has asked is being served, and another waits. -/
example : (Verif.Control.run {} [.connect, .connect, .serve, .ask 0 .get [], .main]).main = .stopping
    ∧ (Verif.Control.run {} [.connect, .connect, .serve, .ask 0 .get [], .main]).server = .serving 0
    ∧ (Verif.Control.run {} [.connect, .connect, .serve, .ask 0 .get [], .main]).conns 0 = .asked .get [] := by decide +kernel

/-- Once the judge stops, at most the connection being served is still answered. -/
theorem C122_after (as bs : List Verif.Control.Act) (hm : (Verif.Control.run {} as).main ≠ .listening) :
    ∀ x ∈ (Verif.Control.run {} (as ++ bs)).answers,
      x ∈ (Verif.Control.run {} as).answers ∨ (Verif.Control.run {} as).server = .serving x.1 := by
  rw [ControlL.run_append]
  exact ControlL.after_run bs _ ((ControlL.inv_run as {} ControlL.inv_init).stop.mpr hm)

/-- A request that waits is not answered any more. -/
example : (Verif.Control.run {} [.connect, .ask 0 .post "/update/problems".toList, .main, .serve, .main]).main = .past
    ∧ (Verif.Control.run {} [.connect, .ask 0 .post "/update/problems".toList, .main, .serve, .main]).answers = []
    ∧ (Verif.Control.run {} [.connect, .ask 0 .post "/update/problems".toList, .main, .serve, .main]).updates = 0 := by decide +kernel

/-- Desired: a request is answered whatever other clients do. Fails: as long as a client that was accepted says nothing, no one else is answered, and
no update is begun by this way, whatever else happens. -/
theorem C122_stuck_fails : ∃ as : List Verif.Control.Act, (Verif.Control.run {} as).main = .listening
    ∧ (∃ c, Update ((Verif.Control.run {} as).conns c))
    ∧ ∀ bs, Quiet 0 bs → (Verif.Control.run {} (as ++ bs)).answers = [] ∧ (Verif.Control.run {} (as ++ bs)).updates = 0 := by
  refine ⟨[.connect, .connect, .ask 1 .post "/update/problems".toList, .serve], by decide +kernel,
    ⟨1, by unfold Update; decide +kernel⟩, fun bs hb => ?_⟩
  rw [ControlL.run_append]
  have := ControlL.stuck_run bs 0 hb (Verif.Control.run {} [.connect, .connect, .ask 1 .post "/update/problems".toList, .serve])
    (by decide +kernel) (by unfold Ready; decide +kernel)
  rw [this.2.2.1, this.2.2.2.1]
  decide +kernel

/-- Desired: a judge that stops, ends. Fails: one client that has connected and says nothing keeps it in `shutdown` for ever, until it is interrupted
again. -/
theorem C122_hang_fails : ∃ as : List Verif.Control.Act, (Verif.Control.run {} as).main = .stopping
    ∧ ∀ bs, Quiet 0 bs → .interrupt ∉ bs → (Verif.Control.run {} (as ++ bs)).main = .stopping
      ∧ (Verif.Control.run {} (as ++ bs ++ [.interrupt])).main = .interrupted := by
  refine ⟨[.connect, .serve, .main], by decide +kernel, fun bs hb hn => ?_⟩
  rw [ControlL.run_append _ (_ ++ _), ControlL.run_append]
  have h := (ControlL.stuck_run bs 0 hb (Verif.Control.run {} [.connect, .serve, .main]) (by decide +kernel)
    (by unfold Ready; decide +kernel)).2.2.2.2.2 hn (by decide +kernel)
  exact ⟨h, by
    generalize Verif.Control.run (Verif.Control.run {} [.connect, .serve, .main]) bs = s at *
    simp [Verif.Control.run, act, h]⟩

end Verif.Props
