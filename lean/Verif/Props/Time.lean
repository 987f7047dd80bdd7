import Verif.Model.Time
import Mathlib.Tactic.Common
import Mathlib.Tactic.SplitIfs

/-!
# C41 Time accounting

Specification: a time stamp denotes a number of nanoseconds.
-/

namespace Verif.Time

/-- The nanoseconds a time stamp denotes. -/
def Ts.ns (t : Ts) : Int := t.sec * 1000000000 + t.nsec

/-- A normalised time stamp, as returned by the kernel. -/
def Ts.Norm (t : Ts) : Prop := 0 ≤ t.nsec ∧ t.nsec < 1000000000

theorem ns_inj (a b : Ts) (ha : a.Norm) (hb : b.Norm) (h : a.ns = b.ns) : a = b := by
  cases a; cases b
  simp only [Ts.ns, Ts.Norm, Ts.mk.injEq] at *
  omega

/-- Addition is exact and normalised. -/
theorem C41_add (a b : Ts) (ha : a.Norm) (hb : b.Norm) : (add a b).ns = a.ns + b.ns ∧ (add a b).Norm := by
  unfold add Ts.ns Ts.Norm at *
  simp only
  split_ifs <;> simp only <;> omega

/-- Subtraction is exact when positive, zero otherwise, and normalised. -/
theorem C41_sub (a b : Ts) (ha : a.Norm) (hb : b.Norm) : (sub a b).ns = max 0 (a.ns - b.ns) ∧ (sub a b).Norm := by
  unfold sub Ts.ns Ts.Norm at *
  split_ifs <;> simp only <;> omega

example : sub ⟨3, 0⟩ ⟨1, 999999999⟩ = ⟨1, 1⟩ ∧ add ⟨1, 999999999⟩ ⟨0, 2⟩ = ⟨2, 1⟩ := by decide

/-- The accumulated running time is the sum of the waits, whatever their number; with a monotonic clock
it is exactly the time spent waiting for the program. -/
theorem C41_total (ws : List Wait) (hw : ∀ w ∈ ws, w.before.Norm ∧ w.after.Norm) :
    (ticks {} ws).exec.ns = (ws.map fun w => max 0 (w.after.ns - w.before.ns)).sum ∧ (ticks {} ws).exec.Norm := by
  have key : ∀ (ws : List Wait) (c : Clock), c.exec.Norm → (∀ w ∈ ws, w.before.Norm ∧ w.after.Norm) →
      (ticks c ws).exec.ns = c.exec.ns + (ws.map fun w => max 0 (w.after.ns - w.before.ns)).sum ∧ (ticks c ws).exec.Norm := by
    intro ws
    induction ws with
    | nil => intro c hc _; simp [ticks, hc]
    | cons w ws ih =>
      intro c hc h
      obtain ⟨hb, ha⟩ := h w (by simp)
      obtain ⟨h1, h2⟩ := C41_sub w.after w.before ha hb
      obtain ⟨h3, h4⟩ := C41_add c.exec (sub w.after w.before) hc h2
      obtain ⟨h5, h6⟩ := ih (tick c w) h4 (fun x hx => h x (by simp [hx]))
      refine ⟨?_, h6⟩
      show (ticks (tick c w) ws).exec.ns = _
      rw [h5]
      show (add c.exec (sub w.after w.before)).ns + _ = _
      rw [h3, h1, List.map_cons, List.sum_cons]
      omega
  obtain ⟨h1, h2⟩ := key ws {} (by simp [Ts.Norm]) hw
  refine ⟨?_, h2⟩
  rw [h1]
  simp [Ts.ns]

example : (ticks {} [⟨⟨5, 0⟩, ⟨5, 700000000⟩, true, false⟩, ⟨⟨6, 0⟩, ⟨6, 800000000⟩, false, true⟩]).exec = ⟨1, 500000000⟩ := by decide

/-- Running time never decreases. -/
theorem C41_monotone (ws more : List Wait) (hw : ∀ w ∈ ws ++ more, w.before.Norm ∧ w.after.Norm) :
    (ticks {} ws).exec.ns ≤ (ticks {} (ws ++ more)).exec.ns := by
  rw [(C41_total ws fun w h => hw w (by simp [h])).1, (C41_total (ws ++ more) hw).1, List.map_append, List.sum_append]
  have : 0 ≤ (more.map fun w => max 0 (w.after.ns - w.before.ns)).sum := by
    clear hw
    induction more with
    | nil => simp
    | cons w ws ih => rw [List.map_cons, List.sum_cons]; omega
  omega

/-- Wall time: while running, from the first stop's wait to now; afterwards to the end; zero before the
first stop. -/
theorem C41_wall (w0 : Wait) (mid : List Wait) (now : Ts) (h0 : w0.first = true) (hl : w0.last = false)
    (hm : ∀ w ∈ mid, w.first = false ∧ w.last = false) (hp : 0 < w0.before.ns) (hn : w0.before.Norm) (hnow : now.Norm) :
    (wall (ticks {} (w0 :: mid)) now).ns = max 0 (now.ns - w0.before.ns) ∧
    (∀ wl : Wait, wl.first = false → wl.last = true → wl.after.Norm → 0 < wl.after.ns →
      (wall (ticks {} (w0 :: mid ++ [wl])) now).ns = max 0 (wl.after.ns - w0.before.ns)) ∧
    wall {} now = ⟨0, 0⟩ := by
  have keep : ∀ (mid : List Wait) (c : Clock), (∀ w ∈ mid, w.first = false ∧ w.last = false) →
      (ticks c mid).start = c.start ∧ (ticks c mid).stop = c.stop := by
    intro mid
    induction mid with
    | nil => intro c _; exact ⟨rfl, rfl⟩
    | cons w ws ih =>
      intro c h
      obtain ⟨h1, h2⟩ := h w (by simp)
      obtain ⟨h3, h4⟩ := ih (tick c w) (fun x hx => h x (by simp [hx]))
      refine ⟨?_, ?_⟩
      · show (ticks (tick c w) ws).start = _
        rw [h3]; simp [tick, h1]
      · show (ticks (tick c w) ws).stop = _
        rw [h4]; simp [tick, h2]
  obtain ⟨k1, k2⟩ := keep mid (tick {} w0) hm
  have k1 : (ticks {} (w0 :: mid)).start = w0.before := by
    show (ticks (tick {} w0) mid).start = _
    rw [k1]; simp [tick, h0]
  have k2 : (ticks {} (w0 :: mid)).stop = ⟨0, 0⟩ := by
    show (ticks (tick {} w0) mid).stop = _
    rw [k2]; simp [tick, hl]
  have nz : ¬ (w0.before.sec = 0 ∧ w0.before.nsec = 0) := by
    rintro ⟨a, b⟩
    simp [Ts.ns, a, b] at hp
  refine ⟨?_, ?_, by simp [wall]⟩
  · unfold wall
    rw [k1, k2, if_neg nz, if_neg (by simp)]
    exact (C41_sub now w0.before hnow hn).1
  · intro wl hf hlast hna hpos
    have e : ticks {} (w0 :: mid ++ [wl]) = tick (ticks {} (w0 :: mid)) wl := by simp [ticks]
    have s1 : (tick (ticks {} (w0 :: mid)) wl).start = w0.before := by simp [tick, hf, k1]
    have s2 : (tick (ticks {} (w0 :: mid)) wl).stop = wl.after := by simp [tick, hlast]
    have nz2 : wl.after.sec ≠ 0 ∨ wl.after.nsec ≠ 0 := by
      by_contra hh
      push Not at hh
      simp [Ts.ns, hh.1, hh.2] at hpos
    unfold wall
    rw [e, s1, s2, if_neg nz, if_pos nz2]
    exact (C41_sub wl.after w0.before hna hn).1

example : wall (ticks {} [⟨⟨5, 0⟩, ⟨5, 1⟩, true, false⟩, ⟨⟨6, 0⟩, ⟨7, 5⟩, false, true⟩]) ⟨100, 0⟩ = ⟨2, 5⟩ := by decide

end Verif.Time
