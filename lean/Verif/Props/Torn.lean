import Verif.Model.Torn
import Verif.Props.Time

/-!
# C120: the clocks as the watchdog sees them
-/

namespace Verif.Props
open Verif.Time Verif.Torn

namespace TornL

/-- What holds of every entry. -/
structure Ok (x : Entry) : Prop where
  old : x.old.Norm
  new : x.new.Norm
  le : x.old.ns ≤ x.new.ns
  lo : x.old.sec ≤ x.mem.sec
  hi : x.mem.sec ≤ x.new.sec
  nlo : 0 ≤ x.mem.nsec
  nhi : x.mem.nsec < 2000000000
  vlo : x.old.ns ≤ x.mem.ns
  vhi : x.mem.ns ≤ x.new.ns + 1000000000

theorem writes_ok (a b : Ts) (ha : a.Norm) (hb : b.Norm) (hz : 0 ≤ b.sec) : ∀ m ∈ writes a b, Ok ⟨m, a, add a b⟩ ∧ a.sec ≤ m.sec ∧ m.sec ≤ (add a b).sec := by
  obtain ⟨h1, h2⟩ := C41_add a b ha hb
  have h3 := h2
  unfold Ts.Norm Ts.ns at *
  intro m hm
  unfold writes at hm
  have hs : (add a b).sec = if a.nsec + b.nsec ≥ 1000000000 then a.sec + b.sec + 1 else a.sec + b.sec := by
    unfold add; dsimp only; split <;> rfl
  have key : ∀ m : Ts, a.sec ≤ m.sec → m.sec ≤ (add a b).sec → 0 ≤ m.nsec → m.nsec < 2000000000 →
      a.sec * 1000000000 + a.nsec ≤ m.sec * 1000000000 + m.nsec →
      m.sec * 1000000000 + m.nsec ≤ (add a b).sec * 1000000000 + (add a b).nsec + 1000000000 →
      Ok ⟨m, a, add a b⟩ ∧ a.sec ≤ m.sec ∧ m.sec ≤ (add a b).sec := fun m k1 k2 k3 k4 k5 k6 =>
    ⟨⟨by unfold Ts.Norm; omega, by unfold Ts.Norm; omega, by unfold Ts.ns; dsimp only; omega, k1, k2, k3, k4, by unfold Ts.ns; exact k5,
      by unfold Ts.ns; exact k6⟩, k1, k2⟩
  by_cases hc : a.nsec + b.nsec ≥ 1000000000
  · rw [if_pos hc] at hm hs
    simp only [List.mem_cons, List.not_mem_nil, or_false] at hm
    rcases hm with rfl | rfl | rfl | rfl <;> (apply key <;> dsimp only <;> omega)
  · rw [if_neg hc] at hm hs
    simp only [List.mem_cons, List.not_mem_nil, or_false] at hm
    rcases hm with rfl | rfl <;> (apply key <;> dsimp only <;> omega)

theorem updates_ok : ∀ (bs : List Ts) (a : Ts), a.Norm → (∀ b ∈ bs, b.Norm ∧ 0 ≤ b.sec) → ∀ x ∈ updates a bs, Ok x ∧ a.sec ≤ x.mem.sec ∧ a.ns ≤ x.new.ns
  | [], _, _, _, _, hx => by cases hx
  | b :: bs, a, ha, hb, x, hx => by
    obtain ⟨hb1, hz⟩ := hb b List.mem_cons_self
    obtain ⟨h1, h2⟩ := C41_add a b ha hb1
    have hbn : 0 ≤ b.ns := by unfold Ts.Norm at hb1; unfold Ts.ns; omega
    rcases List.mem_append.mp hx with hx | hx
    · obtain ⟨m, hm, rfl⟩ := List.mem_map.mp hx
      obtain ⟨k1, k2, _⟩ := writes_ok a b ha hb1 hz m hm
      exact ⟨k1, k2, k1.le⟩
    · obtain ⟨k1, k2, k3⟩ := updates_ok bs (add a b) h2 (fun c hc => hb c (List.mem_cons_of_mem _ hc)) x hx
      have : a.sec ≤ (add a b).sec := by
        obtain ⟨_, k, k'⟩ := writes_ok a b ha hb1 hz ⟨a.sec + b.sec, a.nsec⟩ (by simp [writes])
        exact Int.le_trans k k'
      exact ⟨k1, by omega, by omega⟩

/-- Later entries have no smaller seconds, and belong to later updates. -/
def Later (x y : Entry) : Prop := x.mem.sec ≤ y.mem.sec ∧ x.new.ns ≤ y.new.ns

theorem writes_later (a b : Ts) : ((writes a b).map fun m => (⟨m, a, add a b⟩ : Entry)).Pairwise Later := by
  unfold writes
  split <;> simp [Later]
  omega

theorem updates_later : ∀ (bs : List Ts) (a : Ts), a.Norm → (∀ b ∈ bs, b.Norm ∧ 0 ≤ b.sec) → (updates a bs).Pairwise Later
  | [], _, _, _ => .nil
  | b :: bs, a, ha, hb => by
    obtain ⟨hb1, hz⟩ := hb b List.mem_cons_self
    obtain ⟨h1, h2⟩ := C41_add a b ha hb1
    refine List.pairwise_append.mpr ⟨writes_later a b, updates_later bs _ h2 (fun c hc => hb c (List.mem_cons_of_mem _ hc)), ?_⟩
    intro x hx y hy
    obtain ⟨m, hm, rfl⟩ := List.mem_map.mp hx
    obtain ⟨_, _, k⟩ := writes_ok a b ha hb1 hz m hm
    obtain ⟨_, k2, k3⟩ := updates_ok bs (add a b) h2 (fun c hc => hb c (List.mem_cons_of_mem _ hc)) y hy
    exact ⟨Int.le_trans k k2, k3⟩

theorem trace_ok (a : Ts) (bs : List Ts) (ha : a.Norm) (hb : ∀ b ∈ bs, b.Norm ∧ 0 ≤ b.sec) : ∀ x ∈ trace a bs, Ok x := by
  intro x hx
  rcases List.mem_cons.mp hx with rfl | hx
  · have := ha
    unfold Ts.Norm at this
    exact ⟨ha, ha, Int.le_refl _, Int.le_refl _, Int.le_refl _, by dsimp only; omega, by dsimp only; omega, Int.le_refl _, by dsimp only; omega⟩
  · exact (updates_ok bs a ha hb x hx).1

theorem trace_later (a : Ts) (bs : List Ts) (ha : a.Norm) (hb : ∀ b ∈ bs, b.Norm ∧ 0 ≤ b.sec) : (trace a bs).Pairwise Later :=
  List.pairwise_cons.mpr ⟨fun x hx => (updates_ok bs a ha hb x hx).2, updates_later bs a ha hb⟩

theorem later_of_index {l : List Entry} (h : l.Pairwise Later) {i j : Nat} (hij : i ≤ j) {x y : Entry} (hi : l[i]? = some x) (hj : l[j]? = some y) :
    Later x y := by
  obtain ⟨hi', rfl⟩ := List.getElem?_eq_some_iff.mp hi
  obtain ⟨hj', rfl⟩ := List.getElem?_eq_some_iff.mp hj
  rcases Nat.lt_or_eq_of_le hij with h1 | rfl
  · exact List.pairwise_iff_getElem.mp h i j hi' hj' h1
  · exact ⟨Int.le_refl _, Int.le_refl _⟩

theorem updates_last : ∀ (bs : List Ts) (a : Ts) (x : Entry), (updates a bs).getLast? = some x → x.mem = bs.foldl add a ∧ x.new = bs.foldl add a
  | [], _, _, h => by cases h
  | b :: bs, a, x, h => by
    rw [updates, List.getLast?_append] at h
    cases hu : (updates (add a b) bs).getLast? with
    | some y =>
      rw [hu] at h
      cases h
      exact updates_last bs (add a b) _ hu
    | none =>
      rw [hu] at h
      have hbs : bs = [] := by
        cases bs with
        | nil => rfl
        | cons c cs => rw [List.getLast?_eq_none_iff] at hu; simp [updates, writes] at hu
      subst hbs
      simp only [Option.none_or, writes] at h
      unfold add
      by_cases hc : a.nsec + b.nsec ≥ 1000000000
      · simp only [hc, if_true, List.map_cons, List.map_nil, List.getLast?_cons_cons, List.getLast?_singleton, Option.some.injEq] at h
        subst h
        simp [add, hc]
      · simp only [hc, if_false, List.map_cons, List.map_nil, List.getLast?_cons_cons, List.getLast?_singleton, Option.some.injEq] at h
        subst h
        simp [add, hc]

end TornL

open TornL

/-- **C120** (the thread itself): what the tracing thread reads after its own updates is their exact sum. -/
theorem C120_end (a : Ts) (bs : List Ts) (o : Order) (x : Entry) (h : (trace a bs).getLast? = some x) : seen o x x = bs.foldl add a := by
  have : x.mem = bs.foldl add a := by
    cases bs with
    | nil => simp [trace, updates] at h; rw [← h]; rfl
    | cons b bs =>
      rw [trace, List.getLast?_cons] at h
      cases hu : (updates a (b :: bs)).getLast? with
      | none => rw [List.getLast?_eq_none_iff] at hu; simp [updates, writes] at hu
      | some y =>
        rw [hu] at h
        cases h
        exact (updates_last _ _ _ hu).1
  cases o <;> simp [seen, this]

/-- **C120** (bounds): a reader that reads the seconds first, at any moments and however many updates come between its two reads, sees less than a second
too little and at most a second too much: measured by the time accounted when it began, and by that when the last update it met is finished. -/
theorem C120_seconds_first (a : Ts) (bs : List Ts) (ha : a.Norm) (hb : ∀ b ∈ bs, b.Norm ∧ 0 ≤ b.sec) (i j : Nat) (hij : i ≤ j) (x y : Entry)
    (hi : (trace a bs)[i]? = some x) (hj : (trace a bs)[j]? = some y) :
    x.old.ns - 1000000000 < (seen .sec x y).ns ∧ (seen .sec x y).ns ≤ y.new.ns + 1000000000 := by
  have hx := trace_ok a bs ha hb x (List.mem_of_getElem? hi)
  have hy := trace_ok a bs ha hb y (List.mem_of_getElem? hj)
  have hl := later_of_index (trace_later a bs ha hb) hij hi hj
  have := hx.old
  have := hx.lo
  have := hy.nlo
  have := hy.vhi
  have := hl.1
  unfold Ts.Norm at *
  unfold Ts.ns seen at *
  dsimp only at *
  omega

/-- **C120** (bounds): a reader that reads the nanoseconds first never sees too little, and less than two seconds too much. -/
theorem C120_nanoseconds_first (a : Ts) (bs : List Ts) (ha : a.Norm) (hb : ∀ b ∈ bs, b.Norm ∧ 0 ≤ b.sec) (i j : Nat) (hij : i ≤ j) (x y : Entry)
    (hi : (trace a bs)[i]? = some x) (hj : (trace a bs)[j]? = some y) :
    x.old.ns ≤ (seen .nsec x y).ns ∧ (seen .nsec x y).ns < y.new.ns + 2000000000 := by
  have hx := trace_ok a bs ha hb x (List.mem_of_getElem? hi)
  have hy := trace_ok a bs ha hb y (List.mem_of_getElem? hj)
  have hl := later_of_index (trace_later a bs ha hb) hij hi hj
  have := hy.new
  have := hx.vlo
  have := hx.nhi
  have := hy.hi
  have := hl.1
  unfold Ts.Norm at *
  unfold Ts.ns seen at *
  dsimp only at *
  omega

/-- **C120** (wall clock): if the seconds of `start_time` are written first, the wall clock time seen while it is being written is zero, or at most a
second too much. -/
theorem C120_wall (s now : Ts) (hs : s.Norm) (hn : now.Norm) (hle : s.ns ≤ now.ns) (m : Ts) (hm : m ∈ starts .sec s) :
    (wallSeen m now).ns = 0 ∨ (now.ns - s.ns ≤ (wallSeen m now).ns ∧ (wallSeen m now).ns < now.ns - s.ns + 1000000000) := by
  have key : ∀ m : Ts, m.Norm → m.ns ≤ s.ns → s.ns < m.ns + 1000000000 →
      (wallSeen m now).ns = 0 ∨ (now.ns - s.ns ≤ (wallSeen m now).ns ∧ (wallSeen m now).ns < now.ns - s.ns + 1000000000) := by
    intro m k1 k2 k3
    unfold wallSeen wall
    dsimp only
    by_cases h0 : m.sec = 0 ∧ m.nsec = 0
    · rw [if_pos h0]; exact .inl rfl
    · rw [if_neg h0, if_neg (by simp)]
      have := (C41_sub now m hn k1).1
      rw [this]
      omega
  simp only [starts, if_true, List.mem_cons, List.not_mem_nil, or_false] at hm
  rcases hm with rfl | rfl | rfl
  · exact .inl rfl
  · apply key <;> unfold Ts.Norm Ts.ns at * <;> dsimp only <;> omega
  · exact key m hs (Int.le_refl _) (by omega)

/-- **C120** (partial): the watchdog kills only if the time accounted is less than two seconds below the limit, or the wall clock time less than one below
its own, and the seconds of `start_time` were written first. What is missing is that it does so only above the limits: `C120_early_fails`,
`C120_wall_fails`. -/
theorem C120_kills_partial (a : Ts) (bs : List Ts) (ha : a.Norm) (hb : ∀ b ∈ bs, b.Norm ∧ 0 ≤ b.sec) (i j : Nat) (hij : i ≤ j) (x y : Entry)
    (hi : (trace a bs)[i]? = some x) (hj : (trace a bs)[j]? = some y) (o : Order)
    (s now : Ts) (hs : s.Norm) (hn : now.Norm) (hle : s.ns ≤ now.ns) (m : Ts) (hm : m ∈ starts .sec s)
    (limit wallLimit : Int) (hw : 0 ≤ wallLimit) (hk : kills limit wallLimit (seen o x y) (wallSeen m now) = true) :
    limit - 2000000000 < y.new.ns ∨ wallLimit - 1000000000 < now.ns - s.ns := by
  have h1 := C120_seconds_first a bs ha hb i j hij x y hi hj
  have h2 := C120_nanoseconds_first a bs ha hb i j hij x y hi hj
  have h3 := C120_wall s now hs hn hle m hm
  unfold kills at hk
  unfold Ts.ns at *
  cases o <;> simp only [Bool.or_eq_true, decide_eq_true_eq] at hk <;> omega

/-- **C120** (noticed): a program whose time was a second above the limit when the watchdog began to look is killed. -/
theorem C120_noticed (a : Ts) (bs : List Ts) (ha : a.Norm) (hb : ∀ b ∈ bs, b.Norm ∧ 0 ≤ b.sec) (i j : Nat) (hij : i ≤ j) (x y : Entry)
    (hi : (trace a bs)[i]? = some x) (hj : (trace a bs)[j]? = some y) (o : Order) (limit wallLimit : Int) (w : Ts)
    (h : limit + 1000000000 ≤ x.old.ns) : kills limit wallLimit (seen o x y) w = true := by
  have h1 := C120_seconds_first a bs ha hb i j hij x y hi hj
  have h2 := C120_nanoseconds_first a bs ha hb i j hij x y hi hj
  unfold kills
  unfold Ts.ns at *
  cases o <;> simp only [Bool.or_eq_true, decide_eq_true_eq] <;> omega

/-- **C120** fails: for every limit of a second or more there is a moment at which a program that has used no more than the limit is killed for it. -/
theorem C120_early_fails (limit : Int) (hl : 1000000000 ≤ limit) (wallLimit : Int) (o : Order) (w : Ts) :
    ∃ a b : Ts, ∃ (i : Nat) (x : Entry), a.Norm ∧ 0 ≤ a.sec ∧ b.Norm ∧ 0 ≤ b.sec ∧ (trace a [b])[i]? = some x ∧ x.new.ns ≤ limit ∧
      kills limit wallLimit (seen o x x) w = true := by
  refine ⟨⟨limit / 1000000000 - 1, 999999999⟩, ⟨0, 1⟩, 3, ⟨⟨limit / 1000000000, 1000000000⟩, ⟨limit / 1000000000 - 1, 999999999⟩,
    ⟨limit / 1000000000, 0⟩⟩, ?_, ?_, ?_, Int.le_refl _, ?_, ?_, ?_⟩
  · unfold Ts.Norm; dsimp only; omega
  · dsimp only; omega
  · unfold Ts.Norm; dsimp only; omega
  · simp [trace, updates, writes, add]
  · unfold Ts.ns; dsimp only; omega
  · unfold kills
    cases o <;> simp only [seen, Bool.or_eq_true, decide_eq_true_eq] <;> exact .inl (decide_eq_true (by omega))

/-- **C120** fails: if the nanoseconds are read first, and updates come between the reads, even a program that is a second below the limit may be killed. -/
theorem C120_second_fails (limit : Int) (hl : 3000000000 ≤ limit) (hr : limit % 1000000000 < 999999998) (wallLimit : Int) (w : Ts) :
    ∃ (a : Ts) (bs : List Ts) (i j : Nat) (x y : Entry), a.Norm ∧ 0 ≤ a.sec ∧ (∀ b ∈ bs, b.Norm ∧ 0 ≤ b.sec) ∧ i ≤ j ∧
      (trace a bs)[i]? = some x ∧ (trace a bs)[j]? = some y ∧ y.new.ns + 1000000000 ≤ limit ∧ kills limit wallLimit (seen .nsec x y) w = true := by
  refine ⟨⟨limit / 1000000000 - 3, 999999999⟩, [⟨0, 999999999⟩, ⟨0, 2⟩], 2, 8, ⟨⟨limit / 1000000000 - 3, 1999999998⟩,
    ⟨limit / 1000000000 - 3, 999999999⟩, ⟨limit / 1000000000 - 3 + 1, 999999998⟩⟩, ⟨⟨limit / 1000000000 - 3 + 1 + 1, 0⟩,
    ⟨limit / 1000000000 - 3 + 1, 999999998⟩, ⟨limit / 1000000000 - 3 + 1 + 1, 0⟩⟩, ?_, ?_, ?_, by decide, ?_, ?_, ?_, ?_⟩
  · unfold Ts.Norm; dsimp only; omega
  · dsimp only; omega
  · intro b hb
    simp only [List.mem_cons, List.not_mem_nil, or_false] at hb
    rcases hb with rfl | rfl <;> (unfold Ts.Norm; decide)
  · simp [trace, updates, writes, add]
  · simp [trace, updates, writes, add]
  · unfold Ts.ns; dsimp only; omega
  · unfold kills
    simp only [seen, Bool.or_eq_true]
    exact .inl (decide_eq_true (by omega))

/-- **C120** fails: if the seconds are read first, a program above its limit is overlooked when an update comes between the reads. -/
theorem C120_overlooked_fails (limit : Int) (hl : 0 ≤ limit) (hr : limit % 1000000000 < 999999999) :
    ∃ (a b : Ts) (i j : Nat) (x y : Entry), a.Norm ∧ 0 ≤ a.sec ∧ b.Norm ∧ 0 ≤ b.sec ∧ i ≤ j ∧
      (trace a [b])[i]? = some x ∧ (trace a [b])[j]? = some y ∧ limit < x.old.ns ∧ ∀ wallLimit w, w.ns ≤ wallLimit →
      kills limit wallLimit (seen .sec x y) w = false := by
  refine ⟨⟨limit / 1000000000, 999999999⟩, ⟨0, 1⟩, 0, 4, ⟨⟨limit / 1000000000, 999999999⟩, ⟨limit / 1000000000, 999999999⟩,
    ⟨limit / 1000000000, 999999999⟩⟩, ⟨⟨limit / 1000000000 + 1, 0⟩, ⟨limit / 1000000000, 999999999⟩, ⟨limit / 1000000000 + 1, 0⟩⟩,
    ?_, ?_, ?_, ?_, by decide, ?_, ?_, ?_, ?_⟩
  · unfold Ts.Norm; dsimp only; omega
  · dsimp only; omega
  · unfold Ts.Norm; decide
  · decide
  · simp [trace]
  · simp [trace, updates, writes, add]
  · unfold Ts.ns; dsimp only; omega
  · intro wallLimit w hw
    unfold kills seen
    unfold Ts.ns at hw
    rw [Bool.or_eq_false_iff]
    exact ⟨decide_eq_false (by dsimp only; omega), decide_eq_false (by omega)⟩

/-- **C120** fails: if the nanoseconds of `start_time` are written first, a program that has just been started is killed if the machine has been up for
longer than the limit. -/
theorem C120_wall_fails (s now : Ts) (hs : s.Norm) (hn : now.Norm) (hle : s.ns ≤ now.ns) (hz : s.nsec ≠ 0) (limit wallLimit : Int) (e : Ts)
    (hu : wallLimit < s.sec * 1000000000) : ∃ m ∈ starts .nsec s, kills limit wallLimit e (wallSeen m now) = true := by
  refine ⟨⟨0, s.nsec⟩, by simp [starts], ?_⟩
  have hm : (⟨0, s.nsec⟩ : Ts).Norm := by unfold Ts.Norm at *; dsimp only; omega
  have h := (C41_sub now ⟨0, s.nsec⟩ hn hm).1
  unfold kills wallSeen wall
  dsimp only
  rw [if_neg (by simp [hz]), if_neg (by simp)]
  unfold Ts.Norm Ts.ns at *
  dsimp only at *
  simp only [Bool.or_eq_true, decide_eq_true_eq]
  omega

/-- Two updates, the first with a carry; the third entry of it is a second too much, and a read that begins before it and ends after it is one too little. -/
def torn : List Entry := trace ⟨1, 999999999⟩ [⟨0, 2⟩, ⟨3, 0⟩]

example : torn.map (·.mem) = [⟨1, 999999999⟩, ⟨1, 999999999⟩, ⟨1, 1000000001⟩, ⟨2, 1000000001⟩, ⟨2, 1⟩, ⟨5, 1⟩, ⟨5, 1⟩] ∧
    (torn[0]?.bind fun x => torn[4]?.map fun y => (seen .sec x y, x.old, y.new)) = some (⟨1, 1⟩, ⟨1, 999999999⟩, ⟨2, 1⟩) := by decide

example : (⟨5, 300⟩ : Ts).Norm ∧ (⟨7, 100⟩ : Ts).Norm ∧ (⟨5, 300⟩ : Ts).ns ≤ (⟨7, 100⟩ : Ts).ns ∧
    (starts .sec ⟨5, 300⟩).map (wallSeen · ⟨7, 100⟩) = [⟨0, 0⟩, ⟨2, 100⟩, ⟨1, 999999800⟩] ∧
    (starts .nsec ⟨5, 300⟩).map (wallSeen · ⟨7, 100⟩) = [⟨0, 0⟩, ⟨6, 999999800⟩, ⟨1, 999999800⟩] := by
  refine ⟨?_, ?_, ?_, ?_, ?_⟩ <;> first | decide | (unfold Ts.Norm; decide)

end Verif.Props
