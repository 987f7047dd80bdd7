import Verif.Model.Net
import Mathlib.Tactic.NormNum
import Mathlib.Tactic.Linarith
import Mathlib.Tactic.Ring
import Mathlib.Algebra.Order.Ring.Rat
import Mathlib.Algebra.Order.GroupWithZero.Basic

/-! # C21-C24: updater thread, reconnecting, framing, message dispatch -/

namespace Verif.Props
open Verif Net

/-! ## C21 -/

private structure UInv (u : Upd) : Prop where
  owed : u.owed = true → u.signal = true ∨ u.pc = .woken ∨ u.pc = .cleared ∨ u.pc = .ready ∨ u.exit = true
  exited : u.pc = .exited → u.exit = true

private theorem uinv_step (u : Upd) (a : UAct) (h : UInv u) : UInv (u.step a) := by
  obtain ⟨h1, h2⟩ := h
  cases a with
  | request => exact ⟨fun _ => .inl rfl, h2⟩
  | setExit => exact ⟨fun _ => .inr (.inr (.inr (.inr rfl))), fun _ => rfl⟩
  | setSignal => exact ⟨fun _ => .inl rfl, h2⟩
  | updater =>
    show UInv u.loop
    unfold Upd.loop
    split
    · split
      · exact ⟨fun _ => .inr (.inl rfl), by simp⟩
      · exact ⟨h1, h2⟩
    · exact ⟨by simp, by simp⟩
    · split
      · exact ⟨fun _ => by simp_all, fun _ => by simp_all⟩
      · exact ⟨by simp, by simp⟩
    · exact ⟨by simp, by simp⟩
    · rename_i hp
      refine ⟨fun ho => ?_, by simp⟩
      rcases h1 ho with h | h | h | h | h
      · exact .inl h
      · simp [hp] at h
      · simp [hp] at h
      · simp [hp] at h
      · simp [h]
    · exact ⟨h1, h2⟩

private theorem uinv_run (as : List UAct) : ∀ u, UInv u → UInv (u.run as) := by
  induction as with
  | nil => exact fun _ h => h
  | cons a as ih => exact fun u h => ih _ (uinv_step u a h)

/-- After a request, until a push begins, the request is owed. -/
private theorem owed_or_pushed (bs : List UAct) : ∀ (u : Upd) (n : Nat), n ≤ u.pushes → (u.owed = true ∨ n < u.pushes) →
    ((u.run bs).owed = true ∨ n < (u.run bs).pushes) := by
  induction bs with
  | nil => exact fun _ _ _ h => h
  | cons b bs ih =>
    intro u n hn h
    have key : u.pushes ≤ (u.step b).pushes ∧ ((u.step b).owed = true ∨ n < (u.step b).pushes) := by
      cases b with
      | updater =>
        show u.pushes ≤ u.loop.pushes ∧ (u.loop.owed = true ∨ n < u.loop.pushes)
        unfold Upd.loop
        split
        · split <;> exact ⟨le_rfl, h⟩
        · exact ⟨le_rfl, h⟩
        · split <;> exact ⟨le_rfl, h⟩
        · exact ⟨Nat.le_succ _, .inr (by simp; omega)⟩
        · exact ⟨le_rfl, h⟩
        · exact ⟨le_rfl, h⟩
      | request => exact ⟨le_rfl, .inl rfl⟩
      | setExit => exact ⟨le_rfl, h⟩
      | setSignal => exact ⟨le_rfl, h⟩
    exact ih _ n (by omega) key.2

private theorem served (u : Upd) (hi : UInv u) (ho : u.owed = true) (he : u.exit = false) :
    ∃ n ≤ 5, u.pushes < (u.run (List.replicate n .updater)).pushes := by
  have h1 := hi.owed ho
  have h2 := hi.exited
  obtain ⟨signal, exit, pc, owed, pushes⟩ := u
  simp only at ho he
  subst ho he
  cases pc with
  | ready => exact ⟨1, by omega, by simp [Upd.run, Upd.step, Upd.loop]⟩
  | cleared => exact ⟨2, by omega, by simp [Upd.run, Upd.step, Upd.loop, List.replicate]⟩
  | woken => exact ⟨3, by omega, by simp [Upd.run, Upd.step, Upd.loop, List.replicate]⟩
  | wait =>
    have hs : signal = true := by simpa using h1
    subst hs
    exact ⟨4, by omega, by simp [Upd.run, Upd.step, Upd.loop, List.replicate]⟩
  | pushing =>
    have hs : signal = true := by simpa using h1
    subst hs
    exact ⟨5, by omega, by simp [Upd.run, Upd.step, Upd.loop, List.replicate]⟩
  | exited => simp at h2

/-- C21.  No lost update: whatever happened before (`as`) and after (`bs`) an update request, either a
push of the problem list began after the request, or the updater was told to exit, or five more
steps of the updater begin one. -/
theorem C21_no_lost_update (as bs : List UAct) :
    let before := Upd.init.run as
    let after := Upd.init.run (as ++ .request :: bs)
    before.pushes < after.pushes ∨ after.exit = true ∨
      ∃ n ≤ 5, after.pushes < (after.run (List.replicate n .updater)).pushes := by
  intro before after
  have hrun : after = (before.step .request).run bs := by
    simp [after, before, Upd.run, List.foldl_append]
  have hinv : UInv after := uinv_run _ _ ⟨by simp [Upd.init], by simp [Upd.init]⟩
  have hop := owed_or_pushed bs (before.step .request) before.pushes le_rfl (.inl rfl)
  rw [← hrun] at hop
  rcases hop with hop | hop
  · by_cases he : after.exit = true
    · exact .inr (.inl he)
    · exact .inr (.inr (served after hinv hop (by simpa using he)))
  · exact .inl hop

/-- C21.  The updater never pushes without having been signalled: with no request and no shutdown it
never pushes. -/
theorem C21_no_spurious (as : List UAct) (h : ∀ a ∈ as, a = .updater ∨ a = .setExit) :
    (Upd.init.run as).pushes = 0 := by
  have key : ∀ as : List UAct, (∀ a ∈ as, a = .updater ∨ a = .setExit) → ∀ u : Upd, u.signal = false →
      u.pc = .wait → (u.run as).pushes = u.pushes := by
    intro as
    induction as with
    | nil => intros; rfl
    | cons a as ih =>
      intro ha u hs hp
      have ih' := ih (fun b hb => ha b (List.mem_cons_of_mem _ hb))
      rcases ha a List.mem_cons_self with rfl | rfl
      · have : u.step .updater = u := by simp [Upd.step, Upd.loop, hs, hp]
        show ((u.step .updater).run as).pushes = _
        rw [this]; exact ih' u hs hp
      · exact ih' _ hs hp
  exact key as h _ rfl rfl

example : (Upd.init.run [.request, .updater, .updater, .request, .updater, .updater]).pushes = 1 ∧
    (Upd.init.run [.request, .updater, .updater, .request, .updater, .updater]).signal = true := by decide

/-! ## C22 -/

private theorem pow_gt (k : Nat) : (4 * (3 / 2) ^ k > (86400 : Rat)) ↔ 25 ≤ k := by
  constructor
  · intro h
    by_contra hk
    have : ((3 / 2 : Rat)) ^ k ≤ (3 / 2) ^ 24 := pow_le_pow_right₀ (by norm_num) (by omega)
    have h24 : (4 : Rat) * (3 / 2) ^ 24 ≤ 86400 := by norm_num
    linarith
  · intro hk
    have : ((3 / 2 : Rat)) ^ 25 ≤ (3 / 2) ^ k := pow_le_pow_right₀ (by norm_num) hk
    have h25 : (4 : Rat) * (3 / 2) ^ 25 > 86400 := by norm_num
    linarith

/-- The sleeps of a call of `_reconnect`. -/
def sleepsOf : Reconn → List Rat
  | .connected _ l => l
  | .exited l => l
  | .trying _ l => l

private theorem sleepsOf_slept (t : Rat) (r : Reconn) : sleepsOf (r.slept t) = t :: sleepsOf r := by
  cases r <;> rfl

private theorem succ_pow (k : Nat) : (4 * (3 / 2) ^ k * (3 / 2) : Rat) = 4 * (3 / 2) ^ (k + 1) := by
  rw [pow_succ]; ring

private theorem reconnect_shape (outs : List Bool) : ∀ k, k ≤ 25 →
    (∃ n, k + n ≤ 25 ∧ sleepsOf (reconnect (4 * (3 / 2) ^ k) outs) =
      (List.range' k n).map (fun i => 4 * (3 / 2 : Rat) ^ i)) ∧
    (∀ f l, reconnect (4 * (3 / 2) ^ k) outs = .connected f l → ∃ j, j ≤ 25 ∧ f = 4 * (3 / 2) ^ j) := by
  induction outs with
  | nil =>
    intro k hk
    unfold reconnect
    split
    · exact ⟨⟨0, by omega, rfl⟩, by simp⟩
    · rename_i h
      rw [pow_gt] at h
      exact ⟨⟨1, by omega, by simp [sleepsOf]⟩, by simp⟩
  | cons o outs ih =>
    intro k hk
    unfold reconnect
    split
    · exact ⟨⟨0, by omega, rfl⟩, by simp⟩
    · rename_i h
      rw [pow_gt] at h
      split
      · refine ⟨⟨1, by omega, by simp [sleepsOf]⟩, ?_⟩
        intro f l e
        simp only [Reconn.connected.injEq] at e
        exact ⟨k + 1, by omega, by rw [← e.1, succ_pow]⟩
      · rw [succ_pow]
        obtain ⟨⟨n, hn, hs⟩, hc⟩ := ih (k + 1) (by omega)
        refine ⟨⟨n + 1, by omega, ?_⟩, ?_⟩
        · rw [sleepsOf_slept, hs, List.range'_succ]; simp
        · intro f l e
          cases hr : reconnect (4 * (3 / 2) ^ (k + 1)) outs with
          | connected f' l' =>
            rw [hr] at e
            simp only [Reconn.slept, Reconn.connected.injEq] at e
            exact e.1 ▸ hc f' l' hr
          | exited l' => rw [hr] at e; simp [Reconn.slept] at e
          | trying f' l' => rw [hr] at e; simp [Reconn.slept] at e

/-- C22.  Whatever the connection does over the judge's life, each sleep lasts 4*1.5^k seconds for
some k < 25, so never more than a day. -/
theorem C22_sleeps (phases : List Phase) :
    ∀ t ∈ (life 4 phases).1, (∃ k < 25, t = 4 * (3 / 2) ^ k) ∧ 4 ≤ t ∧ t ≤ 86400 := by
  have key : ∀ (phases : List Phase) k, k ≤ 25 →
      ∀ t ∈ (life (4 * (3 / 2) ^ k) phases).1, ∃ j < 25, t = 4 * (3 / 2) ^ j := by
    intro phases
    induction phases with
    | nil => intro k _ t ht; simp [life] at ht
    | cons ph phases ih =>
      intro k hk t ht
      cases ph with
      | graded =>
        have := ih 0 (by omega) t
        simp only [pow_zero, mul_one] at this
        exact this ht
      | lost outs =>
        obtain ⟨⟨n, hn, hs⟩, hc⟩ := reconnect_shape outs k hk
        have hin : ∀ t ∈ sleepsOf (reconnect (4 * (3 / 2) ^ k) outs), ∃ j < 25, t = 4 * (3 / 2) ^ j := by
          intro t ht
          rw [hs] at ht
          simp only [List.mem_map, List.mem_range'_1] at ht
          obtain ⟨i, hi, rfl⟩ := ht
          exact ⟨i, by omega, rfl⟩
        cases hr : reconnect (4 * (3 / 2) ^ k) outs with
        | connected f l =>
          simp only [life, hr] at ht
          rw [hr] at hin
          rcases List.mem_append.1 ht with ht | ht
          · exact hin t ht
          · obtain ⟨j, hj, rfl⟩ := hc f l hr
            exact ih j hj t ht
        | exited l => simp only [life, hr] at ht; rw [hr] at hin; exact hin t ht
        | trying f l => simp only [life, hr] at ht; rw [hr] at hin; exact hin t ht
  intro t ht
  obtain ⟨k, hk, rfl⟩ := key phases 0 (by omega) t (by simpa using ht)
  refine ⟨⟨k, hk, rfl⟩, ?_, ?_⟩
  · have : (1 : Rat) ≤ (3 / 2) ^ k := one_le_pow₀ (by norm_num)
    linarith
  · have := (pow_gt k).not.2 (by omega)
    linarith

/-- C22.  The sleeps without an intervening finished grading are 4, 6, 9, ... (4*1.5^k, strictly
increasing), there are at most 25 of them, and if every attempt fails the judge exits after exactly
25. -/
theorem C22_backoff (outs : List Bool) :
    (∃ n ≤ 25, sleepsOf (reconnect 4 outs) = (List.range n).map (fun k => 4 * (3 / 2 : Rat) ^ k)) ∧
    (sleepsOf (reconnect 4 outs)).Pairwise (· < ·) ∧
    (outs = List.replicate outs.length false → 25 ≤ outs.length →
      reconnect 4 outs = .exited ((List.range 25).map (fun k => 4 * (3 / 2 : Rat) ^ k))) ∧
    (outs.length < 25 → ∀ l, reconnect 4 outs ≠ .exited l) := by
  obtain ⟨⟨n, hn, hs⟩, -⟩ := reconnect_shape outs 0 (by omega)
  simp only [pow_zero, mul_one, ← List.range_eq_range'] at hs
  refine ⟨⟨n, by omega, hs⟩, ?_, ?_, ?_⟩
  · rw [hs, List.pairwise_map]
    refine List.pairwise_lt_range.imp fun {a b} hab => ?_
    have : ((3 / 2 : Rat)) ^ a < (3 / 2) ^ b := pow_lt_pow_right₀ (by norm_num) hab
    linarith
  · intro ho hl
    have key : ∀ (m k : Nat), k ≤ 25 → 25 ≤ k + m →
        reconnect (4 * (3 / 2) ^ k) (List.replicate m false) =
          .exited ((List.range' k (25 - k)).map (fun k => 4 * (3 / 2 : Rat) ^ k)) := by
      intro m
      induction m with
      | zero =>
        intro k hk hm
        obtain rfl : k = 25 := by omega
        rw [List.replicate_zero, reconnect, if_pos ((pow_gt 25).2 (by omega))]
        simp
      | succ m ih =>
        intro k hk hm
        rw [List.replicate_succ, reconnect]
        by_cases h : 25 ≤ k
        · obtain rfl : k = 25 := by omega
          rw [if_pos ((pow_gt 25).2 (by omega))]
          simp
        · rw [if_neg ((pow_gt k).not.2 h), if_neg (by simp), succ_pow, ih (k + 1) (by omega) (by omega),
            Reconn.slept, show 25 - k = 25 - (k + 1) + 1 by omega, List.range'_succ]
          simp
    have := key outs.length 0 (by omega) (by omega)
    rw [← ho] at this
    simpa [List.range_eq_range'] using this
  · have key : ∀ (outs : List Bool) (k : Nat), k + outs.length < 25 →
        ∀ l, reconnect (4 * (3 / 2) ^ k) outs ≠ .exited l := by
      intro outs
      induction outs with
      | nil =>
        intro k hk l
        rw [reconnect, if_neg ((pow_gt k).not.2 (by simp at hk; omega))]
        simp
      | cons o outs ih =>
        intro k hk l
        simp only [List.length_cons] at hk
        rw [reconnect, if_neg ((pow_gt k).not.2 (by omega))]
        split
        · simp
        · rw [succ_pow]
          intro e
          cases hr : reconnect (4 * (3 / 2) ^ (k + 1)) outs with
          | connected f' l' => rw [hr] at e; simp [Reconn.slept] at e
          | exited l' => exact ih (k + 1) (by omega) l' hr
          | trying f' l' => rw [hr] at e; simp [Reconn.slept] at e
    intro hl
    simpa using key outs 0 (by simpa using hl)

/-- C22.  A finished grading resets the backoff: the next sleep is 4 seconds, whatever came before. -/
theorem C22_reset (fallback : Rat) (outs : List Bool) (rest : List Phase) :
    (life fallback (.graded :: .lost outs :: rest)).1.head? = some 4 := by
  have h4 : ¬ ((4 : Rat) > 86400) := by norm_num
  unfold life life
  cases outs with
  | nil => simp [reconnect, h4]
  | cons o outs =>
    rw [reconnect, if_neg h4]
    cases o
    · simp only [Bool.false_eq_true, if_false]
      cases reconnect (4 * (3 / 2)) outs <;> simp [Reconn.slept]
    · simp

example : (life 4 [.lost [false, true], .graded, .lost [true], .lost [true]]).1 = [4, 6, 4, 6] := by
  decide +kernel

/-! ## C23 -/

private theorem pack_length {n : Nat} {h : Bytes} (e : pack n = some h) : h.length = 4 := by
  unfold pack at e
  split at e
  · simp only [Option.some.injEq] at e; rw [← e]; rfl
  · cases e

/-- C23.  The size header round trips for every size below 2^32, and only those can be sent. -/
theorem C23_header (n : Nat) : (pack n).bind unpack = if n < 2 ^ 32 then some n else none := by
  unfold pack
  split
  · rename_i h
    simp only [Option.bind_some, unpack, UInt8.toNat_ofNat', Option.some.injEq]
    omega
  · rfl

private theorem readSingle_frame {P} (C : Codec P) (p : P) (hj : C.loads (C.dumps p) = some p)
    (hz : ∀ b, C.decompress (C.compress b) = some b) (rest : Bytes) (f : Bytes)
    (hf : frame (C.raw p) = some f) : readSingle C (f ++ rest) = .packet p rest := by
  unfold frame at hf
  cases hp : pack (C.raw p).length with
  | none => simp [hp] at hf
  | some hd =>
    simp only [hp, Option.map_some, Option.some.injEq] at hf
    have hl := pack_length hp
    have hu : unpack hd = some (C.raw p).length := by
      have := C23_header (C.raw p).length
      rw [hp] at this
      simp only [Option.bind_some] at this
      rw [this, if_pos]
      by_contra hlt
      rw [pack, if_neg hlt] at hp
      cases hp
    subst hf
    have h1 : ((hd ++ C.raw p) ++ rest).take 4 = hd := by
      rw [List.append_assoc, List.take_left' hl]
    have h2 : ((hd ++ C.raw p) ++ rest).drop 4 = C.raw p ++ rest := by
      rw [List.append_assoc, List.drop_left' hl]
    have h3 : hd.isEmpty = false := by cases hd <;> simp_all
    unfold readSingle
    simp only [h1, h2, h3, hu, List.take_left', List.drop_left']
    simp [Codec.raw, hz, hj]

/-- C23.  Whatever packets are sent with complete writes, the peer decodes exactly these packets in
order, whatever follows on the stream (`rest`, which it then goes on to read). -/
theorem C23_round_trip {P : Type} (C : Codec P) (ps : List P) (hj : ∀ p ∈ ps, C.loads (C.dumps p) = some p)
    (hz : ∀ b, C.decompress (C.compress b) = some b) (fs : List Bytes) (rest : Bytes)
    (n : Nat) (hf : ps.map (fun p => frame (C.raw p)) = fs.map some) :
    readAll C (ps.length + n) (fs.flatten ++ rest) = ps ++ readAll C n rest := by
  induction ps generalizing fs with
  | nil =>
    cases fs with
    | nil => simp
    | cons => simp at hf
  | cons p ps ih =>
    cases fs with
    | nil => simp at hf
    | cons f fs =>
      simp only [List.map_cons, List.cons.injEq] at hf
      rw [List.length_cons, show ps.length + 1 + n = ps.length + n + 1 by omega, readAll,
        List.flatten_cons, List.append_assoc, readSingle_frame C p (hj p (by simp)) hz _ f hf.1]
      simp [ih (fun q hq => hj q (by simp [hq])) fs hf.2]


/-- The packets completely written. -/
def written (w : Wire) : List (Nat × Bytes) :=
  match w.lock with
  | none => w.entered
  | some _ => w.entered.dropLast

/-- The bytes of the packet being written. -/
def partialFrame (w : Wire) : Option Bytes :=
  match w.lock with
  | none => some []
  | some (_, _, false) => some []
  | some (_, raw, true) => pack raw.length

private def WOk (w : Wire) : Prop :=
  (∃ (fs : List Bytes) (part : Bytes), (written w).map (fun e => frame e.2) = fs.map some ∧ partialFrame w = some part ∧
    w.bytes = fs.flatten ++ part) ∧
  ∀ t raw b, w.lock = some (t, raw, b) → w.entered.getLast? = some (t, raw)

private theorem wok_step (w w' : Wire) (a : WAct) (h : WOk w) (hs : w.step a = some w') : WOk w' := by
  obtain ⟨⟨fs, part, h1, h2, h3⟩, h4⟩ := h
  cases a with
  | enter t raw =>
    cases hl : w.lock with
    | some x => simp [Wire.step, hl] at hs
    | none =>
      simp only [Wire.step, hl, Option.some.injEq] at hs
      subst hs
      refine ⟨⟨fs, [], ?_, rfl, ?_⟩, ?_⟩
      · simpa [written, hl] using h1
      · simp only [partialFrame, hl, Option.some.injEq] at h2; simpa [← h2] using h3
      · rintro t' raw' b e; simp at e; simp [e]
  | write =>
    cases hl : w.lock with
    | none => simp [Wire.step, hl] at hs
    | some x =>
      obtain ⟨t, raw, b⟩ := x
      have hlast := h4 t raw b hl
      cases b with
      | false =>
        simp only [Wire.step, hl, Option.map_eq_some_iff] at hs
        obtain ⟨hd, hp, rfl⟩ := hs
        refine ⟨⟨fs, hd, by simpa [written, hl] using h1, hp, ?_⟩, ?_⟩
        · simp only [partialFrame, hl, Option.some.injEq] at h2; simp [← h2, h3]
        · rintro t' raw' b e; simp at e; simp [hlast, e]
      | true =>
        simp only [Wire.step, hl, Option.some.injEq] at hs
        subst hs
        have hent : w.entered = w.entered.dropLast ++ [(t, raw)] := by
          obtain ⟨l, hl⟩ := List.getLast?_eq_some_iff.1 hlast
          simp [hl]
        have hp : pack raw.length = some part := by simpa [partialFrame, hl] using h2
        refine ⟨⟨fs ++ [part ++ raw], [], ?_, rfl, ?_⟩, by simp⟩
        · simp only [written]
          rw [hent]
          simp only [List.map_append, List.map_cons, List.map_nil]
          congr 1
          · simpa [written, hl] using h1
          · simp [frame, hp]
        · simp [h3]

/-- C23.  Whatever the interleaving of senders: whenever no sender is inside `_send_packet`, the bytes
on the wire are the frames of the packets in the order their senders obtained the lock (so each
sender's packets stay in order); while one is inside, they are these frames followed by a part of
its frame. -/
theorem C23_interleaving (as : List WAct) (w : Wire) (h : Wire.run ⟨[], none, []⟩ as = some w) :
    (∃ (fs : List Bytes) (part : Bytes), (written w).map (fun e => frame e.2) = fs.map some ∧ partialFrame w = some part ∧
      w.bytes = fs.flatten ++ part) ∧
    w.entered = as.filterMap (fun a => match a with | .enter t raw => some (t, raw) | .write => none) := by
  have key : ∀ as w₀ w, WOk w₀ → Wire.run w₀ as = some w → WOk w ∧
      w.entered = w₀.entered ++
        as.filterMap (fun a => match a with | .enter t raw => some (t, raw) | .write => none) := by
    intro as
    induction as with
    | nil => intro w₀ w hw hr; simp only [Wire.run, Option.some.injEq] at hr; subst hr; simp [hw]
    | cons a as ih =>
      intro w₀ w hw hr
      simp only [Wire.run, Option.bind_eq_some_iff] at hr
      obtain ⟨w₁, hs, hr⟩ := hr
      obtain ⟨k1, k2⟩ := ih w₁ w (wok_step w₀ w₁ a hw hs) hr
      refine ⟨k1, ?_⟩
      rw [k2]
      cases a with
      | enter t raw =>
        cases hl : w₀.lock with
        | some x => simp [Wire.step, hl] at hs
        | none => simp only [Wire.step, hl, Option.some.injEq] at hs; subst hs; simp
      | write =>
        cases hl : w₀.lock with
        | none => simp [Wire.step, hl] at hs
        | some x =>
          obtain ⟨t, raw, b⟩ := x
          cases b with
          | false =>
            simp only [Wire.step, hl, Option.map_eq_some_iff] at hs
            obtain ⟨hd, hp, rfl⟩ := hs
            simp
          | true => simp only [Wire.step, hl, Option.some.injEq] at hs; subst hs; simp
  obtain ⟨⟨h1, -⟩, h2⟩ := key as _ w ⟨⟨[], [], rfl, rfl, rfl⟩, by simp⟩ h
  exact ⟨h1, by simpa using h2⟩

/-- A trivial codec for examples: packets are byte strings, compression appends a mark. -/
def demoCodec : Codec Bytes :=
  ⟨id, some, fun b => b ++ [7], fun b => if b.getLast? = some 7 then some b.dropLast else none⟩

example : (∀ p, demoCodec.loads (demoCodec.dumps p) = some p) ∧
    ∀ b, demoCodec.decompress (demoCodec.compress b) = some b := by
  refine ⟨fun _ => rfl, fun b => ?_⟩
  simp [demoCodec]

example : [[1, 2], []].map (fun p => frame (demoCodec.raw p)) =
    [[0, 0, 0, 3, 1, 2, 7], [0, 0, 0, 1, 7]].map some := by decide
example : ∃ w, Wire.run ⟨[], none, []⟩ [.enter 1 [9], .write, .write, .enter 2 [8, 8], .write] = some w ∧
    w.bytes = [0, 0, 0, 1, 9, 0, 0, 0, 2] := ⟨_, rfl, rfl⟩

/-- C23.  Complete writes matter and are not ensured: the socket file is unbuffered, and a `send` that
takes only part of a line makes the peer read different packets (here: two packets sent, and the
peer misreads the second one's header as the end of the first, then gives up). -/
theorem C23_partial_write_fails : ∃ (accept : Nat → Nat),
    readAll demoCodec 10 (writelines accept 0 [[0, 0, 0, 3], [1, 2, 7], [0, 0, 0, 2], [5, 7]]) ≠
      [[1, 2], [5]] ∧
    readAll demoCodec 10 (writelines (fun _ => 100) 0 [[0, 0, 0, 3], [1, 2, 7], [0, 0, 0, 2], [5, 7]]) =
      [[1, 2], [5]] :=
  ⟨fun i => if i = 1 then 2 else 100, by decide, by decide⟩

/-! ## C24 -/

/-- C24.  Every submission request is answered by an acknowledgement carrying its id, immediately
followed by the start of its grading; nothing else starts gradings or acknowledges. -/
theorem C24_ack (c : Option Nat) (m : Req) (id : Nat) :
    (m = .submission id → receive c m = [.ack id, .begin id]) ∧
    (.begin id ∈ receive c m → m = .submission id) ∧ (.ack id ∈ receive c m → m = .submission id) := by
  have ha : ∀ i : Option Nat, Out.begin id ∉ abortGrading c i ∧ Out.ack id ∉ abortGrading c i := by
    intro i
    cases c <;> cases i <;> simp [abortGrading]
  refine ⟨by rintro rfl; rfl, ?_, ?_⟩
  · intro h
    cases m with
    | submission i => simp [receive] at h; simp [h]
    | getCurrent => cases c <;> simp [receive] at h
    | terminate => exact absurd h (ha none).1
    | disconnect => simp [receive, ha] at h
    | ping w => simp [receive] at h
    | unknown n => simp [receive] at h
  · intro h
    cases m with
    | submission i => simp [receive] at h; simp [h]
    | getCurrent => cases c <;> simp [receive] at h
    | terminate => exact absurd h (ha none).2
    | disconnect => simp [receive, ha] at h
    | ping w => simp [receive] at h
    | unknown n => simp [receive] at h

/-- C24.  Over any message history, each grading start is immediately preceded by its
acknowledgement. -/
theorem C24_ack_first (ms : List (Option Nat × Req)) (pre post : List Out) (id : Nat)
    (h : serve ms = pre ++ .begin id :: post) : ∃ pre', pre = pre' ++ [.ack id] := by
  induction ms generalizing pre with
  | nil => simp [serve] at h
  | cons x ms ih =>
    obtain ⟨c, m⟩ := x
    rw [serve] at h
    rcases List.append_eq_append_iff.1 h with ⟨a, ha1, ha2⟩ | ⟨a, ha1, ha2⟩
    · -- the start lies in the reactions to later messages
      by_cases he : (receive c m).any Out.ends = true
      · simp [he] at ha2
      · rw [if_neg he] at ha2
        obtain ⟨p, rfl⟩ := ih a ha2
        exact ⟨receive c m ++ p, by rw [ha1, List.append_assoc]⟩
    · cases a with
      | nil =>
        by_cases he : (receive c m).any Out.ends = true
        · simp [he] at ha2
        · rw [if_neg he] at ha2
          obtain ⟨p, hp⟩ := ih [] (by simpa using ha2.symm)
          simp at hp
      | cons o a =>
        simp only [List.cons_append, List.cons.injEq] at ha2
        have hm := (C24_ack c m id).2.1 (by rw [ha1, ← ha2.1]; simp)
        subst hm
        rw [(C24_ack c _ id).1 rfl, ← ha2.1] at ha1
        cases pre with
        | nil => simp at ha1
        | cons y pre =>
          simp only [List.cons_append, List.cons.injEq] at ha1
          cases pre with
          | nil => exact ⟨[], by simp [ha1.1]⟩
          | cons z pre => simp at ha1

/-- C24.  Unknown messages have no effect on the reactions, wherever they occur. -/
theorem C24_unknown (a b : List (Option Nat × Req)) (c : Option Nat) (n : String) :
    serve (a ++ (c, .unknown n) :: b) = serve (a ++ b) := by
  induction a with
  | nil => simp [serve, receive]
  | cons x a ih =>
    obtain ⟨c, m⟩ := x
    simp [serve, ih]

/-- C24.  A ping is answered with the same time stamp, whatever is running. -/
theorem C24_ping (c : Option Nat) (w : Rat) : receive c (.ping w) = [.pingResponse w] := rfl

/-- C24.  Only the running submission is ever aborted: by a terminate or disconnect message, and with
an explicit id only if the ids agree. -/
theorem C24_abort (c : Option Nat) (m : Req) (sid : Option Nat) (id : Nat) :
    (.abort id ∈ receive c m ↔ c = some id ∧ (m = .terminate ∨ m = .disconnect)) ∧
    (.abort id ∈ abortGrading c sid ↔ c = some id ∧ (sid = none ∨ sid = some id)) := by
  have h2 : ∀ sid, (.abort id ∈ abortGrading c sid ↔ c = some id ∧ (sid = none ∨ sid = some id)) := by
    intro sid
    cases c with
    | none => simp [abortGrading]
    | some i =>
      cases sid with
      | none => simp [abortGrading, eq_comm]
      | some j =>
        by_cases h : i = j
        · subst h; simp [abortGrading, eq_comm]
        · simp only [abortGrading, h, ne_eq, not_false_eq_true, if_true]
          simp
          rintro rfl rfl
          exact h rfl
  refine ⟨?_, h2 sid⟩
  cases m with
  | terminate => simpa [receive] using h2 none
  | disconnect => simpa [receive] using h2 none
  | getCurrent => cases c <;> simp [receive]
  | ping w => simp [receive]
  | submission i => simp [receive]
  | unknown n => simp [receive]

/-- C24.  Once a message ends the judge, nothing more is done: no later message is answered or acted upon. A disconnect always ends it. -/
theorem C24_ends (ms : List (Option Nat × Req)) :
    (∀ pre post code, serve ms = pre ++ .exit code :: post → post = []) ∧
    (∀ a b c, (∀ x ∈ a, x.2 ≠ .disconnect ∧ (x.2 = .getCurrent → x.1 ≠ none)) → ms = a ++ (c, .disconnect) :: b →
      ∃ pre, serve ms = pre ++ [.exit 0]) := by
  have last : ∀ c m pre post code, receive c m = pre ++ .exit code :: post → post = [] := by
    intro c m pre post code h
    have key : ∀ l : List Out, (∀ o ∈ l, ∀ k, o ≠ .exit k) → ∀ k, l ++ [.exit k] = pre ++ .exit code :: post → post = [] := by
      intro l hl k h
      rcases List.append_eq_append_iff.1 h with ⟨a, h1, h2⟩ | ⟨a, h1, h2⟩
      · cases a with
        | nil => simpa using (List.cons.inj h2).2.symm
        | cons _ a => simp at h2
      · cases a with
        | nil => simp at h2; exact h2.2
        | cons o a =>
          simp only [List.cons_append, List.cons.injEq] at h2
          exact absurd h2.1.symm (hl o (by rw [h1]; simp) code)
    have none : (∀ o ∈ receive c m, ∀ k, o ≠ .exit k) → post = [] := fun hn => absurd rfl (hn (.exit code) (by rw [h]; simp) code)
    cases m with
    | getCurrent =>
      cases c with
      | none => exact key [] (by simp) 1 (by simpa [receive] using h)
      | some i => exact none (by simp [receive])
    | disconnect =>
      cases c with
      | none => exact key [.close] (by simp) 0 (by simpa [receive, abortGrading] using h)
      | some i => exact key [.close, .abort i] (by simp) 0 (by simpa [receive, abortGrading] using h)
    | terminate => cases c <;> exact none (by simp [receive, abortGrading])
    | ping w => exact none (by simp [receive])
    | submission i => exact none (by simp [receive])
    | unknown n => exact none (by simp [receive])
  constructor
  · induction ms with
    | nil => intro pre post code h; simp [serve] at h
    | cons x ms ih =>
      obtain ⟨c, m⟩ := x
      intro pre post code h
      rw [serve] at h
      rcases List.append_eq_append_iff.1 h with ⟨a, h1, h2⟩ | ⟨a, h1, h2⟩
      · split at h2
        · simp at h2
        · exact ih a post code h2
      · cases a with
        | nil =>
          split at h2
          · simp at h2
          · exact ih [] post code (by simpa using h2.symm)
        | cons o a =>
          simp only [List.cons_append, List.cons.injEq] at h2
          rw [← h2.1] at h1
          have ha := last c m pre a code h1
          have he : (receive c m).any Out.ends = true := List.any_eq_true.2 ⟨.exit code, by rw [h1]; simp, rfl⟩
          rw [if_pos he, ha] at h2
          simpa using h2.2
  · intro a b c ha hms
    subst hms
    induction a with
    | nil =>
      have he : (receive c .disconnect).any Out.ends = true :=
        List.any_eq_true.2 ⟨.exit 0, by simp [receive], rfl⟩
      refine ⟨.close :: abortGrading c none, ?_⟩
      rw [List.nil_append, serve, if_pos he]
      simp [receive]
    | cons x a ih =>
      obtain ⟨c', m⟩ := x
      obtain ⟨pre, h⟩ := ih fun y hy => ha y (.tail _ hy)
      have hx := ha (c', m) (.head _)
      have hn : (receive c' m).any Out.ends = false := by
        rw [List.any_eq_false]
        intro o ho
        cases m with
        | disconnect => exact absurd rfl hx.1
        | getCurrent =>
          cases c' with
          | none => exact absurd rfl (hx.2 rfl)
          | some i => simp only [receive, List.mem_singleton] at ho; subst ho; simp [Out.ends]
        | terminate => cases c' <;> simp [receive, abortGrading] at ho; subst ho; simp [Out.ends]
        | ping w => simp only [receive, List.mem_singleton] at ho; subst ho; simp [Out.ends]
        | submission i => simp [receive] at ho; rcases ho with rfl | rfl <;> simp [Out.ends]
        | unknown n => simp [receive] at ho
      refine ⟨receive c' m ++ pre, ?_⟩
      rw [List.cons_append, serve, if_neg (by simp [hn]), h, List.append_assoc]

/-- C24.  A query for the current submission while one is running is answered with its id; while none
is running it ends the judge process. -/
theorem C24_query_idle_fails : receive (some 5) .getCurrent = [.currentId 5] ∧
    receive none .getCurrent = [.exit 1] := ⟨rfl, rfl⟩

/-- C24.  Everything else keeps the judge running: apart from a disconnect and that query, no message
ends it. -/
theorem C24_survives_partial (c : Option Nat) (m : Req) (h1 : m ≠ .disconnect)
    (h2 : m = .getCurrent → c ≠ none) : ∀ code, .exit code ∉ receive c m := by
  intro code ho
  generalize ho' : Out.exit code = o at ho
  cases m with
  | disconnect => exact absurd rfl h1
  | getCurrent =>
    cases c with
    | none => exact absurd rfl (h2 rfl)
    | some i => simp only [receive, List.mem_singleton] at ho; subst ho; cases ho'
  | terminate =>
    cases c with
    | none => simp [receive, abortGrading] at ho
    | some i => simp only [receive, abortGrading, List.mem_singleton] at ho; subst ho; cases ho'
  | ping w => simp only [receive, List.mem_singleton] at ho; subst ho; cases ho'
  | submission i =>
    simp only [receive, List.mem_cons, List.not_mem_nil, or_false] at ho
    rcases ho with rfl | rfl <;> cases ho'
  | unknown n => simp [receive] at ho

example : serve [(none, .submission 5), (some 5, .disconnect), (some 5, .ping 1)] = [.ack 5, .begin 5, .close, .abort 5, .exit 0] := rfl

example : serve [(none, .submission 3), (some 3, .ping 7), (some 3, .unknown "x"), (some 3, .terminate)] =
    [.ack 3, .begin 3, .pingResponse 7, .abort 3] := by decide +kernel

end Verif.Props
