import Verif.Model.Listen
import Verif.Spec.Listen

/-! # C87: listening to the site over the judge's life -/

namespace Verif.Props

open Verif.Listen Verif.Spec.Listen
open Verif.Net (Codec unpack)

namespace Ls

theorem unpack_header (n : Nat) (h : n < 2 ^ 32) :
    unpack [UInt8.ofNat (n / 16777216), UInt8.ofNat (n / 65536), UInt8.ofNat (n / 256), UInt8.ofNat n] = some n := by
  simp only [unpack, UInt8.toNat_ofNat', Option.some.injEq]
  omega

/-- A whole packet in front. -/
theorem single_whole {P : Type} (C : Codec P) (hC : Sound C) (p : P) (rest : Bytes) (br : Bool) :
    single C ⟨packet (C.compress (C.dumps p)) ++ rest, br⟩ = .ok (p, ⟨rest, br⟩) := by
  have hs := hC.small p
  generalize hr : C.compress (C.dumps p) = raw at hs
  unfold single
  have h1 : read 4 ⟨packet raw ++ rest, br⟩ = some ([UInt8.ofNat (raw.length / 16777216), UInt8.ofNat (raw.length / 65536), UInt8.ofNat (raw.length / 256),
      UInt8.ofNat raw.length], ⟨raw ++ rest, br⟩) := by
    unfold Listen.read packet
    rw [if_pos (.inl (by simp))]
    simp
  rw [h1]
  dsimp only
  rw [if_neg (by simp), unpack_header _ hs]
  dsimp only
  have h2 : read raw.length ⟨raw ++ rest, br⟩ = some (raw, ⟨rest, br⟩) := by
    unfold Listen.read
    rw [if_pos (.inl (by simp))]
    simp
  rw [h2]
  dsimp only
  rw [← hr, hC.decompress]
  dsimp only
  rw [hC.loads]

/-- A part of a packet. -/
theorem single_part {P : Type} (C : Codec P) (hC : Sound C) (p : P) (d : Nat) (hd : d < (packet (C.compress (C.dumps p))).length) (br : Bool) :
    single C ⟨(packet (C.compress (C.dumps p))).take d, br⟩ =
      .error (if d = 0 then .reconnect else if d < 4 then (if br then .reconnect else .exit1) else if br then .exit1 else .reconnect) := by
  have hs := hC.small p
  have ht := hC.truncated (C.dumps p)
  generalize C.compress (C.dumps p) = raw at hs ht hd
  have hp : (packet raw).length = 4 + raw.length := by simp [packet]; omega
  have hl : ((packet raw).take d).length = d := by rw [List.length_take]; omega
  by_cases h4 : d < 4
  · rw [if_pos h4]
    unfold single
    cases br with
    | true =>
      have : read 4 ⟨(packet raw).take d, true⟩ = none := by
        unfold Listen.read
        rw [if_neg]
        dsimp only
        rw [hl]
        simp
        omega
      rw [this]
      simp
    | false =>
      have : read 4 ⟨(packet raw).take d, false⟩ = some ((packet raw).take d, ⟨[], false⟩) := by
        unfold Listen.read
        rw [if_pos (.inr (by simp))]
        dsimp only
        rw [List.take_of_length_le (by omega), List.drop_of_length_le (by omega)]
      rw [this]
      dsimp only
      by_cases h0 : d = 0
      · rw [if_pos (by rw [h0]; rfl), if_pos h0]
      · rw [if_neg (fun e => h0 (by rw [e] at hl; exact hl.symm)), if_neg h0]
        have : unpack ((packet raw).take d) = none := by
          generalize (packet raw).take d = x at hl
          match x, hl with
          | [], _ => rfl
          | [_], _ => rfl
          | [_, _], _ => rfl
          | [_, _, _], _ => rfl
          | _ :: _ :: _ :: _ :: _, hl => simp at hl; omega
        rw [this]
        rfl
  · rw [if_neg (show ¬ d = 0 by omega), if_neg h4]
    have hx : (packet raw).take d = [UInt8.ofNat (raw.length / 16777216), UInt8.ofNat (raw.length / 65536), UInt8.ofNat (raw.length / 256),
      UInt8.ofNat raw.length] ++ raw.take (d - 4) := by
      unfold packet
      rw [List.take_append, List.take_of_length_le (by simp; omega)]
      rfl
    rw [hx]
    unfold single
    have h1 : read 4 ⟨[UInt8.ofNat (raw.length / 16777216), UInt8.ofNat (raw.length / 65536), UInt8.ofNat (raw.length / 256),
        UInt8.ofNat raw.length] ++ raw.take (d - 4), br⟩ = some ([UInt8.ofNat (raw.length / 16777216), UInt8.ofNat (raw.length / 65536),
        UInt8.ofNat (raw.length / 256), UInt8.ofNat raw.length], ⟨raw.take (d - 4), br⟩) := by
      unfold Listen.read
      rw [if_pos (.inl (by simp))]
      simp
    rw [h1]
    dsimp only
    rw [if_neg (by simp), unpack_header _ hs]
    dsimp only
    have hlt : (raw.take (d - 4)).length < raw.length := by rw [List.length_take]; omega
    cases br with
    | true =>
      have : read raw.length ⟨raw.take (d - 4), true⟩ = none := by
        unfold Listen.read
        rw [if_neg]
        dsimp only
        simp
        simpa using hlt
      rw [this]
      simp
    | false =>
      have : read raw.length ⟨raw.take (d - 4), false⟩ = some (raw.take (d - 4), ⟨[], false⟩) := by
        unfold Listen.read
        rw [if_pos (.inr (by simp))]
        dsimp only
        rw [List.take_of_length_le (by omega), List.drop_of_length_le (by omega)]
      rw [this]
      dsimp only
      rw [ht _ (List.take_prefix _ _) (fun e => by rw [e] at hlt; omega)]
      simp

theorem wire_cons {P : Type} (C : Codec P) (p : P) (ps : List P) : wire C (p :: ps) = packet (C.compress (C.dumps p)) ++ wire C ps := rfl

theorem over_nil {P : Type} (C : Codec P) (br : Bool) : over C ⟨[], br⟩ = ([], .reconnect) := by
  have : single C ⟨[], br⟩ = .error .reconnect := by
    unfold single Listen.read
    cases br <;> rfl
  rw [over]
  split <;> simp_all

theorem over_ok {P : Type} (C : Codec P) (c c' : Conn) (p : P) (h : single C c = .ok (p, c')) : over C c = (p :: (over C c').1, (over C c').2) := by
  rw [over]
  split <;> simp_all

theorem over_error {P : Type} (C : Codec P) (c : Conn) (s : Stop) (h : single C c = .error s) : over C c = ([], s) := by
  rw [over]
  split <;> simp_all

end Ls

/-- C87.  When a connection is lost after any number of bytes, the judge has handled exactly the packets that arrived whole, in order; it connects again if it
was lost between packets, if a read failed within the header of one, or if the stream ended within the content of one. Otherwise the process ends. -/
theorem C87_cut {P : Type} (C : Codec P) (hC : Sound C) (ps : List P) (n : Nat) (hn : n ≤ (wire C ps).length) (broken : Bool) : ∃ k, Arrive C ps n k ∧
    over C ⟨(wire C ps).take n, broken⟩ = (ps.take k,
      if n = (wire C (ps.take k)).length then .reconnect
      else if n < (wire C (ps.take k)).length + 4 then (if broken then .reconnect else .exit1)
      else if broken then .exit1 else .reconnect) := by
  induction ps generalizing n with
  | nil =>
    have : n = 0 := by simpa [wire] using hn
    subst this
    refine ⟨0, ⟨Nat.le_refl _, Nat.le_refl _, fun h => absurd h (Nat.lt_irrefl _)⟩, ?_⟩
    rw [show (wire C ([] : List P)).take 0 = [] from rfl, Ls.over_nil]
    rfl
  | cons p ps ih =>
    rw [Ls.wire_cons] at hn ⊢
    by_cases h : n < (packet (C.compress (C.dumps p))).length
    · refine ⟨0, ⟨Nat.zero_le _, Nat.zero_le _, fun _ => by simpa [wire] using h⟩, ?_⟩
      rw [List.take_append_of_le_length (by omega), Ls.over_error _ _ _ (Ls.single_part C hC p n h broken)]
      simp [wire]
    · have hn' : n - (packet (C.compress (C.dumps p))).length ≤ (wire C ps).length := by
        rw [List.length_append] at hn
        omega
      obtain ⟨k, ⟨h1, h2, h3⟩, h4⟩ := ih _ hn'
      refine ⟨k + 1, ⟨Nat.succ_le_succ h1, ?_, fun hk => ?_⟩, ?_⟩
      · rw [List.take_succ_cons, Ls.wire_cons, List.length_append]; omega
      · have := h3 (Nat.lt_of_succ_lt_succ hk)
        rw [List.take_succ_cons, Ls.wire_cons, List.length_append]; omega
      · rw [List.take_append, List.take_of_length_le (by omega), Ls.over_ok _ _ _ _ (Ls.single_whole C hC p _ broken), h4, List.take_succ_cons, Ls.wire_cons,
          List.length_append]
        congr 1
        generalize (wire C (ps.take k)).length = w at *
        generalize (packet (C.compress (C.dumps p))).length = q at *
        have e1 : (n - q = w) = (n = q + w) := by apply propext; omega
        have e2 : (n - q < w + 4) = (n < q + w + 4) := by apply propext; omega
        simp only [e1, e2]


/-- The code the process ends with. -/
def Ls.code : Fate → Option Nat
  | .waiting => none
  | .gaveUp => some 0
  | .died => some 1

/-- What arrives over a connection. -/
def Ls.conn {P : Type} (C : Codec P) (x : Link P) : Conn := ⟨(wire C x.packets).take x.bytes, x.broken⟩

/-- C87.  Over any number of connections the judge handles, connection by connection, exactly the packets that arrived whole, none twice and none in part, until
it gives up or a connection is lost in a way it does not survive. -/
theorem C87_session {P : Type} (C : Codec P) (hC : Sound C) (links : List (Option (Link P)))
    (hn : ∀ x, some x ∈ links → x.bytes ≤ (wire C x.packets).length) :
    Heard C links (listen C (links.map (Option.map (Ls.conn C)))).1 (Ls.code (listen C (links.map (Option.map (Ls.conn C)))).2) := by
  induction links with
  | nil => exact .rest
  | cons x l ih =>
    have ih := ih fun y hy => hn y (.tail _ hy)
    cases x with
    | none => exact .gaveUp _
    | some x =>
      obtain ⟨k, ha, h⟩ := C87_cut C hC x.packets x.bytes (hn x (.head _)) x.broken
      rw [List.map_cons, Option.map_some, listen, show Ls.conn C x = ⟨(wire C x.packets).take x.bytes, x.broken⟩ from rfl, h]
      have hw := ha.2.1
      by_cases hs : Survived (x.bytes - (wire C (x.packets.take k)).length) x.broken
      · have e : (if x.bytes = (wire C (x.packets.take k)).length then Stop.reconnect
            else if x.bytes < (wire C (x.packets.take k)).length + 4 then (if x.broken then .reconnect else .exit1)
            else if x.broken then .exit1 else .reconnect) = .reconnect := by
          rcases hs with h0 | ⟨h1, h2⟩ | ⟨h1, h2⟩
          · rw [if_pos (by omega)]
          · by_cases h0 : x.bytes = (wire C (x.packets.take k)).length
            · rw [if_pos h0]
            · rw [if_neg h0, if_pos (by omega), if_pos h2]
          · rw [if_neg (by omega), if_neg (by omega), if_neg (by simp [h2])]
        rw [e]
        exact .again x k l _ _ ha hs ih
      · have e : (if x.bytes = (wire C (x.packets.take k)).length then Stop.reconnect
            else if x.bytes < (wire C (x.packets.take k)).length + 4 then (if x.broken then .reconnect else .exit1)
            else if x.broken then .exit1 else .reconnect) = .exit1 := by
          have h0 : ¬ x.bytes = (wire C (x.packets.take k)).length := fun h => hs (.inl (by omega))
          rw [if_neg h0]
          by_cases h4 : x.bytes < (wire C (x.packets.take k)).length + 4
          · rw [if_pos h4, if_neg fun hb => hs (.inr (.inl ⟨by omega, hb⟩))]
          · rw [if_neg h4, if_pos]
            cases hb : x.broken with
            | true => rfl
            | false => exact absurd (.inr (.inr ⟨by omega, hb⟩)) hs
        rw [e]
        exact .died x k l ha hs

/-- C87.  Losing the connection should never end the judge, which could connect again; but it does if the site closes it within the header of a packet, and
if it is reset or times out within the content. -/
theorem C87_lost_fails {P : Type} (C : Codec P) (hC : Sound C) (p : P) (hp : 2 ≤ (C.compress (C.dumps p)).length) (later : List (Option Conn)) :
    listen C (some ⟨(wire C [p]).take 2, false⟩ :: later) = ([], .died) ∧ listen C (some ⟨(wire C [p]).take 5, true⟩ :: later) = ([], .died) := by
  have hw : wire C [p] = packet (C.compress (C.dumps p)) := by simp [wire]
  have hl : (packet (C.compress (C.dumps p))).length = 4 + (C.compress (C.dumps p)).length := by simp [packet]; omega
  refine ⟨?_, ?_⟩
  · rw [hw, listen, Ls.over_error _ _ _ (Ls.single_part C hC p 2 (by omega) false)]
    rfl
  · rw [hw, listen, Ls.over_error _ _ _ (Ls.single_part C hC p 5 (by omega) true)]
    rfl

/-- A codec to try: each byte with a mark before it, and an end mark. -/
def markCodec : Codec Bool where
  dumps b := [if b then 1 else 0]
  loads x := if x = [1] then some true else if x = [0] then some false else none
  compress x := x.flatMap (fun a => [1, a]) ++ [0]
  decompress := unmark
where
  /-- Taking the marks away. -/
  unmark : Bytes → Option Bytes
    | [0] => some []
    | 1 :: a :: r => (unmark r).map (a :: ·)
    | _ => none

theorem markCodec_sound : Sound markCodec where
  loads p := by cases p <;> rfl
  decompress b := by
    show markCodec.unmark (b.flatMap (fun a => [1, a]) ++ [0]) = some b
    induction b with
    | nil => rfl
    | cons a b ih => simp [markCodec.unmark, ih]
  truncated b := by
    show ∀ q, q <+: b.flatMap (fun a => [1, a]) ++ [0] → q ≠ b.flatMap (fun a => [1, a]) ++ [0] → markCodec.unmark q = none
    induction b with
    | nil =>
      intro q hq hne
      match q, hq, hne with
      | [], _, _ => rfl
      | [x], hq, hne => simp at hq; exact absurd (by simp [hq]) hne
      | _ :: _ :: _, hq, _ => simp at hq
    | cons a b ih =>
      intro q hq hne
      match q, hq, hne with
      | [], _, _ => rfl
      | [x], hq, _ =>
        have : x = 1 := by simpa using hq
        rw [this]
        rfl
      | x :: y :: r, hq, hne =>
        simp only [List.flatMap_cons, List.cons_append, List.nil_append, List.cons_prefix_cons] at hq
        obtain ⟨rfl, rfl, hq2⟩ := hq
        show (markCodec.unmark r).map (y :: ·) = none
        rw [ih r hq2 (fun e => hne (by rw [e]; rfl))]
        rfl
  small p := by cases p <;> decide

/-- Two packets, then a reset within the third's header, then another connection. -/
example : listen markCodec [some ⟨(wire markCodec [true, false, true]).take 16, true⟩, some ⟨wire markCodec [false], false⟩] =
    ([true, false, false], .waiting) := by decide +kernel

end Verif.Props
