import Verif.Model.Net

/-! # What the site puts on a connection -/

namespace Verif.Spec.Listen

open Verif.Net (Codec)

/-- A packet: its length in four bytes, most significant first, and its content. -/
def packet (raw : List UInt8) : List UInt8 :=
  [UInt8.ofNat (raw.length / 16777216), UInt8.ofNat (raw.length / 65536), UInt8.ofNat (raw.length / 256), UInt8.ofNat raw.length] ++ raw

/-- Packets in a row. -/
def wire {P : Type} (C : Codec P) (ps : List P) : List UInt8 := ps.flatMap fun p => packet (C.compress (C.dumps p))

/-- Compression and text that can be undone, no part of a compressed packet passes for a whole one (zlib has a checksum at the end), and the sizes fit. -/
structure Sound {P : Type} (C : Codec P) : Prop where
  loads : ∀ p, C.loads (C.dumps p) = some p
  decompress : ∀ b, C.decompress (C.compress b) = some b
  truncated : ∀ b q, q <+: C.compress b → q ≠ C.compress b → C.decompress q = none
  small : ∀ p, (C.compress (C.dumps p)).length < 2 ^ 32

/-- Of the packets `ps` exactly the first `k` arrive wholly in the first `n` bytes. -/
def Arrive {P : Type} (C : Codec P) (ps : List P) (n k : Nat) : Prop :=
  k ≤ ps.length ∧ (wire C (ps.take k)).length ≤ n ∧ (k < ps.length → n < (wire C (ps.take (k + 1))).length)

/-- A connection: the packets the site sends, how many bytes of them arrive, and whether a read fails then (or finds the end of the stream). -/
structure Link (P : Type) where
  packets : List P
  bytes : Nat
  broken : Bool

/-- Losing a connection `d` bytes into a packet is survived between packets, by a failing read within the header, by the end of the stream within the content. -/
def Survived (d : Nat) (broken : Bool) : Prop := d = 0 ∨ d < 4 ∧ broken = true ∨ 4 ≤ d ∧ broken = false

/-- What is handled over connections (`none`: reconnecting is given up) and whether the judge lives on (`none`), gave up (`some 0`) or died (`some 1`). -/
inductive Heard {P : Type} (C : Codec P) : List (Option (Link P)) → List P → Option Nat → Prop where
  | rest : Heard C [] [] none
  | gaveUp (l) : Heard C (none :: l) [] (some 0)
  | again (x : Link P) (k) (l hs f) : Arrive C x.packets x.bytes k → Survived (x.bytes - (wire C (x.packets.take k)).length) x.broken → Heard C l hs f →
      Heard C (some x :: l) (x.packets.take k ++ hs) f
  | died (x : Link P) (k) (l) : Arrive C x.packets x.bytes k → ¬ Survived (x.bytes - (wire C (x.packets.take k)).length) x.broken →
      Heard C (some x :: l) (x.packets.take k) (some 1)

end Verif.Spec.Listen
