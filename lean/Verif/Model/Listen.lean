import Verif.Model.Net

/-!
# Reading packets over the judge's life

`_read_single` and `_read_forever`, dmoj/packet.py:154-183, over several connections that are lost in either of two ways: the site closes its end, or a read
raises (reset, timeout of 300 seconds, TLS failure). `Model/Net.lean` has the first for one connection only.
-/

namespace Verif.Listen

open Verif.Net (Codec unpack)

/-- What arrives over a connection, and whether a read raises after that (an `OSError`) or finds the end of the stream. (packet.py:104-112) -/
structure Conn where
  bytes : Bytes
  broken : Bool
deriving DecidableEq, Repr

/-- How reading over a connection ends: `_reconnect()`, or an exception that makes `_read_forever` call `os._exit(1)`. (packet.py:154-183) -/
inductive Stop where
  | reconnect
  | exit1
deriving DecidableEq, Repr

/-- `self.input.read(n)` of a buffered reader: `n` bytes, fewer at the end of the stream; `none` if it raises. (packet.py:112, 169, 178) -/
def read (n : Nat) (c : Conn) : Option (Bytes × Conn) :=
  if n ≤ c.bytes.length ∨ ¬ c.broken then some (c.bytes.take n, { c with bytes := c.bytes.drop n }) else none

/-- `_read_single` on one connection, packet.py:167-183. -/
def single {P : Type} (C : Codec P) (c : Conn) : Except Stop (P × Conn) :=
  match read 4 c with
  | none => .error .reconnect
  | some (data, c) =>
    if data = [] then .error .reconnect
    else match unpack data with
      | none => .error .exit1
      | some size =>
        match read size c with
        | none => .error .exit1
        | some (raw, c) =>
          match C.decompress raw with
          | none => .error .reconnect
          | some b =>
            match C.loads b with
            | none => .error .exit1
            | some p => .ok (p, c)

/-- Reading uses up at least the header. -/
theorem single_less {P : Type} (C : Codec P) (c c' : Conn) (p : P) (h : single C c = .ok (p, c')) : c'.bytes.length < c.bytes.length := by
  have hread : ∀ n c c' x, read n c = some (x, c') → x = c.bytes.take n ∧ c'.bytes = c.bytes.drop n := by
    intro n c c' x hr
    unfold read at hr
    split at hr
    · simp only [Option.some.injEq, Prod.mk.injEq] at hr
      exact ⟨hr.1.symm, by rw [← hr.2]⟩
    · exact nomatch hr
  unfold single at h
  split at h
  · exact nomatch h
  · next data d hd =>
    split at h
    · exact nomatch h
    · next hne =>
      split at h
      · exact nomatch h
      · split at h
        · exact nomatch h
        · next raw e hr =>
          split at h
          · exact nomatch h
          · split at h
            · exact nomatch h
            · simp only [Except.ok.injEq, Prod.mk.injEq] at h
              have h1 := hread _ _ _ _ hd
              have h2 := hread _ _ _ _ hr
              rw [← h.2, h2.2, h1.2, List.length_drop, List.length_drop]
              have : 0 < c.bytes.length := by
                cases hb : c.bytes with
                | nil => rw [hb] at h1; exact absurd (by simpa using h1.1) hne
                | cons => simp
              omega

/-- `_read_forever` on one connection: the packets handed to `_receive_packet`, and the end. (packet.py:154-165) -/
def over {P : Type} (C : Codec P) (c : Conn) : List P × Stop :=
  match h : single C c with
  | .error s => ([], s)
  | .ok (p, c') => (p :: (over C c').1, (over C c').2)
  termination_by c.bytes.length
  decreasing_by all_goals exact single_less C c c' p h

/-- How the judge's listening ends: it is on its last connection so far, it gave up reconnecting (`SystemExit(0)`, which `_read_forever` does not catch), or
`os._exit(1)`. (packet.py:117-129, 154-165) -/
inductive Fate where
  | waiting
  | gaveUp
  | died
deriving DecidableEq, Repr

/-- `_read_forever` over connections; `none` is a `_reconnect` that gives up. (packet.py:154-183, 117-139) -/
def listen {P : Type} (C : Codec P) : List (Option Conn) → List P × Fate
  | [] => ([], .waiting)
  | none :: _ => ([], .gaveUp)
  | some c :: rest =>
    match over C c with
    | (ps, .exit1) => (ps, .died)
    | (ps, .reconnect) => (ps ++ (listen C rest).1, (listen C rest).2)

end Verif.Listen
