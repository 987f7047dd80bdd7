import Verif.Basic
import Mathlib.Data.Rat.Defs
import Mathlib.Algebra.Order.Field.Rat

/-!
# Connection to the site: updater thread, reconnecting, packet framing, message dispatch
-/

namespace Verif.Net

/-! ## The updater thread, dmoj/judge.py:85-110 (and `RefreshWorker.run`, dmoj/monitor.py:32-48, which
has the same loop) -/

/-- Program counter of `_updater_thread`. (judge.py:85-110) -/
inductive UPc where
  | wait       -- updater_signal.wait()
  | woken      -- about to clear the signal
  | cleared    -- about to test updater_exit
  | ready      -- about to read the problem list and push it
  | pushing    -- the push is under way (it may raise, which is logged)
  | exited
deriving DecidableEq, Repr

/-- Shared state; `owed` is history: a request was made after the last push began. (judge.py:85-110) -/
structure Upd where
  signal : Bool
  exit : Bool
  pc : UPc
  owed : Bool
  pushes : Nat
deriving DecidableEq, Repr

/-- Initial state. (judge.py:85-110) -/
def Upd.init : Upd := ⟨false, false, .wait, false, 0⟩

/-- What can happen: `update_problems()` (dmoj/judge.py:106-110) by any thread, the two statements of
`murder` (dmoj/judge.py:268-269), a step of the updater. -/
inductive UAct where
  | request
  | setExit
  | setSignal
  | updater
deriving DecidableEq, Repr

/-- One statement of the updater loop; blocked in `wait` (no change) while the signal is unset. (judge.py:85-110) -/
def Upd.loop (u : Upd) : Upd :=
  match u.pc with
  | .wait => if u.signal then { u with pc := .woken } else u
  | .woken => { u with signal := false, pc := .cleared }
  | .cleared => if u.exit then { u with pc := .exited } else { u with pc := .ready }
  | .ready => { u with pc := .pushing, owed := false, pushes := u.pushes + 1 }
  | .pushing => { u with pc := .wait }
  | .exited => u

/-- One action. (judge.py:85-110) -/
def Upd.step (u : Upd) : UAct → Upd
  | .request => { u with signal := true, owed := true }
  | .setExit => { u with exit := true }
  | .setSignal => { u with signal := true }
  | .updater => u.loop

/-- A sequence of actions. (judge.py:85-110) -/
def Upd.run (u : Upd) (as : List UAct) : Upd := as.foldl Upd.step u

/-! ## Reconnecting, dmoj/packet.py:82-139 -/

/-- How a call of `_reconnect` ends: connected again, `SystemExit(0)`, or still trying when the list of
connection outcomes is used up.  Each carries the sleeps made. (packet.py:117-139) -/
inductive Reconn where
  | connected (fallback : Rat) (sleeps : List Rat)
  | exited (sleeps : List Rat)
  | trying (fallback : Rat) (sleeps : List Rat)
deriving DecidableEq, Repr

/-- Prepend a sleep. (packet.py:117-139) -/
def Reconn.slept (t : Rat) : Reconn → Reconn
  | .connected f l => .connected f (t :: l)
  | .exited l => .exited (t :: l)
  | .trying f l => .trying f (t :: l)

/-- `_reconnect` with `_do_reconnect`, dmoj/packet.py:117-139, for a list of outcomes of the
connection attempts (`true`: connected and authenticated).  Sleeping and the multiplication by 1.5
happen before the attempt.  Times are exact (doubles represent 4*1.5^k exactly for k ≤ 33). -/
def reconnect (fallback : Rat) : List Bool → Reconn
  | [] => if fallback > 86400 then .exited [] else .trying (fallback * (3 / 2)) [fallback]
  | ok :: outs =>
    if fallback > 86400 then .exited []
    else if ok then .connected (fallback * (3 / 2)) [fallback]
    else (reconnect (fallback * (3 / 2)) outs).slept fallback

/-- What happens to the connection over the judge's life: the connection is lost (and the following
attempts have the given outcomes), or a grading ends (`compile_error_packet`, `grading_end_packet`:
`self.fallback = 4`, dmoj/packet.py:323, 347). -/
inductive Phase where
  | lost (outs : List Bool)
  | graded

/-- All sleeps over the judge's life, and whether it exited. (packet.py:82-87, 117-139) -/
def life (fallback : Rat) : List Phase → List Rat × Bool
  | [] => ([], false)
  | .graded :: r => life 4 r
  | .lost outs :: r =>
    match reconnect fallback outs with
    | .connected f l => (l ++ (life f r).1, (life f r).2)
    | .exited l => (l, true)
    | .trying _ l => (l, false)

/-! ## Framing, dmoj/packet.py:31, 167-183, 234-248 -/

/-- `struct.Struct('!I').pack(n)`; `struct.error` for n ≥ 2^32 (`_send_packet` then ends the judge).
(packet.py:31, 167-183) -/
def pack (n : Nat) : Option Bytes :=
  if n < 2 ^ 32 then
    some [UInt8.ofNat (n / 2 ^ 24), UInt8.ofNat (n / 2 ^ 16), UInt8.ofNat (n / 2 ^ 8), UInt8.ofNat n]
  else none

/-- `struct.Struct('!I').unpack(data)[0]`; `struct.error` unless 4 bytes are given. (packet.py:31, 167-183) -/
def unpack : Bytes → Option Nat
  | [a, b, c, d] => some (((a.toNat * 256 + b.toNat) * 256 + c.toNat) * 256 + d.toNat)
  | _ => none

/-- The external codecs: `json.dumps`/`json.loads` and `zlib.compress`/`zlib.decompress`
(`none`: `zlib.error` or a decoding exception). (packet.py:182-183, 242) -/
structure Codec (P : Type) where
  dumps : P → Bytes
  loads : Bytes → Option P
  compress : Bytes → Bytes
  decompress : Bytes → Option Bytes

/-- The raw bytes of a packet (dmoj/packet.py:242). -/
def Codec.raw {P} (C : Codec P) (p : P) : Bytes := C.compress (C.dumps p)

/-- One framed packet as written by `writelines` when every write is complete. (packet.py:242-246) -/
def frame (raw : Bytes) : Option Bytes := (pack raw.length).map (· ++ raw)

/-- Outcome of `_read_single`. (packet.py:31, 167-183) -/
inductive ReadRes (P : Type) where
  | packet (p : P) (rest : Bytes)
  | reconnect
  | quit                          -- an exception other than zlib.error: `os._exit(1)`

/-- `_read_single`, dmoj/packet.py:167-183, on the bytes the peer sends before closing; a buffered
`read(n)` returns `n` bytes, or fewer at the end of the stream. -/
def readSingle {P} (C : Codec P) (s : Bytes) : ReadRes P :=
  let data := s.take 4
  if data.isEmpty then .reconnect
  else match unpack data with
    | none => .quit
    | some size =>
      match C.decompress ((s.drop 4).take size) with
      | none => .reconnect
      | some b =>
        match C.loads b with
        | none => .quit
        | some p => .packet p ((s.drop 4).drop size)

/-- `_read_forever` up to the first disruption: the packets read. (packet.py:154-165) -/
def readAll {P} (C : Codec P) : Nat → Bytes → List P
  | 0, _ => []
  | fuel + 1, s =>
    match readSingle C s with
    | .packet p rest => p :: readAll C fuel rest
    | _ => []

/-- Senders: `_send_packet` (dmoj/packet.py:242-248) by several threads.  `lock` is the holder of
`self._lock` with its packet and whether the header is written. -/
structure Wire where
  bytes : Bytes
  lock : Option (Nat × Bytes × Bool)
  entered : List (Nat × Bytes)      -- history: packets in the order their senders got the lock

/-- Steps of senders. (packet.py:234-248) -/
inductive WAct where
  | enter (t : Nat) (raw : Bytes)   -- `with self._lock`
  | write                           -- the lock holder writes its next line
deriving DecidableEq

/-- One step; `none` when not enabled (or the header cannot be packed). (packet.py:234-248) -/
def Wire.step (w : Wire) : WAct → Option Wire
  | .enter t raw =>
    match w.lock with
    | none => some { w with lock := some (t, raw, false), entered := w.entered ++ [(t, raw)] }
    | some _ => none
  | .write =>
    match w.lock with
    | none => none
    | some (t, raw, false) =>
      (pack raw.length).map fun hd => { w with bytes := w.bytes ++ hd, lock := some (t, raw, true) }
    | some (_, raw, true) => some { w with bytes := w.bytes ++ raw, lock := none }

/-- A run of steps. (packet.py:234-248) -/
def Wire.run (w : Wire) : List WAct → Option Wire
  | [] => some w
  | a :: as => (w.step a).bind fun w => w.run as

/-- `writelines` on an unbuffered socket file (dmoj/packet.py:113 `makefile('wb', 0)`, 245): each line
is passed to one `send` call whose return value is ignored; `accept` is how many bytes that call
takes. -/
def writelines (accept : Nat → Nat) (i : Nat) : List Bytes → Bytes
  | [] => []
  | l :: ls => l.take (accept i) ++ writelines accept (i + 1) ls

/-! ## Messages from the site, dmoj/packet.py:250-285; dmoj/judge.py:238-255 -/

/-- Messages from the site. (packet.py:250-285) -/
inductive Req where
  | ping (when_ : Rat)
  | getCurrent
  | submission (id : Nat)
  | terminate
  | disconnect
  | unknown (name : String)
deriving DecidableEq, Repr

/-- Reactions. (packet.py:250-285) -/
inductive Out where
  | pingResponse (when_ : Rat)
  | currentId (id : Nat)
  | ack (id : Nat)
  | begin (id : Nat)
  | abort (id : Nat)
  | close
  | exit (code : Nat)
deriving DecidableEq, Repr

/-- `abort_grading(submission_id)`, dmoj/judge.py:238-255, with the id of the running submission. -/
def abortGrading (current : Option Nat) (submissionId : Option Nat) : List Out :=
  match current with
  | none => []
  | some c =>
    match submissionId with
    | some i => if c ≠ i then [] else [.abort c]
    | none => [.abort c]

/-- `_receive_packet`, dmoj/packet.py:250-285.  An AttributeError ends the judge (dmoj/packet.py:158-165:
`os._exit(1)`). -/
def receive (current : Option Nat) : Req → List Out
  | .ping w => [.pingResponse w]
  | .getCurrent =>
    match current with
    | some i => [.currentId i]
    | none => [.exit 1]
  | .submission i => [.ack i, .begin i]
  | .terminate => abortGrading current none
  | .disconnect => .close :: abortGrading current none ++ [.exit 0]
  | .unknown _ => []

/-- Does this reaction end the process? (packet.py:250-285) -/
def Out.ends : Out → Bool
  | .exit _ => true
  | _ => false

/-- The reactions to a sequence of messages, each with the submission running when it is handled.
(packet.py:154-165) -/
def serve : List (Option Nat × Req) → List Out
  | [] => []
  | (c, m) :: r => receive c m ++ (if (receive c m).any Out.ends then [] else serve r)

end Verif.Net
