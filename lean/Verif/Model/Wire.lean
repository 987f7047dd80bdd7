import Verif.Model.Packets
import Verif.Model.Judge

/-!
# Which packet is sent for what: dmoj/packet.py:191-216, 307-388

The events of Model/Judge.lean as the packets of Model/Packets.lean. What a packet contains besides kind, submission and the numbers of
the cases is left open here.
-/

namespace Verif.Wire
open Verif Verif.Judge Verif.Packets

/-- The events at which something is sent. (packet.py:191-216, 307-388) -/
def sent (h : List Ev) : List Ev := h.filter fun e => match e with | .enq _ => false | _ => true

/-- The packet of an event: `_flush_testcase_queue` and the packet methods. Ids are the numbers the site gave the submissions. (packet.py:191-216,
307-388) -/
inductive Sends : Ev → Packet → Prop where
  | status (sid : Nat) (cs : List Judge.Case) (l : List Packets.Case) (h : l.map (·.position) = cs.map fun c => (c.pos : Int)) :
    Sends (.status sid cs) (.cases (.int sid) l)
  | compileError (sid g : Nat) (log) : Sends (.say .compileError sid g) (.compileError (.int sid) log)
  | compileMessage (sid g : Nat) (log) : Sends (.say .compileMessage sid g) (.compileMessage (.int sid) log)
  | gradingBegin (sid g : Nat) (p) : Sends (.say .gradingBegin sid g) (.begin (.int sid) p)
  | gradingEnd (sid g : Nat) : Sends (.say .gradingEnd sid g) (.finish (.int sid))
  | gradingAborted (sid g : Nat) : Sends (.say .gradingAborted sid g) (.aborted (.int sid))
  | batchBegin (sid g : Nat) : Sends (.say .batchBegin sid g) (.batchBegin (.int sid))
  | batchEnd (sid g : Nat) : Sends (.say .batchEnd sid g) (.batchEnd (.int sid))
  | internalError (sid g : Nat) (m) : Sends (.say .internalError sid g) (.internalError (.int sid) m)
  | ack (sid : Nat) : Sends (.ack sid) (.acknowledged (.int sid))
  | handshake (ps es id key) : Sends .other (.handshake ps es id key)
  | supported (ps) : Sends .other (.supported ps)
  | current (id) : Sends .other (.current id)
  | pong (t now load n) : Sends .other (.pong t now load n)

/-- What `_send_packet` hands to the stream. (packet.py:234-246) -/
def raw (F : Floats) (compress : Bytes → Bytes) (p : Packet) : Bytes := compress (encode F p.json)

end Verif.Wire
