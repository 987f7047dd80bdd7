import Verif.Model.Communicate

/-!
# What a conversation with a process is
-/

namespace Verif.Communicate.Spec
open Verif.Communicate

/-- The bytes read from stream `c` by the calls in `log`: each takes at most 4096 of what is there. -/
def taken (c : Chan) : List Ready → List UInt8
  | [] => []
  | .avail c' d :: log => (if c' = c then d.take 4096 else []) ++ taken c log
  | _ :: log => taken c log

/-- Stream `c` was seen to end. -/
def Ended (c : Chan) (log : List Ready) : Prop := .avail c [] ∈ log ∨ .hang (.chan c) ∈ log

/-- The process stopped taking input. -/
def Refused (log : List Ready) : Prop := .epipe ∈ log ∨ .hang .stdin ∈ log

/-- All the entries of some polls, in order. -/
def entries (polls : List (Option (List Ready))) : List Ready := (polls.map (·.getD [])).flatten

/-- `poll` only reports registered streams and each once. -/
def Polled (s : State) (rs : List Ready) : Prop :=
  (rs.map Ready.fd).Nodup ∧ ∀ r ∈ rs, s.isOpen r.fd = true

/-- `poll` behaves throughout. -/
def Honest (a : Args) : State → List (Option (List Ready)) → Prop
  | _, [] => True
  | s, none :: ps => Honest a s ps
  | s, some rs :: ps => Polled s rs ∧ ∀ s', serve a s rs = .more s' → Honest a s' ps

end Verif.Communicate.Spec
