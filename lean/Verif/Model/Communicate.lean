import Verif.Basic

/-!
# Talking to a process: dmoj/utils/communicate.py

`poll`, `os.write` and `os.read` are answered by an arbitrary list of events. The three streams are
taken to have different descriptors.
-/

namespace Verif.Communicate

/-- The two streams read from. (communicate.py:40-53) -/
inductive Chan where
  | out
  | err
deriving DecidableEq

/-- The streams of the process. (communicate.py:40-53) -/
inductive Fd where
  | stdin
  | chan (c : Chan)
deriving DecidableEq

/-- The arguments of `safe_communicate`, communicate.py:10: which of `proc.stdin`, `proc.stdout`,
`proc.stderr` are there, the input (empty for `None`) and the limits. -/
structure Args where
  hasIn : Bool := true
  has : Chan → Bool := fun _ => true
  input : List UInt8 := []
  outlimit : Option Nat := none
  errlimit : Option Nat := none

/-- `outlimit`, `errlimit`: communicate.py:11-14, 48, 53. -/
def Args.limit (a : Args) : Chan → Nat
  | .out => a.outlimit.getD 10485760
  | .err => a.errlimit.getD (a.outlimit.getD 10485760)

/-- One entry of what `poll` returns, with the answer to the call made for it. (communicate.py:58-66, 77-90) -/
inductive Ready where
  /-- `POLLOUT`; the pipe has room for `n` bytes. -/
  | room (n : Nat)
  /-- `POLLOUT`, and `os.write` raises `EPIPE`. -/
  | epipe
  /-- `POLLOUT`, and `os.write` raises another error. -/
  | writeError
  /-- `POLLIN` or `POLLPRI`; these bytes are there to be read (none at the end of the stream). -/
  | avail (c : Chan) (d : List UInt8)
  /-- `POLLIN` or `POLLPRI`, and `os.read` raises. -/
  | readError (c : Chan)
  /-- Something else: a hang-up or an error. -/
  | hang (f : Fd)

/-- The stream an entry is about. (communicate.py:58-66, 77-90) -/
def Ready.fd : Ready → Fd
  | .room _ | .epipe | .writeError => .stdin
  | .avail c _ | .readError c => .chan c
  | .hang f => f

/-- The local variables of `safe_communicate`: the streams in `fd2file`, `fd2output`, `fd2length` and
`input_offset`; and what it has done: the bytes the process was sent, whether it was marked, and the
entries handled so far. (communicate.py:15-55) -/
structure State where
  isOpen : Fd → Bool
  got : Chan → List (List UInt8) := fun _ => []
  length : Chan → Nat := fun _ => 0
  offset : Nat := 0
  sent : List UInt8 := []
  marked : Bool := false
  log : List Ready := []

/-- What has become of the call. (communicate.py:85-97) -/
inductive Res where
  | more (s : State)
  | ret (out err : List UInt8) (s : State)
  /-- `OutputLimitExceeded(stream, limit)` -/
  | ole (c : Chan) (limit : Nat) (s : State)
  /-- `fileno()` of a closed file -/
  | valueError (s : State)
  | osError (s : State)
  /-- a stream which is not registered -/
  | keyError (s : State)

/-- The state a call ended or stands in. (communicate.py:85-97) -/
def Res.state : Res → State
  | .more s | .ret _ _ s | .ole _ _ s | .valueError s | .osError s | .keyError s => s

/-- communicate.py:15-54: what is registered. Without input `stdin` is closed at once. -/
def init (a : Args) : State :=
  { isOpen := fun
      | .stdin => a.hasIn && !a.input.isEmpty
      | .chan c => a.has c }

/-- `close_unregister_and_remove`, communicate.py:35-38. -/
def State.close (s : State) (f : Fd) : State := { s with isOpen := fun g => if g = f then false else s.isOpen g }

/-- `select.PIPE_BUF` on Linux, communicate.py:7. -/
def pipeBuf : Nat := 4096

/-- `data` was read, communicate.py:81-82. -/
def State.receive (s : State) (c : Chan) (data : List UInt8) : State :=
  let s := if data = [] then s.close (.chan c) else s
  { s with
    got := fun x => if x = c then s.got x ++ [data] else s.got x
    length := fun x => if x = c then s.length x + data.length else s.length x }

/-- The check after a read, communicate.py:83-87. -/
def check (a : Args) (s : State) (c : Chan) : Res :=
  if s.length c > a.limit c then
    let s := { s with marked := true }
    if a.has .out then
      if s.isOpen (.chan .out) = false then .valueError s
      else .ole c (a.limit c) s
    else .ole .err (a.limit c) s
  else .more s

/-- The body of the loop over ready streams, communicate.py:64-90. -/
def step (a : Args) (s : State) (r : Ready) : Res :=
  if s.isOpen r.fd = false then .keyError s
  else
    let s := { s with log := s.log ++ [r] }
    match r with
    | .room n =>
      let chunk := (a.input.drop s.offset).take pipeBuf
      let written := min n chunk.length
      let s := { s with offset := s.offset + written, sent := s.sent ++ chunk.take written }
      .more (if s.offset ≥ a.input.length then s.close .stdin else s)
    | .epipe => .more (s.close .stdin)
    | .writeError => .osError s
    | .avail c d => check a (s.receive c (d.take 4096)) c
    | .readError _ => .osError s
    | .hang f => .more (s.close f)

/-- All ready streams of one `poll`. (communicate.py:64-90) -/
def serve (a : Args) : State → List Ready → Res
  | s, [] => .more s
  | s, r :: rs =>
    match step a s r with
    | .more s' => serve a s' rs
    | res => res

/-- The loop, communicate.py:56-97. A poll is `none` if it was interrupted. The result `more` means that
the call is still waiting after these polls. -/
def loop (a : Args) : State → List (Option (List Ready)) → Res
  | s, polls =>
    if s.isOpen .stdin || s.isOpen (.chan .out) || s.isOpen (.chan .err) then
      match polls with
      | [] => .more s
      | none :: ps => loop a s ps
      | some rs :: ps =>
        match serve a s rs with
        | .more s' => loop a s' ps
        | res => res
    else .ret (s.got .out).flatten (s.got .err).flatten s

/-- `safe_communicate`, communicate.py:10-97. -/
def communicate (a : Args) (polls : List (Option (List Ready))) : Res := loop a (init a) polls

end Verif.Communicate
