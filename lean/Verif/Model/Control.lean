import Verif.Model.Main

/-!
# The server for the API, and stopping it: dmoj/judge.py:618-645, dmoj/control.py

The server is an `http.server.HTTPServer`, run by `serve_forever` in a thread of its own (judge.py:625-628); it serves one connection after the other in
that thread, in the order of `accept`, and reads the request of a connection without a time limit (`JudgeControlRequestHandler` sets no `timeout`).
`shutdown` (judge.py:643-644) asks the loop to end and waits until it has. Both are taken from CPython's socketserver.py. A connection carries one request
(HTTP/1.0, the default of `BaseHTTPRequestHandler`); the body of a `POST` is not read. Simplified: a request is complete or not (no malformed ones, which
are answered 400 and are like unknown methods here); answers are short enough for the buffer of the socket, so that writing them does not wait; the backlog of
`listen` (5) is taken to be unlimited; the half second between two looks at the flag is one transition.
-/

namespace Verif.Control
open Verif.Main

/-- What the server has from a connection: not a whole request yet; one; or the client closed before that. (control.py:4-22) -/
inductive Conn where
  | silent
  | asked (m : Method) (path : Str)
  | gone
deriving DecidableEq, Repr

/-- The thread of the server: between two connections, with one, or at its end. (judge.py:625-628) -/
inductive Server where
  | loop
  | serving (c : Nat)
  | ended
deriving DecidableEq, Repr

/-- The main thread: in `listen`, in `api_server.shutdown()`, past it, or interrupted in it (a second `KeyboardInterrupt`, which leaves the `finally`
too). (judge.py:634-645) -/
inductive MPc where
  | listening
  | stopping
  | past
  | interrupted
deriving DecidableEq, Repr

/-- `opened`: how many connections there were, numbered from 0; `queue`: those not yet accepted. `stop`: the flag of `shutdown`. `answers`: the
connections answered, with the status, the latest last; `updates`: the calls of `update_problems`. (judge.py:618-645) -/
structure St where
  opened : Nat := 0
  conns : Nat → Conn := fun _ => .silent
  queue : List Nat := []
  server : Server := .loop
  stop : Bool := false
  main : MPc := .listening
  answers : List (Nat × Nat) := []
  updates : Nat := 0

/-- What may happen. (judge.py:618-645) -/
inductive Act where
  /-- a client connects -/
  | connect
  /-- client `c` has sent a whole request -/
  | ask (c : Nat) (m : Method) (path : Str)
  /-- client `c` closes the connection without one -/
  | leave (c : Nat)
  /-- the thread of the server goes on -/
  | serve
  /-- the main thread leaves `listen`, or goes on in `shutdown` -/
  | main
  /-- Ctrl-C -/
  | interrupt
deriving DecidableEq, Repr

/-- One step of the server: `serve_forever` looks at the flag, then accepts; a handler waits for the request and answers. (judge.py:625-628,
control.py:4-22) -/
def serve (s : St) : St :=
  match s.server with
  | .loop =>
    if s.stop then { s with server := .ended }
    else
      match s.queue with
      | [] => s
      | c :: q => { s with server := .serving c, queue := q }
  | .serving c =>
    match s.conns c with
    | .silent => s
    | .gone => { s with server := .loop }
    | .asked m path =>
      { s with
        server := .loop
        answers := s.answers ++ [(c, (control m path).1)]
        updates := s.updates + if (control m path).2 then 1 else 0 }
  | .ended => s

/-- One step of the main thread. (judge.py:634-645) -/
def mainStep (s : St) : St :=
  match s.main with
  | .listening => { s with main := .stopping, stop := true }
  | .stopping => if s.server = .ended then { s with main := .past } else s
  | .past => s
  | .interrupted => s

/-- A transition; those that cannot happen change nothing. (judge.py:618-645, control.py:4-22) -/
def act (s : St) : Act → St
  | .connect => { s with opened := s.opened + 1, queue := s.queue ++ [s.opened] }
  | .ask c m path =>
    if c < s.opened ∧ s.conns c = .silent then { s with conns := fun d => if d = c then .asked m path else s.conns d } else s
  | .leave c =>
    if c < s.opened ∧ s.conns c = .silent then { s with conns := fun d => if d = c then .gone else s.conns d } else s
  | .serve => serve s
  | .main => mainStep s
  | .interrupt => if s.main = .stopping then { s with main := .interrupted } else s

/-- judge.py:618-645. -/
def run (s : St) (as : List Act) : St := as.foldl act s

end Verif.Control
