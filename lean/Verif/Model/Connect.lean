import Verif.Model.Net

/-!
# Connecting to the site: dmoj/packet.py:54-139, 290-306

One attempt to connect, as a function of what the machine and the site do meanwhile. Reading and writing packets is in Net.lean;
here is the first packet each way. What sockets and TLS do is a parameter.
-/

namespace Verif.Connect

open Verif.Net

/-- JSON values, as far as looked at. (packet.py:287-306) -/
inductive Json where
  | str (s : String)
  | obj (l : List (String × Json))
  | other

/-- Exceptions: `OSError` (which `socket.error`, timeouts, and the exceptions of `ssl` are), anything else.
(packet.py:131-139) -/
inductive Exn where
  | os | other
deriving DecidableEq, Repr

/-- One call of `socket.create_connection`. (packet.py:95-102) -/
inductive Dial where
  | eintr | fail | ok
deriving DecidableEq, Repr

/-- `ssl_context`, packet.py:55-67: whether the certificate is verified, and the name of the host; the certificates trusted, those of
the system or those in a file. -/
structure Ctx where
  verify : Bool
  hostname : Bool
  store : Option String
deriving DecidableEq, Repr

/-- packet.py:54-70; `loads`: whether the file of certificates can be loaded. `none`: an exception in the constructor. -/
def context (secure noCert : Bool) (store : Option String) (loads : String → Bool) : Option (Option Ctx) :=
  if secure then
    -- ssl.SSLContext(ssl.PROTOCOL_SSLv23) verifies nothing
    let ctx : Ctx := { verify := false, hostname := false, store := none }
    let ctx := if !noCert then { ctx with verify := true, hostname := true } else ctx
    match store with
    | none => some (some ctx)
    | some f => if loads f then some (some { ctx with store := some f }) else none
  else some none

/-- The certificate of the site: whether the certificates trusted vouch for it, and whether it is for the host.
(packet.py:107-109) -/
structure Cert where
  trusted : Option String → Bool
  named : Bool

/-- What happens during an attempt. `bytes`: what the site sends until it closes the connection, or nothing has come for too long.
(packet.py:89-115) -/
structure World where
  problems : Except Exn (List (String × Nat))
  versions : Except Exn (List (String × String))
  dials : List Dial
  cert : Option Cert
  sends : Bool
  bytes : Bytes

/-- What can be observed outside: calls of `create_connection`, a TLS connection, the handshake packet and whether it went through
TLS. (packet.py:89-115) -/
inductive Ev where
  | dial
  | tls
  | hello (encrypted : Bool) (problems : List (String × Nat)) (versions : List (String × String)) (id key : String)
deriving DecidableEq, Repr

/-- How `_connect` ends: it returns, with what is left to read; `JudgeAuthenticationFailed`; another exception; `os._exit(1)`; the
list of calls is used up. (packet.py:89-115) -/
inductive Out where
  | online (rest : Bytes)
  | auth
  | raised (e : Exn)
  | exit
  | waiting
deriving DecidableEq, Repr

/-- packet.py:95-102: an interrupted call is repeated. -/
def dial : List Dial → List Ev × Option (Except Exn Unit)
  | [] => ([], none)
  | .eintr :: l => (.dial :: (dial l).1, (dial l).2)
  | .fail :: _ => ([.dial], some (.error .os))
  | .ok :: _ => ([.dial], some (.ok ()))

/-- `ssl_context.wrap_socket`: fails if the site does not speak TLS, or its certificate is not accepted.
(packet.py:107-109) -/
def wrap (ctx : Ctx) : Option Cert → Bool
  | none => false
  | some c => (!ctx.verify || c.trusted ctx.store) && (!ctx.hostname || c.named)

/-- The answer to the handshake, packet.py:293-306. -/
def answer (C : Codec Json) (s : Bytes) : Out :=
  match unpack (s.take 4) with
  | none => .auth
  | some size =>
    match C.decompress ((s.drop 4).take size) with
    | none => .auth
    | some b =>
      match C.loads b with
      | none => .auth
      | some (.obj l) =>
        match l.lookup "name" with
        | none => .raised .other
        | some (.str "handshake-success") => .online ((s.drop 4).drop size)
        | some _ => .auth
      | some _ => .raised .other

/-- `handshake`, packet.py:290-306; `_send_packet` ends the process if it cannot send (packet.py:243-248). -/
def handshake (C : Codec Json) (encrypted : Bool) (id key : String) (w : World) (ps : List (String × Nat)) (vs : List (String × String)) :
    List Ev × Out :=
  if w.sends then ([.hello encrypted ps vs id key], answer C w.bytes) else ([], .exit)

/-- `_connect`, packet.py:89-115. -/
def connect (C : Codec Json) (ctx : Option Ctx) (id key : String) (w : World) : List Ev × Out :=
  match w.problems with
  | .error e => ([], .raised e)
  | .ok ps =>
    match w.versions with
    | .error e => ([], .raised e)
    | .ok vs =>
      match dial w.dials with
      | (l, none) => (l, .waiting)
      | (l, some (.error e)) => (l, .raised e)
      | (l, some (.ok _)) =>
        match ctx with
        | none => (l ++ (handshake C false id key w ps vs).1, (handshake C false id key w ps vs).2)
        | some ctx =>
          if wrap ctx w.cert then
            (l ++ .tls :: (handshake C true id key w ps vs).1, (handshake C true id key w ps vs).2)
          else (l, .raised .os)

/-- How a call of `_do_reconnect` ends: connected; `SystemExit(0)`; another exception; `os._exit(1)`; still busy.
(packet.py:131-139) -/
inductive End where
  | online (rest : Bytes) (fallback : Rat)
  | gaveUp
  | raised
  | exit
  | busy
deriving DecidableEq, Repr

/-- `_do_reconnect` and `_reconnect`, packet.py:117-139, for the attempts in turn: what is observed, the sleeps, and the end. -/
def doReconnect (C : Codec Json) (ctx : Option Ctx) (id key : String) (fallback : Rat) : List World → List Ev × List Rat × End
  | [] => ([], [], .busy)
  | w :: ws =>
    match connect C ctx id key w with
    | (l, .online rest) => (l, [], .online rest fallback)
    | (l, .raised .other) => (l, [], .raised)
    | (l, .exit) => (l, [], .exit)
    | (l, .waiting) => (l, [], .busy)
    | (l, _) =>
      if fallback > 86400 then (l, [], .gaveUp)
      else
        let r := doReconnect C ctx id key (fallback * (3 / 2)) ws
        (l ++ r.1, fallback :: r.2.1, r.2.2)

end Verif.Connect
