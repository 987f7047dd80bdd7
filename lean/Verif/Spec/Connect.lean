import Verif.Model.Connect

/-! # What connecting should do -/

namespace Verif.Connect

open Verif.Net

/-- Some calls are interrupted, then one succeeds. -/
def Reached (l : List Dial) : Prop := ∃ n rest, l = List.replicate n .eintr ++ .ok :: rest

/-- Some calls are interrupted, then one fails. -/
def Unreached (l : List Dial) : Prop := ∃ n rest, l = List.replicate n .eintr ++ .fail :: rest

/-- The site is accepted: without TLS always; with it, if it speaks TLS and, unless told not to check, its certificate is trusted and
made out to the host. -/
inductive Accepted (secure noCert : Bool) (store : Option String) (cert : Option Cert) : Prop
  | clear (h : secure = false)
  | unchecked (h : secure = true) (hn : noCert = true) {c} (hc : cert = some c)
  | checked (h : secure = true) {c} (hc : cert = some c) (ht : c.trusted store = true) (hn : c.named = true)

/-- The site's first packet is `j`, followed by `rest`; a body cut short by the end of the connection is also looked at. -/
inductive First (C : Codec Json) : Bytes → Json → Bytes → Prop
  | whole {hd body rest b j} (h : unpack hd = some body.length) (hb : C.decompress body = some b) (hj : C.loads b = some j) :
      First C (hd ++ (body ++ rest)) j rest
  | short {hd body n b j} (h : unpack hd = some n) (hn : body.length < n) (hb : C.decompress body = some b) (hj : C.loads b = some j) :
      First C (hd ++ body) j []

/-- The packet is an object with that name. -/
inductive Named (j : Json) (v : Json) : Prop
  | mk (a b) (h : j = .obj (a ++ ("name", v) :: b)) (hn : ∀ x ∈ a, x.1 ≠ "name")

/-- It is an object with some name. -/
def HasName (j : Json) : Prop := ∃ v, Named j v

end Verif.Connect
