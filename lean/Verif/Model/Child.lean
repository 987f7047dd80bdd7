import Verif.Basic

/-!
# Preparing the child: dmoj/cptbox/helper.cpp:42-225 and dmoj/cptbox/tracer.py:113-128

File descriptors of the child between fork and exec, and its resource limits. `close` is taken to
succeed after retries; ignored error returns are ignored here too.
-/

namespace Verif.Child

/-- `pos_int_from_ascii`, helper.cpp:144-153. `int` overflow (names of more than nine digits) is not
modelled. -/
def parseLoop : List Char → Nat → Int
  | [], num => num
  | c :: cs, num => if '0' ≤ c ∧ c ≤ '9' then parseLoop cs (num * 10 + (c.toNat - '0'.toNat)) else -1

/-- helper.cpp:144-153. -/
@[inherit_doc parseLoop]
def parse (name : List Char) : Int := parseLoop name 0

/-- A descriptor table: what each descriptor refers to. (helper.cpp:62-64, 155-225) -/
abbrev Fds := Nat → Option Nat

/-- `cptbox_close_fd` (helper.cpp:155-157) -/
def close (t : Fds) (fd : Nat) : Fds := fun n => if n = fd then none else t n

/-- `dup2(a, b)`; fails without effect if `a` is not open. (helper.cpp:62-64) -/
def dup2 (t : Fds) (a b : Nat) : Fds :=
  match t a with
  | none => t
  | some f => fun n => if n = b then some f else t n

/-- `if (config->stdin_ >= 0) dup2(config->stdin_, 0)`, helper.cpp:62-64. -/
def dupIf (t : Fds) (a : Int) (b : Nat) : Fds := if a ≥ 0 then dup2 t a.toNat b else t

/-- helper.cpp:62-64. -/
@[inherit_doc dupIf]
def streams (t : Fds) (stdin stdout stderr : Int) : Fds := dupIf (dupIf (dupIf t stdin 0) stdout 1) stderr 2

/-- The body of the loop over one buffer of directory entries, helper.cpp:214-221. -/
def closeBatch (low dir : Nat) (t : Fds) (names : List (List Char)) : Fds :=
  names.foldl (fun t name =>
    let fd := parse name
    if fd < 0 then t
    else if fd ≠ dir ∧ fd ≥ low then close t fd.toNat else t) t

/-- `cptbox_closefrom_brute`, helper.cpp:159-164; `max` is the soft descriptor limit. -/
def closeBrute (low max : Nat) (t : Fds) : Fds := (List.range' low (max + 1 - low)).foldl close t

/-! ## Limits -/

/-- What the Python side is asked for: tracer.py:90-108 (time in seconds, memory in KiB; times are
whole here). -/
structure Ask where
  time : Nat
  memory : Nat
  addressGrace : Nat
  dataGrace : Nat
  nproc : Int
  fsize : Int
  wall : Option Nat := none

/-- The fields derived from it, tracer.py:119-126. -/
structure Config where
  wall : Nat
  cpu : Nat
  data : Nat
  address : Nat
  nproc : Int
  fsize : Int
deriving DecidableEq, Repr

/-- tracer.py:113-128. -/
@[inherit_doc Config]
def configure (a : Ask) : Config :=
  { wall := match a.wall with | none => a.time * 3 | some w => w
    cpu := if a.time ≠ 0 then a.time + 5 else 0
    data := a.memory * 1024 + a.dataGrace * 1024
    address := if a.memory ≠ 0 then a.memory * 1024 + a.addressGrace * 1024 else 0
    nproc := a.nproc
    fsize := a.fsize }

/-- helper.cpp:114-133. -/
inductive Res where
  | as
  | data
  | cpu
  | nproc
  | fsize
  | stack
  | core
deriving DecidableEq, Repr

/-- The `setrlimit` calls in order: resource, soft and hard limit (`none`: unlimited),
helper.cpp:114-133. -/
def limits (c : Config) : List (Res × Option Nat × Option Nat) :=
  (if c.address ≠ 0 then [(.as, some c.address, some c.address)] else [])
  ++ (if c.data ≠ 0 then [(.data, some c.data, some c.data)] else [])
  ++ (if c.cpu ≠ 0 then [(.cpu, some c.cpu, some (c.cpu + 1))] else [])
  ++ (if c.nproc ≥ 0 then [(.nproc, some c.nproc.toNat, some c.nproc.toNat)] else [])
  ++ (if c.fsize ≥ 0 then [(.fsize, some c.fsize.toNat, some c.fsize.toNat)] else [])
  ++ [(.stack, none, none), (.core, some 0, some 0)]

end Verif.Child
