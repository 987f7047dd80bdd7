import Verif.Model.Child
import Verif.Model.Monitor

/-!
# Starting a program: dmoj/cptbox/helper.cpp:42-142, ptproc.cpp:68-79, tracer.py:186-203

The whole of the child's side between `fork` and `execve`, with every call that may fail, what the tracer sees of it, and
what `wait` makes of the result. The loop of the tracer itself is `Model/Monitor.lean`, the descriptors and the list of
limits are in `Model/Child.lean`. Not modelled: the speculation control (a failure is ignored and it changes nothing else),
the order of the speculation call among the others, a failing `fork`, and messages printed by the child.
-/

namespace Verif.Start
open Verif.Child Verif.Monitor

/-- A limit: soft and hard value of each resource, `none` is `RLIM_INFINITY`. (helper.cpp:30-39) -/
abbrev Limits := Res → Option Nat × Option Nat

/-- Comparison of limits, with infinity on top. (`setrlimit`, helper.cpp:30-39) -/
def under : Option Nat → Option Nat → Bool
  | _, none => true
  | none, some _ => false
  | some a, some b => decide (a ≤ b)

/-- `setrlimit2`, helper.cpp:30-39: the kernel refuses a soft limit above the hard one, and, without privilege, a hard limit
above the present one. The result is not looked at. -/
def setLimit (privileged : Bool) (l : Limits) (q : Res × Option Nat × Option Nat) : Limits :=
  if under q.2.1 q.2.2 && (privileged || under q.2.2 (l q.1).2) then fun r => if r = q.1 then q.2 else l r else l

/-- What the program is to be started with: `child_config`, helper.h and _cptbox.pyx:455-478. -/
structure Conf where
  personality : Nat := 0
  stdin : Int := -1
  stdout : Int := -1
  stderr : Int := -1
  seccomp : Bool
  whitelist : Nat → Bool
  limits : Config
  dir : List Char := []
  file : List Char

/-- What the kernel answers to the child, and the calls it makes besides `execve` once it is traced: `before` from the stop
to `execve` (`setrlimit`, `chdir`, allocations), `after` when that failed (`perror`). `closed` is the descriptor table after
`cptbox_closefrom(3)`, `rules n` whether `seccomp_rule_add` succeeds for `n`, `exec32` whether the program is a 32-bit one,
`errno` the error of a failing `execve`. (helper.cpp:42-142) -/
structure Kernel (C : Type) where
  personality : Bool := true
  noNewPrivs : Bool := true
  traceMe : Bool := true
  filter : Bool := true
  rules : Nat → Bool := fun _ => true
  chdir : Bool := true
  exec : Bool := true
  exec32 : Bool := false
  errno : Nat := 2
  privileged : Bool := false
  closed : Fds
  before : List (View C) := []
  after : List (View C) := []

/-- What surrounds the process. (helper.cpp:42-142) -/
structure World where
  personality : Nat := 0
  noNewPrivs : Bool := false
  traced : Bool := false
  filter : Option (Nat → Bool) := none
  fds : Fds
  limits : Limits
  cwd : List Char
  image : List Char

/-- `PTBOX_SPAWN_FAIL_*`, helper.h:5-8. -/
def NO_NEW_PRIVS : Nat := 202
/-- helper.h:6 -/
def SECCOMP : Nat := 203
/-- helper.h:7 -/
def TRACEME : Nat := 204
/-- helper.h:8 -/
def EXECVE : Nat := 205

/-- The filter `seccomp_load` puts in force: the numbers passing without a trap. A rule that cannot be added is left out.
(helper.cpp:80-107; only the native ABI) -/
def installed {C : Type} (c : Conf) (k : Kernel C) : Nat → Bool := fun n => decide (n < 568) && c.whitelist n && k.rules n

/-- `cptbox_child_run`, helper.cpp:42-142: the exit code, or the process running the program. -/
def childRun {C : Type} (c : Conf) (k : Kernel C) (w : World) : Except Nat World :=
  let w := if c.personality > 0 && k.personality then { w with personality := c.personality } else w
  if !k.noNewPrivs then .error NO_NEW_PRIVS else
  let w := { w with noNewPrivs := true, fds := k.closed }
  if !k.traceMe then .error TRACEME else
  let w := { w with traced := true }
  if c.seccomp && !k.filter then .error SECCOMP else
  let w := if c.seccomp then { w with filter := some (installed c k) } else w
  let w := { w with limits := (limits c.limits).foldl (setLimit k.privileged) w.limits }
  let w := if c.dir ≠ [] && k.chdir then { w with cwd := c.dir } else w
  if k.exec then .ok { w with image := c.file } else .error EXECVE

/-- The stops of one call of the child: with a filter one, before the call, unless the filter lets it pass; without, one before and one
after it. (ptproc.cpp:107-120, helper.cpp:72-112) -/
def callStops {C : Type} (c : Conf) (k : Kernel C) (pid : Nat) (v : View C) : List (Stop C) :=
  if c.seccomp then (if 0 ≤ v.nr ∧ installed c k v.nr.toNat = true then [] else [.sys pid v])
  else [.sys pid { v with result := -38 }, .sys pid v]

/-- The call of `execve` as the tracer sees it: afterwards the number is that of the ABI of the new program.
(ptdebug_x64.cpp:119-130) -/
def execStops {C : Type} (c : Conf) (k : Kernel C) (pid : Nat) : List (Stop C) :=
  if c.seccomp then callStops c k pid { nr := 59 }
  else [.sys pid { nr := 59, result := -38 },
    .sys pid (if k.exec then (if k.exec32 then { abi := 0, nr := 11 } else { nr := 59 }) else { nr := 59, result := -(k.errno : Int) })]

/-- `SIGSTOP` (helper.cpp:70) -/
def SIGSTOP : Nat := 19

/-- What the tracer sees up to the first instruction of the program or to the end of the child. (helper.cpp:42-142,
ptproc.cpp:107-160) -/
def seen {C : Type} (c : Conf) (k : Kernel C) (pid : Nat) : List (Stop C) :=
  if !k.noNewPrivs || !k.traceMe then [.gone pid]
  else .signal pid SIGSTOP ::
    if c.seccomp && !k.filter then [.trap pid .exit, .gone pid]
    else k.before.flatMap (callStops c k pid) ++ execStops c k pid ++
      if k.exec then [] else k.after.flatMap (callStops c k pid) ++ [.trap pid .exit, .gone pid]

/-- Errors raised by `wait`, tracer.py:186-203. -/
inductive Failure where
  | noNewPrivs
  | seccomp
  | traceMe
  | spawn
  | unknown (code : Int)
deriving DecidableEq, Repr

/-- `TracedPopen.wait`, tracer.py:186-203; `initialized` is `was_initialized`, that is `_initialized` of ptproc.cpp:232. -/
def wait (initialized : Bool) (code : Int) : Except Failure Int :=
  if initialized then .ok code
  else if code = NO_NEW_PRIVS then .error .noNewPrivs
  else if code = SECCOMP then .error .seccomp
  else if code = TRACEME then .error .traceMe
  else if code = EXECVE then .error .spawn
  else if code ≥ 0 then .error (.unknown code)
  else .ok code

/-- `alloc_byte_array`, _cptbox.pyx: each argument is handed over as a C string, ending at its first zero byte.
(_cptbox.pyx:466-467) -/
def cString (b : List UInt8) : List UInt8 := b.takeWhile (· ≠ 0)

/-- `config.argv = alloc_byte_array(args)`, _cptbox.pyx:466. -/
def argv (args : List (List UInt8)) : List (List UInt8) := args.map cString

end Verif.Start
