/-!
# Asking for an update of the problems by signal: dmoj/judge.py:76-110, 264-272, 611-616, dmoj/control.py:7-18, dmoj/monitor.py:56-60

`Judge.update_problems` is `updater_signal.set()`. It is called by other threads (the server of `control.py`, the observer of `monitor.py`), and by the
handler of `SIGUSR2`, which Python runs in the main thread, between any two of its instructions and also while it waits for a lock, and thus also within
another `set()` of that thread (of the handler, or of `murder`). `threading.Event` is taken from CPython's library: a flag, and a condition on a lock
that is not reentrant. One transition is one of its statements; there is one updater, so at most one waits for the condition.
-/

namespace Verif.Usr2

/-- Where a call of `Event.set` is: `with self._cond`; `self._flag = True`; `self._cond.notify_all()`; the end of `with`. (CPython's threading.py, for
judge.py:110, 270) -/
inductive SPc where
  | acquire
  | write
  | notify
  | release
deriving DecidableEq, Repr

/-- Where `_updater_thread` is, judge.py:85-105: `wait` takes the lock, looks at the flag, sleeps (which gives the lock back) and takes it again, gives
it back; `clear` takes it, writes, gives it back; then the list is made and sent, or the thread has ended. -/
inductive UPc where
  | wAcquire
  | wCheck
  | asleep
  | wAgain
  | wRelease
  | cAcquire
  | cWrite
  | cRelease
  | push
  | done
deriving DecidableEq, Repr

/-- The threads. (judge.py:76-110, 611-616) -/
inductive Who where
  | main
  | other (n : Nat)
  | updater
deriving DecidableEq, Repr

/-- `main`: the calls of `set` of the main thread, the innermost first; without any it does its work. `others`: calls of other threads. The lock is
taken iff `owner` is not `none`; who took it is history, as are `due` (a request since the last list was begun) and `pushes` (lists that were begun).
(judge.py:76-110) -/
structure St where
  flag : Bool := false
  owner : Option Who := none
  woken : Bool := false
  main : List SPc := []
  others : Nat → Option SPc := fun _ => none
  upd : UPc := .wAcquire
  exit : Bool := false
  due : Bool := false
  pushes : Nat := 0

/-- What may happen. (judge.py:85-110, 264-272, 611-616) -/
inductive Act where
  /-- `SIGUSR2` arrives: its handler begins -/
  | signal
  /-- the main thread gets to `murder` -/
  | murder
  /-- another thread calls `update_problems` -/
  | call (n : Nat)
  /-- a thread executes its next statement -/
  | step (w : Who)
deriving DecidableEq, Repr

/-- One statement of `set`; `none`: it has to wait. Releasing does not look at who took the lock. (CPython's threading.py, for judge.py:110, 270) -/
def setStep (s : St) (w : Who) : SPc → Option (St × Option SPc)
  | .acquire => if s.owner = none then some ({ s with owner := some w }, some .write) else none
  | .write => some ({ s with flag := true, due := true }, some .notify)
  | .notify => some ({ s with woken := s.woken || decide (s.upd = .asleep) }, some .release)
  | .release => some ({ s with owner := none }, none)

/-- One statement of the updater. (judge.py:85-105) -/
def updStep (s : St) : St :=
  match s.upd with
  | .wAcquire => if s.owner = none then { s with owner := some .updater, upd := .wCheck } else s
  | .wCheck => if s.flag then { s with upd := .wRelease } else { s with owner := none, woken := false, upd := .asleep }
  | .asleep => if s.woken then { s with upd := .wAgain } else s
  | .wAgain => if s.owner = none then { s with owner := some .updater, upd := .wRelease } else s
  | .wRelease => { s with owner := none, upd := .cAcquire }
  | .cAcquire => if s.owner = none then { s with owner := some .updater, upd := .cWrite } else s
  | .cWrite => { s with flag := false, upd := .cRelease }
  | .cRelease => if s.exit then { s with owner := none, upd := .done } else { s with owner := none, upd := .push, due := false, pushes := s.pushes + 1 }
  | .push => { s with upd := .wAcquire }
  | .done => s

/-- One action; what is not possible changes nothing. (judge.py:76-110, 264-272, 611-616) -/
def act (s : St) : Act → St
  | .signal => { s with main := .acquire :: s.main }
  | .murder => if s.main = [] then { s with exit := true, main := [.acquire] } else s
  | .call n => if s.others n = none then { s with others := fun k => if k = n then some .acquire else s.others k } else s
  | .step .main =>
    match s.main with
    | [] => s
    | p :: ps =>
      match setStep s .main p with
      | none => s
      | some (s', q) => { s' with main := q.toList ++ ps }
  | .step (.other n) =>
    match s.others n with
    | none => s
    | some p =>
      match setStep s (.other n) p with
      | none => s
      | some (s', q) => { s' with others := fun k => if k = n then q else s.others k }
  | .step .updater => updStep s

/-- Actions one after another. (judge.py:76-110) -/
def run (s : St) (as : List Act) : St := as.foldl act s

end Verif.Usr2
