import Verif.Basic
import Verif.Model.Net

/-!
# Starting, updating and stopping the judge: dmoj/judge.py:515-645, dmoj/monitor.py, dmoj/control.py

Loading the configuration is in `Model/Startup.lean`, the executors in `Model/Loader.lean`, the connection in `Model/Net.lean` and
`Model/Connect.lean`.
-/

namespace Verif.Main

/-- judge.py:587-592. -/
abbrev Str := List Char

/-! ## Whether the judge may start -/

/-- What `sanity_check` looks at: the kind of system, whether `_cptbox` and `_checker` can be imported, the user, and the contents of
`/proc/sys/net/core/bpf_jit_enable`. (judge.py:520-557) -/
structure Host where
  windows : Bool
  cptbox : Bool
  uid : Nat
  jit : Option Str
  checker : Bool

/-- judge.py:520-557. -/
inductive Warn where
  | jit
  | checker
deriving DecidableEq, Repr

/-- `str.isspace` on what the file of the kernel can contain. (judge.py:520-557) -/
def blank (c : Char) : Bool := c = ' ' || c = '\n' || c = '\t' || c = '\r'

/-- `str.strip` (judge.py:520-557) -/
def trim (s : Str) : Str := ((s.dropWhile blank).reverse.dropWhile blank).reverse

/-- `sanity_check`, judge.py:520-557; `none`: `main` returns 1 without doing anything else (571-572). -/
def sanityCheck (h : Host) : Option (List Warn) :=
  if h.windows then none
  else if !h.cptbox then none
  else if h.uid = 0 then none
  else
    some ((match h.jit with
      | some s => if trim s ≠ ['1'] then [.jit] else []
      | none => []) ++ (if h.checker then [] else [.checker]))

/-! ## The name of the log file, dmoj/judge.py:587-592 -/

/-- How `name % id` ends. (judge.py:587-592) -/
inductive Fmt where
  | text (s : Str)
  | typeError
  | valueError
deriving DecidableEq, Repr

/-- judge.py:587-592. -/
def Fmt.prepend (p : Str) : Fmt → Fmt
  | .text s => .text (p ++ s)
  | e => e

/-- judge.py:587-592. -/
def isDigit (c : Char) : Bool := '0' ≤ c && c ≤ '9'

/-- judge.py:587-592. -/
def number (s : Str) : Nat := s.foldl (fun n c => n * 10 + (c.toNat - 48)) 0

/-- A field of at least `width`, on the left if there is a `-` among the flags. (judge.py:587-592) -/
def pad (left : Bool) (width : Nat) (s : Str) : Str :=
  if left then s ++ List.replicate (width - s.length) ' ' else List.replicate (width - s.length) ' ' ++ s

/-- The `.` and the digits of a precision; `none` for `.*`, which wants a number. (judge.py:587-592) -/
def precision (s : Str) : Option (Option Nat × Str) :=
  match s with
  | '.' :: '*' :: _ => none
  | '.' :: r => some (some (number (r.takeWhile isDigit)), r.dropWhile isDigit)
  | r => some (none, r)

/-- `h`, `l` or `L`, which means nothing. (judge.py:587-592) -/
def modifier (s : Str) : Str :=
  match s with
  | 'h' :: r => r
  | 'l' :: r => r
  | 'L' :: r => r
  | r => r

theorem precision_le (s : Str) (p : Option Nat) (r : Str) (h : precision s = some (p, r)) : r.length ≤ s.length := by
  unfold precision at h
  split at h
  · exact nomatch h
  · next r' _ =>
    cases h
    have := (List.dropWhile_sublist isDigit (l := r')).length_le
    simp; omega
  · cases h; omega

theorem modifier_le (s : Str) : (modifier s).length ≤ s.length := by
  unfold modifier; split <;> simp

/-- What a conversion makes of a string: `quote` is `repr`, and `ascii` (which differ for other characters than ASCII). Numbers are wanted by the
others. (Widths beyond the address space, a `ValueError` or `MemoryError`, are left out.) (judge.py:587-592) -/
def convert (quote : Str → Str) (c : Char) (id : Str) : Option Fmt :=
  if c = 's' then some (.text id)
  else if c = 'r' ∨ c = 'a' then some (.text (quote id))
  else if c = 'c' then some (if id.length = 1 then .text id else .typeError)
  else if c ∈ ['d', 'i', 'u', 'o', 'x', 'X', 'e', 'E', 'f', 'F', 'g', 'G'] then some .typeError
  else none

/-- What follows a `%`: a mistake, another `%` (which uses nothing up), or a field to fill in. (judge.py:587-592) -/
inductive Conv where
  | typeError
  | valueError
  | percent (rest : Str)
  | field (left : Bool) (width : Nat) (prec : Option Nat) (c : Char) (rest : Str)
deriving DecidableEq, Repr

/-- judge.py:587-592. -/
def flag (c : Char) : Bool := c ∈ ['-', '+', ' ', '#', '0']

/-- `unicode_format_arg_parse` of CPython: a key in parentheses wants a mapping and `*` a number; flags, width, precision, modifier, conversion.
(judge.py:587-592) -/
def conv (r : Str) : Conv :=
  if r.head? = some '(' then .typeError
  else if (r.dropWhile flag).head? = some '*' then .typeError
  else
    match precision ((r.dropWhile flag).dropWhile isDigit) with
    | none => .typeError
    | some (p, r₂) =>
      match modifier r₂ with
      | [] => .valueError
      | c :: r₃ =>
        if c = '%' then .percent r₃
        else .field ('-' ∈ r.takeWhile flag) (number ((r.dropWhile flag).takeWhile isDigit)) p c r₃

/-- What is left. (judge.py:587-592) -/
def Conv.rest : Conv → Str
  | .typeError => []
  | .valueError => []
  | .percent r => r
  | .field _ _ _ _ r => r

theorem conv_le (r : Str) : (conv r).rest.length ≤ r.length := by
  unfold conv
  split
  · simp [Conv.rest]
  split
  · simp [Conv.rest]
  split
  · simp [Conv.rest]
  · next p r₂ hp =>
    have h1 := precision_le _ _ _ hp
    have h2 := modifier_le r₂
    have h3 := (List.dropWhile_sublist isDigit (l := r.dropWhile flag)).length_le
    have h4 := (List.dropWhile_sublist flag (l := r)).length_le
    split
    · simp [Conv.rest]
    · next c r₃ hm =>
      rw [hm] at h2
      simp at h2
      split <;> simp only [Conv.rest] <;> omega

/-- `name % id` for a string `id`; `used`: it has been used up. A number as `id` is not modelled (`%s` writes it like the string).
(judge.py:587-592) -/
def format (quote : Str → Str) (id : Str) (used : Bool) : Str → Fmt
  | [] => if used then .text [] else .typeError
  | c :: r =>
    if c ≠ '%' then (format quote id used r).prepend [c]
    else
      match h : conv r with
      | .typeError => .typeError
      | .valueError => .valueError
      | .percent r' => (format quote id used r').prepend ['%']
      | .field left width prec c r' =>
        if used then .typeError
        else
          match convert quote c id with
          | none => .valueError
          | some (.text s) =>
            (format quote id true r').prepend
              (pad left width (match prec with
                | some n => if c = 'c' then s else s.take n
                | none => s))
          | some e => e
  termination_by s => s.length
  decreasing_by
    · simp
    all_goals
      have h1 := conv_le r
      rw [h] at h1
      simp only [Conv.rest] at h1
      simp only [List.length_cons]; omega

/-- The file that is opened; `none` inside: the log goes to standard error. The outer `none`: the judge does not start.
(judge.py:587-592) -/
def logName (quote : Str → Str) (id : Str) : Option Str → Option (Option Str)
  | none => some none
  | some name =>
    match format quote id false name with
    | .text s => some (some s)
    | .typeError => some (some name)
    | .valueError => none

/-! ## The control server, dmoj/control.py -/

/-- control.py:4-22. -/
inductive Method where
  | get
  | post
  | other
deriving DecidableEq, Repr

/-- The status of the answer, and whether `update_problems` was called before it. Other methods are refused by `BaseHTTPRequestHandler`.
(control.py:4-22) -/
def control (m : Method) (path : Str) : Nat × Bool :=
  match m with
  | .post => if path = "/update/problems".toList then (200, true) else (404, false)
  | .get => (404, false)
  | .other => (501, false)

/-! ## The thread that tells other servers, monitor.py:20-48 -/

/-- monitor.py:20-48. -/
inductive RPc (U : Type) where
  | wait
  | woken
  | cleared
  | pinging (rest : List U)
  | exited

/-- `tried` and `pinged` are history: the addresses tried, and reached. (monitor.py:20-48) -/
structure Refresh (U : Type) where
  trigger : Bool := false
  terminate : Bool := false
  pc : RPc U := .wait
  tried : List U := []
  pinged : List U := []

/-- monitor.py:20-48. -/
inductive RAct where
  | refresh
  | stop
  | worker
deriving DecidableEq, Repr

/-- `urlopen(url, data='')`: for `http` and `https` the empty string is a `TypeError`, which is logged.
(monitor.py:20-48) -/
def reach {U : Type} (web : U → Bool) (up : U → Bool) (u : U) : Bool := !web u && up u

/-- One statement of the thread, or a call by another. (monitor.py:20-48) -/
def Refresh.step {U : Type} (urls : List U) (web up : U → Bool) (s : Refresh U) : RAct → Refresh U
  | .refresh => { s with trigger := true }
  | .stop => { s with terminate := true, trigger := true }
  | .worker =>
    match s.pc with
    | .wait => if s.trigger then { s with pc := .woken } else s
    | .woken => { s with trigger := false, pc := .cleared }
    | .cleared => if s.terminate then { s with pc := .exited } else { s with pc := .pinging urls }
    | .pinging [] => { s with pc := .wait }
    | .pinging (u :: rest) =>
      { s with pc := .pinging rest, tried := s.tried ++ [u], pinged := s.pinged ++ (if reach web up u then [u] else []) }
    | .exited => s

/-- monitor.py:20-48. -/
def Refresh.run {U : Type} (urls : List U) (web up : U → Bool) (s : Refresh U) (as : List RAct) : Refresh U :=
  as.foldl (Refresh.step urls web up) s

/-- The events of the file system that the handler passes on: `on_any_event`, monitor.py:56-60: the callback, then the refresher if there is one. -/
def onEvent (refresher : Bool) : Net.UAct × Option RAct := (.request, if refresher then some .refresh else none)

/-! ## Stopping -/

/-- The worker and the thread that reads from it: nothing is graded; grading; the last message was passed on; the worker is gone but the thread has not
finished. (judge.py:143-186, 264-272) -/
inductive Gr where
  | idle
  | busy
  | said
  | gone
deriving DecidableEq, Repr

/-- `_periodically_flush_testcase_queue`, packet.py:222-232. -/
inductive Fl where
  | check
  | nap
  | flush
  | done
deriving DecidableEq, Repr

/-- The main thread: `judge.listen()`; `disconnect` (packet.py:189-192); the `finally` of `main` with `murder` (judge.py:264-272, 638-641); the end
of `with monitor`; the end, with its exit code. -/
inductive Pc where
  | listen
  | dClose
  | dWait
  | mWait
  | mExit
  | mSignal
  | mClose
  | mApi
  | mMonitor
  | done (code : Nat)
deriving DecidableEq, Repr

/-- `monitor`: the observer was started, or there is none. (judge.py:567-645, 264-272, packet.py:185-192) -/
structure St where
  main : Pc := .listen
  upd : Net.Upd := Net.Upd.init
  fl : Fl := .check
  queue : Nat := 0
  gr : Gr := .idle
  closed : Bool := false
  monitor : Bool := true
  exited : Option Nat := none
deriving DecidableEq, Repr

/-- judge.py:567-645, 264-272, packet.py:185-192. -/
inductive Act where
  /-- a submission arrives -/
  | submit
  /-- the site asks to disconnect -/
  | disconnect
  /-- `KeyboardInterrupt` in the main thread -/
  | interrupt
  /-- `SystemExit(0)` of `_reconnect`, or an exception in `listen` -/
  | fail
  /-- the next statement of the main thread; `true`: waiting for the worker takes too long -/
  | main (timeout : Bool)
  /-- `update_problems` -/
  | request
  /-- the next statement of the updater; `false`: the list of problems cannot be made -/
  | updater (ok : Bool)
  | flusher
  /-- the grading thread: a result is queued; a packet is sent (the queue before it); so is the last; the goodbye is answered; it ends -/
  | result
  | packet
  | last
  | bye
  | clean
  /-- the interpreter ends when the main thread and all threads that are not daemons have -/
  | reap
deriving DecidableEq, Repr

/-- `_send_packet`: on a connection that was shut down the exception ends the process, packet.py:243-248. (Other failures of the network are left
out.) -/
def St.send (s : St) : St := if s.closed then { s with exited := some 1 } else s

/-- The main thread; `KeyboardInterrupt` in the `finally` leaves it (only where it waits, the other statements are short), but the monitor is stopped.
Simplified: `shutdown` of the server for the API returns; whether it does is in `Model/Control.lean`. (judge.py:567-645, 264-272, packet.py:185-192) -/
def St.mainStep (s : St) (timeout : Bool) : Option St :=
  let free := timeout || s.gr == .idle || s.gr == .gone
  match s.main with
  | .listen | .done _ => none
  | .dClose => some { s with main := .dWait, closed := true }
  | .dWait => if free then some { s with main := .mWait } else none
  | .mWait => if free then some { s with main := .mExit } else none
  | .mExit => some { s with main := .mSignal, upd := s.upd.step .setExit }
  | .mSignal => some { s with main := .mClose, upd := s.upd.step .setSignal }
  | .mClose => some { s with main := .mApi, closed := true }
  | .mApi => some { s with main := .mMonitor }
  | .mMonitor => some { s with main := .done (if s.monitor then 0 else 1) }

/-- The flusher. (packet.py:222-232) -/
def St.flStep (s : St) : Option St :=
  match s.fl with
  | .check => some { s with fl := if s.closed then .done else .nap }
  | .nap => some { s with fl := .flush }
  | .flush => if s.queue = 0 then some { s with fl := .check } else some { s.send with fl := .check, queue := 0 }
  | .done => none

/-- One action; `none`: it is not possible now. (judge.py:567-645, 264-272, packet.py:185-192) -/
def St.step (s : St) (a : Act) : Option St :=
  if s.exited.isSome then none else
  match a with
  | .submit => if s.main = .listen ∧ s.gr = .idle then some { s with gr := .busy } else none
  | .disconnect => if s.main = .listen then some { s with main := .dClose } else none
  | .interrupt =>
    match s.main with
    | .listen => some { s with main := .mWait }
    | .dWait => some { s with main := .mWait }
    | .mWait => some { s with main := .done (if s.monitor then 130 else 1) }
    | _ => none
  | .fail => if s.main = .listen then some { s with main := .mWait } else none
  | .main timeout => s.mainStep timeout
  | .request => some { s with upd := s.upd.step .request }
  | .updater ok =>
    if s.upd.pc = .exited then none
    else if s.upd.pc = .wait ∧ s.upd.signal = false then none
    else
      let s' := { s with upd := s.upd.step .updater }
      some (if s.upd.pc = .pushing ∧ ok = true then s'.send else s')
  | .flusher => s.flStep
  | .result => if s.gr = .busy then some { s with queue := s.queue + 1 } else none
  | .packet => if s.gr = .busy then some { s.send with queue := 0 } else none
  | .last => if s.gr = .busy then some { s.send with queue := 0, gr := .said } else none
  | .bye => if s.gr = .said then some { s with gr := .gone } else none
  | .clean => if s.gr = .gone then some { s with gr := .idle } else none
  | .reap =>
    match s.main with
    | .done c => if s.upd.pc = .exited ∧ s.fl = .done then some { s with exited := some c } else none
    | _ => none

/-- An action that is not possible changes nothing. (judge.py:567-645, 264-272, packet.py:185-192) -/
def St.act (s : St) (a : Act) : St := (s.step a).getD s

/-- judge.py:567-645, 264-272, packet.py:185-192. -/
def St.run (s : St) (as : List Act) : St := as.foldl St.act s

end Verif.Main
