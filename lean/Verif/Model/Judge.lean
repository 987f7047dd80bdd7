import Verif.Model.Worker

/-!
# The judge process: network thread, grading threads and flusher thread

dmoj/judge.py:112-186 (`begin_grading`, `_grading_thread_main`, `_ipc_*`, `log_internal_error`) and
dmoj/packet.py:154-360 (`_flush_testcase_queue`, packet methods), as an interleaving transition
system.  One transition is one access to shared state (or a lock operation).  Simplifications:

* `_send_packet` is one transition (it writes under a lock; see C23 for the byte level).  A network
  failure inside it ends the judge process (`os._exit(1)`), i.e. the execution simply stops there.
* releasing the queue lock happens in the transition of the last statement before it;
* `test_case_status_packet` acquires, appends and releases in one transition, when the lock is free;
* the worker is arbitrary: any message may arrive at any time, restricted only by the parameter
  `byeOk` (when the worker may say BYE).  A crash, hang (timeout) or unreadable message is `crash`.
* constructing the `JudgeWorker` does not fail.
* `bad` says which results cannot be serialised by `json.dumps`.
-/

namespace Verif.Judge

/-- A queued result, tagged with the submission that produced it. (packet.py:194-220) -/
structure Case where
  owner : Nat
  pos : Nat
deriving DecidableEq, Repr

/-- Packets about a submission other than test-case-status. (packet.py:307-369) -/
inductive Kind where
  | compileError | compileMessage | gradingBegin | gradingEnd | gradingAborted | batchBegin | batchEnd
  | internalError
deriving DecidableEq, Repr

/-- Messages from the worker as seen by `JudgeWorker.communicate` (dmoj/judge.py:315-335). -/
inductive Msg where
  | hello | compileError | compileMessage | gradingBegin | gradingEnd | gradingAborted
  | batchBegin | batchEnd | result (pos : Nat) | unhandled | garbage
deriving DecidableEq, Repr

/-- The worker's IPC messages as this model sees them. (judge.py:357-435) -/
def toMsg : Worker.Event → Msg
  | .compileError => .compileError
  | .compileMessage => .compileMessage
  | .gradingBegin _ => .gradingBegin
  | .batchBegin _ => .batchBegin
  | .batchEnd _ => .batchEnd
  | .result _ n _ => .result n
  | .gradingEnd => .gradingEnd
  | .gradingAborted => .gradingAborted

/-- The messages sent during a list of worker actions. (judge.py:357-435) -/
def sends : List Worker.Act → List Msg
  | [] => []
  | .exec _ :: r => sends r
  | .send e :: r => toMsg e :: sends r

/-- Runs of the worker's generator (dmoj/judge.py:437-507): an exception before the first message,
an exception of `grader.cases()`, or the loop.  -/
inductive WorkerRun where
  | failedEarly
  | badCases (warning pretested : Bool)
  | graded (w : Worker.World) (shortCircuit : Bool) (b : Worker.Build)

/-- The generator raised: the last thing it did was grading a case. (judge.py:357-435) -/
def raised (acts : List Worker.Act) : Bool :=
  match acts.getLast? with
  | some (.exec _) => true
  | _ => false

/-- All messages of the worker before BYE (dmoj/judge.py:357-435): HELLO, what the generator yields,
UNHANDLED_EXCEPTION if it raises. -/
def workerMsgs : WorkerRun → List Msg
  | .failedEarly => [.hello, .unhandled]
  | .badCases warning _ =>
    .hello :: (if warning then [.compileMessage] else []) ++ [.gradingBegin, .unhandled]
  | .graded w sc b =>
    .hello :: sends (Worker.gradeCases w sc b) ++
      (if raised (Worker.gradeCases w sc b) then [.unhandled] else [])

/-- The history of observable events: a result is enqueued; a packet is sent.  `say` records the
grading thread's own submission besides the id in the packet. (judge.py:70-272, packet.py:154-248) -/
inductive Ev where
  | enq (c : Case)
  | status (sid : Nat) (cases : List Case)
  | say (k : Kind) (sid : Nat) (by_ : Nat)
  | ack (sid : Nat)
  | other
deriving DecidableEq, Repr

/-- Progress of `_flush_testcase_queue`, dmoj/packet.py:194-220. -/
inductive Fl where
  | acq                                   -- about to take the queue lock
  | test                                  -- holds it, about to test for emptiness
  | build                                 -- about to read current_submission.id
  | send (sid : Nat) (cases : List Case)  -- about to serialise and send
  | clear                                 -- sent, about to clear the queue
deriving DecidableEq, Repr

/-- Who holds the queue lock. (judge.py:70-272, packet.py:154-248) -/
inductive Tid where
  | flusher
  | grader (ticket : Nat)
deriving DecidableEq, Repr

/-- State shared by the threads. (judge.py:70-272, packet.py:154-248) -/
structure Sh where
  hist : List Ev
  queue : List Case
  qlock : Option Tid
  glock : Bool
  current : Option Nat
  ready : Bool

/-- Error handling context of a grading thread: an exception goes to `log_internal_error`; inside
the UNHANDLED_EXCEPTION handler or `log_internal_error` itself it is swallowed. (judge.py:143-186) -/
inductive Mode where
  | loop | unh | err
deriving DecidableEq, Repr

/-- Program counter of a grading thread. (judge.py:143-186) -/
inductive Pc where
  | loop                                   -- waiting for a message
  | ready                                  -- HELLO: ipc_ready_signal.set()
  | plain (k : Kind) (id : Option Nat)     -- packet without flush; `id` once read
  | flush (k : Kind) (fl : Fl)             -- flush before packet `k`
  | close (k : Kind) (id : Option Nat)     -- packet `k` after the flush
  | log (pos : Nat)                        -- test_case_status_packet: log.debug reads the id
  | enq (pos : Nat)                        -- append to the queue
  | fin0                                   -- finally: wait_with_timeout, then current worker := None
  | fin1                                   -- ipc_ready_signal.set()
  | fin2                                   -- _grading_lock.release()
deriving DecidableEq, Repr

/-- A grading thread; `got` and `sent` are its history. (judge.py:143-186) -/
structure Gr where
  ticket : Nat
  sid : Nat
  pc : Pc
  mode : Mode
  got : List Msg
  sent : List Kind

/-- Program counter of the network thread inside `begin_grading` (dmoj/judge.py:112-141). -/
inductive Net where
  | idle
  | acquire (sid : Nat)
  | create (sid : Nat)
  | start (sid : Nat)
  | wait
deriving DecidableEq, Repr

/-- The whole judge. (judge.py:70-272, packet.py:154-248) -/
structure S where
  sh : Sh
  net : Net
  fl : Option Fl
  grs : List Gr
  next : Nat
  finished : List Gr

/-- The initial state. (judge.py:70-272, packet.py:154-248) -/
def init : S :=
  { sh := { hist := [], queue := [], qlock := none, glock := false, current := none, ready := false }
    net := .idle, fl := none, grs := [], next := 0, finished := [] }

/-- Result of a flush transition. (packet.py:194-220) -/
inductive FlRes where
  | go (fl : Fl)
  | done
  | failed

/-- The transitions of `_flush_testcase_queue` by thread `t`. (packet.py:194-220) -/
inductive FlStep (bad : Case → Bool) (t : Tid) : Sh → Fl → Sh → FlRes → Prop where
  /-- `with self._testcase_queue_lock` -/
  | acq (h) (hl : h.qlock = none) : FlStep bad t h .acq { h with qlock := some t } (.go .test)
  /-- `if not self._testcase_queue: return` -/
  | empty (h) (hq : h.queue = []) : FlStep bad t h .test { h with qlock := none } .done
  | nonempty (h) (hq : h.queue ≠ []) : FlStep bad t h .test h (.go .build)
  /-- `self.judge.current_submission.id`: AttributeError when there is none -/
  | noCurrent (h) (hc : h.current = none) : FlStep bad t h .build { h with qlock := none } .failed
  | build (h) (sid) (hc : h.current = some sid) : FlStep bad t h .build h (.go (.send sid h.queue))
  /-- `json.dumps` raises -/
  | unserialisable (h) (sid cs) (hb : cs.any bad = true) :
      FlStep bad t h (.send sid cs) { h with qlock := none } .failed
  | send (h) (sid cs) (hb : cs.any bad = false) :
      FlStep bad t h (.send sid cs) { h with hist := h.hist ++ [.status sid cs] } (.go .clear)
  /-- `self._testcase_queue.clear()` -/
  | clear (h) : FlStep bad t h .clear { h with queue := [], qlock := none } .done

/-- What a grading thread does next after finishing a handler. (judge.py:143-186) -/
def Gr.ok (g : Gr) : Gr :=
  match g.mode with
  | .loop => { g with pc := .loop }
  | .unh => { g with pc := .loop, mode := .loop }
  | .err => { g with pc := .fin0 }

/-- What a grading thread does on an exception in a handler. (judge.py:143-186) -/
def Gr.fail (g : Gr) : Gr :=
  match g.mode with
  | .loop => { g with pc := .flush .internalError .acq, mode := .err }
  | .unh => { g with pc := .loop, mode := .loop }
  | .err => { g with pc := .fin0 }

/-- The handler of a message (the dispatch table of dmoj/judge.py:147-158 with the packet methods
they call). -/
def Gr.handle (g : Gr) (m : Msg) : Gr :=
  let g := { g with got := g.got ++ [m] }
  match m with
  | .hello => { g with pc := .ready }
  | .compileError => { g with pc := .plain .compileError none }
  | .compileMessage => { g with pc := .plain .compileMessage none }
  | .gradingBegin => { g with pc := .plain .gradingBegin none }
  | .gradingEnd => { g with pc := .flush .gradingEnd .acq }
  | .gradingAborted => { g with pc := .flush .gradingAborted .acq }
  | .batchBegin => { g with pc := .flush .batchBegin .acq }
  | .batchEnd => { g with pc := .flush .batchEnd .acq }
  | .result p => { g with pc := .log p }
  | .unhandled => { g with pc := .flush .internalError .acq, mode := .unh }
  | .garbage => g.fail

/-- The transitions of a grading thread, `none` when the thread ends. (judge.py:143-186) -/
inductive GrStep (bad : Case → Bool) (byeOk : List Msg → Prop) : Sh → Gr → Sh → Option Gr → Prop where
  | recv (h g m) (hp : g.pc = .loop) : GrStep bad byeOk h g h (some (g.handle m))
  /-- BYE, and acknowledging it succeeds -/
  | bye (h g) (hp : g.pc = .loop) (hb : byeOk g.got) : GrStep bad byeOk h g h (some { g with pc := .fin0 })
  /-- the worker dies, hangs, or acknowledging BYE fails: an exception in the loop -/
  | crash (h g) (hp : g.pc = .loop) : GrStep bad byeOk h g h (some g.fail)
  | ready (h g) (hp : g.pc = .ready) : GrStep bad byeOk h g { h with ready := true } (some g.ok)
  | plainNone (h g k) (hp : g.pc = .plain k none) (hc : h.current = none) :
      GrStep bad byeOk h g h (some g.fail)
  | plainRead (h g k sid) (hp : g.pc = .plain k none) (hc : h.current = some sid) :
      GrStep bad byeOk h g h (some { g with pc := .plain k (some sid) })
  | plainSend (h g k sid) (hp : g.pc = .plain k (some sid)) :
      GrStep bad byeOk h g { h with hist := h.hist ++ [.say k sid g.sid] }
        (some { g with sent := g.sent ++ [k] }.ok)
  | flush (h g k fl h' fl') (hp : g.pc = .flush k fl)
      (hf : FlStep bad (.grader g.ticket) h fl h' (.go fl')) :
      GrStep bad byeOk h g h' (some { g with pc := .flush k fl' })
  | flushDone (h g k fl h') (hp : g.pc = .flush k fl)
      (hf : FlStep bad (.grader g.ticket) h fl h' .done) :
      GrStep bad byeOk h g h' (some { g with pc := .close k none })
  | flushFail (h g k fl h') (hp : g.pc = .flush k fl)
      (hf : FlStep bad (.grader g.ticket) h fl h' .failed) : GrStep bad byeOk h g h' (some g.fail)
  | closeNone (h g k) (hp : g.pc = .close k none) (hc : h.current = none) :
      GrStep bad byeOk h g h (some g.fail)
  | closeRead (h g k sid) (hp : g.pc = .close k none) (hc : h.current = some sid) :
      GrStep bad byeOk h g h (some { g with pc := .close k (some sid) })
  | closeSend (h g k sid) (hp : g.pc = .close k (some sid)) :
      GrStep bad byeOk h g { h with hist := h.hist ++ [.say k sid g.sid] }
        (some { g with sent := g.sent ++ [k] }.ok)
  | logNone (h g p) (hp : g.pc = .log p) (hc : h.current = none) : GrStep bad byeOk h g h (some g.fail)
  | log (h g p sid) (hp : g.pc = .log p) (hc : h.current = some sid) :
      GrStep bad byeOk h g h (some { g with pc := .enq p })
  | enq (h g p) (hp : g.pc = .enq p) (hl : h.qlock = none) :
      GrStep bad byeOk h g
        { h with queue := h.queue ++ [⟨g.sid, p⟩], hist := h.hist ++ [.enq ⟨g.sid, p⟩] } (some g.ok)
  | clearWorker (h g) (hp : g.pc = .fin0) :
      GrStep bad byeOk h g { h with current := none } (some { g with pc := .fin1 })
  | signal (h g) (hp : g.pc = .fin1) :
      GrStep bad byeOk h g { h with ready := true } (some { g with pc := .fin2 })
  | release (h g) (hp : g.pc = .fin2) : GrStep bad byeOk h g { h with glock := false } none

/-- The transitions of the judge. (judge.py:70-272, packet.py:154-248) -/
inductive Step (bad : Case → Bool) (byeOk : List Msg → Prop) : S → S → Prop where
  /-- a submission-request arrives: it is acknowledged, then `begin_grading` -/
  | request (s sid) (hn : s.net = .idle) :
      Step bad byeOk s { s with net := .acquire sid, sh := { s.sh with hist := s.sh.hist ++ [.ack sid] } }
  | acquire (s sid) (hn : s.net = .acquire sid) (hl : s.sh.glock = false) :
      Step bad byeOk s { s with net := .create sid, sh := { s.sh with glock := true } }
  | create (s sid) (hn : s.net = .create sid) :
      Step bad byeOk s
        { s with net := .start sid, sh := { s.sh with current := some sid, ready := false } }
  | start (s sid) (hn : s.net = .start sid) :
      Step bad byeOk s
        { s with net := .wait, next := s.next + 1
                 grs := s.grs ++ [⟨s.next, sid, .loop, .loop, [], []⟩] }
  | wait (s) (hn : s.net = .wait) (hr : s.sh.ready = true) : Step bad byeOk s { s with net := .idle }
  /-- any other packet (ping response, problem list, ...) -/
  | other (s) : Step bad byeOk s { s with sh := { s.sh with hist := s.sh.hist ++ [.other] } }
  | flushStart (s) (hf : s.fl = none) : Step bad byeOk s { s with fl := some .acq }
  | flush (s fl h' fl') (hf : s.fl = some fl) (hs : FlStep bad .flusher s.sh fl h' (.go fl')) :
      Step bad byeOk s { s with sh := h', fl := some fl' }
  | flushEnd (s fl h' r) (hf : s.fl = some fl) (hs : FlStep bad .flusher s.sh fl h' r)
      (hr : r = .done ∨ r = .failed) : Step bad byeOk s { s with sh := h', fl := none }
  | grader (s pre g post h' g') (hg : s.grs = pre ++ g :: post)
      (hs : GrStep bad byeOk s.sh g h' (some g')) :
      Step bad byeOk s { s with sh := h', grs := pre ++ g' :: post }
  | graderEnd (s pre g post h') (hg : s.grs = pre ++ g :: post)
      (hs : GrStep bad byeOk s.sh g h' none) :
      Step bad byeOk s { s with sh := h', grs := pre ++ post, finished := s.finished ++ [g] }

/-- Reachable states. (judge.py:70-272, packet.py:154-248) -/
inductive Reachable (bad : Case → Bool) (byeOk : List Msg → Prop) : S → Prop where
  | init : Reachable bad byeOk init
  | step {s s'} : Reachable bad byeOk s → Step bad byeOk s s' → Reachable bad byeOk s'

end Verif.Judge
