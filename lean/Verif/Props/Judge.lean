import Verif.Lemmas.Judge
import Verif.Lemmas.Worker

/-! # C16-C20: the judge process -/

namespace Verif.Props
open Verif Judge

/-! ## A submission without mishap, step by step, for the examples -/

section Demo
variable (bad : Case → Bool) (bye : List Msg → Prop)

/-- Submission `sid` is requested and its worker has said HELLO. -/
private theorem reach_begin {s : S} (sid : Nat) (h : Reachable bad bye s) (hn : s.net = .idle)
    (hl : s.sh.glock = false) (hg : s.grs = []) :
    Reachable bad bye
      { s with
        sh := { s.sh with hist := s.sh.hist ++ [.ack sid], glock := true, current := some sid, ready := true }
        net := .idle, next := s.next + 1, grs := [⟨s.next, sid, .loop, .loop, [.hello], []⟩] } := by
  have h1 := Reachable.step h (.request _ sid hn)
  have h2 := Reachable.step h1 (.acquire _ sid rfl hl)
  have h3 := Reachable.step h2 (.create _ sid rfl)
  have h4 := Reachable.step h3 (.start _ sid rfl)
  simp only [hg, List.nil_append] at h4
  have h5 := Reachable.step h4 (.grader _ [] _ [] _ _ rfl (.recv _ _ .hello rfl))
  have h6 := Reachable.step h5 (.grader _ [] _ [] _ _ rfl (.ready _ _ rfl))
  exact Reachable.step h6 (.wait _ rfl rfl)

end Demo

/-! ## C16 -/

/-- C16.  Whatever the threads and the worker do: whenever the queue lock is free, the transmitted
results followed by the pending ones are the enqueued ones. -/
theorem C16_conserved (bad : Case → Bool) (bye : List Msg → Prop) (s : S) (h : Reachable bad bye s)
    (hl : s.sh.qlock = none) : enqueued s.sh.hist = transmitted s.sh.hist ++ s.sh.queue := by
  obtain ⟨og, hi⟩ := Inv_reachable (byeOk := bye) False (by simp) h
  exact hi.book hl

/-- C16.  At every instant the transmitted results are an initial part of the enqueued ones, in
order, without repetition or omission. -/
theorem C16_prefix (bad : Case → Bool) (bye : List Msg → Prop) (s : S) (h : Reachable bad bye s) :
    transmitted s.sh.hist <+: enqueued s.sh.hist := by
  obtain ⟨og, hi⟩ := Inv_reachable (byeOk := bye) False (by simp) h
  have key : ∀ fl : Fl, fl.holds = true → FlI False bad s.sh fl →
      transmitted s.sh.hist <+: enqueued s.sh.hist := by
    intro fl hh hf
    cases fl with
    | acq => simp [Fl.holds] at hh
    | test => exact ⟨_, Eq.symm hf⟩
    | build => exact ⟨_, hf.1.symm⟩
    | send sid cs => exact ⟨_, hf.1.symm⟩
    | clear => exact hf.1 ▸ List.prefix_refl _
  by_cases hl : s.sh.qlock = none
  · exact ⟨_, (hi.book hl).symm⟩
  · by_cases hf : (s.fl.map Fl.holds).getD false = true
    · cases hfl : s.fl with
      | none => simp [hfl] at hf
      | some fl => exact key fl (by simpa [hfl] using hf) (hi.fl fl hfl)
    · have hs := hi.slot
      cases og with
      | none => exact absurd (by simpa [hf] using hs.2.1) hl
      | some g =>
        have h4 := hs.2.2.2.1
        by_cases hp : g.pc.holds = true
        · have hpc := hi.pc g rfl
          generalize hq : g.pc = pc at hp hpc
          cases pc <;> simp at hp
          exact key _ hp hpc.2.1
        · exact absurd (by simpa [hf, hp] using h4) hl

/-- C16.  The queue is really delivered: from any reachable state where the flusher wakes up while a
submission is running, the queue lock is free and the pending results can be serialised, the
flusher's own transitions transmit exactly the pending results and empty the queue. -/
theorem C16_delivers (bad : Case → Bool) (bye : List Msg → Prop) (s : S) (h : Reachable bad bye s)
    (sid : Nat) (hf : s.fl = none) (hl : s.sh.qlock = none) (hc : s.sh.current = some sid)
    (hb : ∀ c ∈ s.sh.queue, bad c = false) (hq : s.sh.queue ≠ []) :
    Reachable bad bye
      { s with sh := { s.sh with hist := s.sh.hist ++ [.status sid s.sh.queue], queue := [] } } := by
  have h1 := Reachable.step h (.flushStart s hf)
  have h2 := Reachable.step h1 (.flush _ _ _ _ rfl (.acq _ hl))
  have h3 := Reachable.step h2 (.flush _ _ _ _ rfl (.nonempty _ hq))
  have h4 := Reachable.step h3 (.flush _ _ _ _ rfl (.build _ sid hc))
  have h5 := Reachable.step h4 (.flush _ _ _ _ rfl (.send _ sid _ (by simpa using hb)))
  have h6 := Reachable.step h5 (.flushEnd _ _ _ _ rfl (.clear _) (.inl rfl))
  obtain ⟨sh, net, fl, grs, next, finished⟩ := s
  obtain ⟨hist, queue, qlock, glock, current, ready⟩ := sh
  simp only at hf hl
  subst hf hl
  exact h6

/-- The state after submission 7 enqueued results 1 and 2, the first one already transmitted by the
flusher. -/
private theorem demo16 (bad : Case → Bool) (bye : List Msg → Prop) (hb : bad ⟨7, 1⟩ = false) :
    ∃ s, Reachable bad bye s ∧ s.sh.qlock = none ∧
      s.sh.hist = [.ack 7, .enq ⟨7, 1⟩, .status 7 [⟨7, 1⟩], .enq ⟨7, 2⟩] ∧ s.sh.queue = [⟨7, 2⟩] ∧
      s.grs = [⟨0, 7, .loop, .loop, [.hello, .result 1, .result 2], []⟩] ∧ s.sh.current = some 7 ∧
      s.fl = none ∧ s.net = .idle ∧ s.finished = [] := by
  have h0 := reach_begin bad bye 7 .init rfl rfl rfl
  have h1 := Reachable.step h0 (.grader _ [] _ [] _ _ rfl (.recv _ _ (.result 1) rfl))
  have h2 := Reachable.step h1 (.grader _ [] _ [] _ _ rfl (.log _ _ 1 7 rfl rfl))
  have h3 := Reachable.step h2 (.grader _ [] _ [] _ _ rfl (.enq _ _ 1 rfl rfl))
  have h4 := C16_delivers bad bye _ h3 7 rfl rfl rfl (by simpa [init, Gr.handle] using hb) (by simp)
  have h5 := Reachable.step h4 (.grader _ [] _ [] _ _ rfl (.recv _ _ (.result 2) rfl))
  have h6 := Reachable.step h5 (.grader _ [] _ [] _ _ rfl (.log _ _ 2 7 rfl rfl))
  have h7 := Reachable.step h6 (.grader _ [] _ [] _ _ rfl (.enq _ _ 2 rfl rfl))
  exact ⟨_, h7, rfl, rfl, rfl, rfl, rfl, rfl, rfl, rfl⟩

example : ∃ s, Reachable (fun _ => false) WorkerBye s ∧ s.sh.qlock = none ∧
    enqueued s.sh.hist = [⟨7, 1⟩, ⟨7, 2⟩] ∧ transmitted s.sh.hist = [⟨7, 1⟩] := by
  obtain ⟨s, hr, h1, h2, -⟩ := demo16 (fun _ => false) WorkerBye rfl
  exact ⟨s, hr, h1, by rw [h2]; rfl, by rw [h2]; rfl⟩

/-! ## C17 -/

/-- C17.  When a batch-begin, batch-end, grading-end, submission-terminated or internal-error packet
is sent, every result enqueued before has been transmitted, in order. -/
theorem C17_order (bad : Case → Bool) (bye : List Msg → Prop) (s : S) (h : Reachable bad bye s)
    (before after : List Ev) (k : Kind) (sid owner : Nat)
    (hs : s.sh.hist = before ++ .say k sid owner :: after) (hk : k.closing = true) :
    transmitted before = enqueued before := by
  obtain ⟨og, hi⟩ := Inv_reachable (byeOk := bye) False (by simp) h
  exact hi.hist.closing _ _ _ _ _ hs hk

/-- A grading-end packet after two results, one of them flushed by it. -/
private theorem demo17 (bad : Case → Bool) (bye : List Msg → Prop) (hb : ∀ c, bad c = false) :
    ∃ s, Reachable bad bye s ∧ s.sh.qlock = none ∧
      s.sh.hist = [.ack 7, .enq ⟨7, 1⟩, .status 7 [⟨7, 1⟩], .enq ⟨7, 2⟩, .status 7 [⟨7, 2⟩],
        .say .gradingEnd 7 7] ∧ s.sh.queue = [] ∧
      s.grs = [⟨0, 7, .loop, .loop, [.hello, .result 1, .result 2, .gradingEnd], [.gradingEnd]⟩] ∧
      s.sh.current = some 7 ∧ s.fl = none ∧ s.net = .idle ∧ s.finished = [] := by
  obtain ⟨s, hr, e1, e2, e3, e4, e5, e6, e7, e8⟩ := demo16 bad bye (hb _)
  obtain ⟨sh, net, fl, grs, next, finished⟩ := s
  obtain ⟨hist, queue, qlock, glock, current, ready⟩ := sh
  simp only at e1 e2 e3 e4 e5 e6 e7 e8
  subst e1 e2 e3 e4 e5 e6 e7 e8
  have h1 := Reachable.step hr (.grader _ [] _ [] _ _ rfl (.recv _ _ .gradingEnd rfl))
  have h2 := Reachable.step h1 (.grader _ [] _ [] _ _ rfl (.flush _ _ _ _ _ _ rfl (.acq _ rfl)))
  have h3 := Reachable.step h2 (.grader _ [] _ [] _ _ rfl (.flush _ _ _ _ _ _ rfl (.nonempty _ (by simp))))
  have h4 := Reachable.step h3 (.grader _ [] _ [] _ _ rfl (.flush _ _ _ _ _ _ rfl (.build _ 7 rfl)))
  have h5 := Reachable.step h4 (.grader _ [] _ [] _ _ rfl
    (.flush _ _ _ _ _ _ rfl (.send _ 7 _ (by simp [hb]))))
  have h6 := Reachable.step h5 (.grader _ [] _ [] _ _ rfl (.flushDone _ _ _ _ _ rfl (.clear _)))
  have h7 := Reachable.step h6 (.grader _ [] _ [] _ _ rfl (.closeRead _ _ _ 7 rfl rfl))
  have h8 := Reachable.step h7 (.grader _ [] _ [] _ _ rfl (.closeSend _ _ _ 7 rfl))
  exact ⟨_, h8, rfl, rfl, rfl, rfl, rfl, rfl, rfl, rfl⟩

example : ∃ s, Reachable (fun _ => false) WorkerBye s ∧
    s.sh.hist = [.ack 7, .enq ⟨7, 1⟩, .status 7 [⟨7, 1⟩], .enq ⟨7, 2⟩, .status 7 [⟨7, 2⟩]] ++
      .say .gradingEnd 7 7 :: [] := by
  obtain ⟨s, hr, _, h2, _⟩ := demo17 (fun _ => false) WorkerBye (fun _ => rfl)
  exact ⟨s, hr, by rw [h2]; rfl⟩

/-! ## The worker's protocol -/

private theorem sends_append (a b : List Worker.Act) : sends (a ++ b) = sends a ++ sends b := by
  induction a with
  | nil => rfl
  | cons x a ih => cases x <;> simp [sends, ih]

private theorem bye_of_last (a : List Msg) (m : Msg) (h1 : m.terminal = true)
    (h2 : openAfter (openResults a) m = false) : WorkerBye (a ++ [m]) :=
  ⟨by simpa using h2, m, by simp, h1⟩

/-- C20.  Whatever it grades, the worker process says BYE only after a message that ends the
submission, with every result followed by a closing message. -/
theorem C20_worker_protocol (r : WorkerRun) : WorkerBye (workerMsgs r) := by
  cases r with
  | failedEarly => exact bye_of_last [.hello] _ rfl rfl
  | badCases warning pretested =>
    cases warning
    · exact bye_of_last [.hello, .gradingBegin] _ rfl rfl
    · exact bye_of_last [.hello, .compileMessage, .gradingBegin] _ rfl rfl
  | graded w req b =>
    cases b with
    | compileError => exact bye_of_last [.hello] .compileError rfl rfl
    | ok warning pretested items =>
      obtain ⟨acts0, c, _, _, _, _, hc, he⟩ := Worker.grade_ctl w req warning pretested items
      rw [workerMsgs, he]
      cases c with
      | next s =>
        simp only [sends_append, sends, toMsg]
        rw [if_neg (by simp [raised])]
        simpa using bye_of_last (.hello :: sends s.acts) .gradingEnd rfl rfl
      | stop a =>
        obtain ⟨k, _, _, a0, _, _, ⟨rfl, _⟩ | ⟨rfl, _⟩⟩ := hc
        · rw [if_pos (by simp [raised])]
          exact bye_of_last _ _ rfl rfl
        · simp only [sends_append, sends, toMsg]
          rw [if_neg (by simp [raised])]
          simpa using bye_of_last (.hello :: sends a0) .gradingAborted rfl rfl

/-! ## C18 -/

/-- C18.  For workers that follow their protocol (but may crash, hang or send anything at any time):
every result on the wire was produced by the submission whose id the packet carries. -/
theorem C18_results (bad : Case → Bool) (s : S) (h : Reachable bad WorkerBye s) (sid : Nat)
    (cs : List Case) (hm : Ev.status sid cs ∈ s.sh.hist) : ∀ c ∈ cs, c.owner = sid := by
  obtain ⟨og, hi⟩ := Inv_reachable (byeOk := WorkerBye) True (fun _ _ h => h) h
  exact hi.hist.own trivial sid cs hm

/-- C18.  Whatever the worker does: every other packet about a submission carries the id of the
submission of the grading thread that sends it. -/
theorem C18_packets (bad : Case → Bool) (bye : List Msg → Prop) (s : S) (h : Reachable bad bye s)
    (k : Kind) (sid owner : Nat) (hm : Ev.say k sid owner ∈ s.sh.hist) : sid = owner := by
  obtain ⟨og, hi⟩ := Inv_reachable (byeOk := bye) False (by simp) h
  exact hi.hist.ids _ _ _ hm

/-- C18.  The protocol matters: a worker that says BYE with a result still open lets that result be
transmitted under the id of the next submission. -/
theorem C18_protocol_needed : ∃ s, Reachable (fun _ => false) (fun _ => True) s ∧
    Ev.status 8 [⟨7, 2⟩] ∈ s.sh.hist := by
  obtain ⟨s, hr, e1, e2, e3, e4, e5, e6, e7, e8⟩ := demo16 (fun _ => false) (fun _ => True) rfl
  obtain ⟨sh, net, fl, grs, next, finished⟩ := s
  obtain ⟨hist, queue, qlock, glock, current, ready⟩ := sh
  simp only at e1 e2 e3 e4 e5 e6 e7 e8
  subst e1 e2 e3 e4 e5 e6 e7 e8
  have h1 := Reachable.step hr (.grader _ [] _ [] _ _ rfl (.bye _ _ rfl trivial))
  have h2 := Reachable.step h1 (.grader _ [] _ [] _ _ rfl (.clearWorker _ _ rfl))
  have h3 := Reachable.step h2 (.grader _ [] _ [] _ _ rfl (.signal _ _ rfl))
  have h4 := Reachable.step h3 (.graderEnd _ [] _ [] _ rfl (.release _ _ rfl))
  have h5 := reach_begin _ _ 8 h4 rfl rfl rfl
  exact ⟨_, C16_delivers _ _ _ h5 8 rfl rfl rfl (by simp) (by simp), by simp⟩

example : ∃ s, Reachable (fun _ => false) WorkerBye s ∧ Ev.status 7 [⟨7, 1⟩] ∈ s.sh.hist ∧
    Ev.say .gradingEnd 7 7 ∈ s.sh.hist := by
  obtain ⟨s, hr, _, h2, _⟩ := demo17 (fun _ => false) WorkerBye (fun _ => rfl)
  exact ⟨s, hr, by rw [h2]; simp, by rw [h2]; simp⟩

/-! ## C19 -/

/-- C19.  At most one grading thread exists, and the grading lock is held exactly while a submission
is being set up or graded. -/
theorem C19_one (bad : Case → Bool) (bye : List Msg → Prop) (s : S) (h : Reachable bad bye s) :
    s.grs.length ≤ 1 ∧
    (s.sh.glock = true ↔ (∃ sid, s.net = .create sid ∨ s.net = .start sid) ∨ s.grs ≠ []) := by
  obtain ⟨og, hi⟩ := Inv_reachable (byeOk := bye) False (by simp) h
  have hs := hi.slot
  cases og with
  | none =>
    obtain ⟨s1, -, s3⟩ := hs
    refine ⟨by simp [s1], ?_⟩
    cases hn : s.net <;> simp [hn] at s3 <;> simp [s1, s3]
  | some g =>
    obtain ⟨s1, s2, -⟩ := hs
    exact ⟨by simp [s1], by simp [s1, s2]⟩

/-- C19.  The current worker is the one of the submission being graded or set up; a new worker is
created only when there is none (the assertion in `begin_grading` never fails). -/
theorem C19_worker (bad : Case → Bool) (bye : List Msg → Prop) (s : S) (h : Reachable bad bye s) :
    (∀ sid, s.net = .create sid → s.sh.current = none) ∧
    (∀ sid, s.sh.current = some sid → (∃ g ∈ s.grs, g.sid = sid) ∨ s.net = .start sid) := by
  obtain ⟨og, hi⟩ := Inv_reachable (byeOk := bye) False (by simp) h
  have hs := hi.slot
  cases og with
  | none =>
    obtain ⟨s1, -, s3⟩ := hs
    constructor
    · intro sid hn; simp [hn] at s3; exact s3.2
    · intro sid hc
      cases hn : s.net <;> simp [hn, hc] at s3
      simp [s3]
  | some g =>
    obtain ⟨s1, -, -, -, s3⟩ := hs
    refine ⟨fun sid hn => by simp [hn] at s3, fun sid hc => .inl ⟨g, by simp [s1], ?_⟩⟩
    have hpc := hi.pc g rfl
    generalize g.pc = pc at hpc
    cases pc <;> simpa [hc, eq_comm] using hpc.1

/-- C19.  When no grading thread is left the slot is free again: the lock is released, there is no
current worker, and a starter that is still waiting has been woken, however the worker behaved. -/
theorem C19_freed (bad : Case → Bool) (bye : List Msg → Prop) (s : S) (h : Reachable bad bye s)
    (hg : s.grs = []) (hn : ∀ sid, s.net ≠ .create sid ∧ s.net ≠ .start sid) :
    s.sh.glock = false ∧ s.sh.current = none ∧ (s.net = .wait → s.sh.ready = true) ∧
    (s.sh.qlock = none ∨ s.sh.qlock = some .flusher) := by
  obtain ⟨og, hi⟩ := Inv_reachable (byeOk := bye) False (by simp) h
  have hs := hi.slot
  cases og with
  | none =>
    obtain ⟨-, s2, s3⟩ := hs
    have hq : s.sh.qlock = none ∨ s.sh.qlock = some .flusher := by
      rw [s2]; split <;> simp
    cases hn' : s.net <;> simp [hn'] at s3 hn <;> simp [s3, hq]
  | some g => simp [hs.1] at hg

/-- C19.  No deadlock: in every reachable state a grading thread can make a transition (or end),
unless the flusher holds the queue lock, in which case the flusher can make a transition. -/
theorem C19_progress (bad : Case → Bool) (bye : List Msg → Prop) (s : S) (h : Reachable bad bye s)
    (g : Gr) (hg : g ∈ s.grs) :
    (∃ h' og', GrStep bad bye s.sh g h' og') ∨
    (∃ fl h' r, s.fl = some fl ∧ s.sh.qlock = some .flusher ∧ FlStep bad .flusher s.sh fl h' r) := by
  obtain ⟨og, hi⟩ := Inv_reachable (byeOk := bye) False (by simp) h
  have hs := hi.slot
  have fls : ∀ t (fl : Fl), fl.holds = true → ∃ h' r, FlStep bad t s.sh fl h' r := by
    intro t fl hf
    cases fl with
    | acq => simp [Fl.holds] at hf
    | test =>
      by_cases hq : s.sh.queue = []
      · exact ⟨_, _, .empty _ hq⟩
      · exact ⟨_, _, .nonempty _ hq⟩
    | build =>
      cases hc : s.sh.current with
      | none => exact ⟨_, _, .noCurrent _ hc⟩
      | some sid => exact ⟨_, _, .build _ sid hc⟩
    | send sid cs =>
      cases hb : cs.any bad
      · exact ⟨_, _, .send _ _ _ hb⟩
      · exact ⟨_, _, .unserialisable _ _ _ hb⟩
    | clear => exact ⟨_, _, .clear _⟩
  cases og with
  | none => simp [hs.1] at hg
  | some g₀ =>
    obtain ⟨s1, s2, s3, s4, s5⟩ := hs
    obtain rfl : g = g₀ := by simpa [s1] using hg
    by_cases hf : (s.fl.map Fl.holds).getD false = true
    · right
      cases hfl : s.fl with
      | none => simp [hfl] at hf
      | some fl =>
        obtain ⟨h', r, hst⟩ := fls .flusher fl (by simpa [hfl] using hf)
        exact ⟨fl, h', r, rfl, by rw [s4]; simp [hf], hst⟩
    · left
      have hfree : g.pc.holds = false → s.sh.qlock = none := by
        intro h; rw [s4]; simp [hf, h]
      cases hp : g.pc with
      | loop => exact ⟨_, _, .crash _ _ hp⟩
      | ready => exact ⟨_, _, .ready _ _ hp⟩
      | plain k id =>
        cases id with
        | some i => exact ⟨_, _, .plainSend _ _ _ _ hp⟩
        | none =>
          cases hc : s.sh.current with
          | none => exact ⟨_, _, .plainNone _ _ _ hp hc⟩
          | some i => exact ⟨_, _, .plainRead _ _ _ _ hp hc⟩
      | flush k fl =>
        have : ∃ h' r, FlStep bad (.grader g.ticket) s.sh fl h' r := by
          by_cases hh : fl.holds = true
          · exact fls _ fl hh
          · have hq := hfree (by simpa [hp] using hh)
            cases fl <;> first | exact ⟨_, _, .acq _ hq⟩ | exact absurd rfl hh
        obtain ⟨h', r, hst⟩ := this
        cases r with
        | go fl' => exact ⟨_, _, .flush _ _ _ _ _ _ hp hst⟩
        | done => exact ⟨_, _, .flushDone _ _ _ _ _ hp hst⟩
        | failed => exact ⟨_, _, .flushFail _ _ _ _ _ hp hst⟩
      | close k id =>
        cases id with
        | some i => exact ⟨_, _, .closeSend _ _ _ _ hp⟩
        | none =>
          cases hc : s.sh.current with
          | none => exact ⟨_, _, .closeNone _ _ _ hp hc⟩
          | some i => exact ⟨_, _, .closeRead _ _ _ _ hp hc⟩
      | log p =>
        cases hc : s.sh.current with
        | none => exact ⟨_, _, .logNone _ _ _ hp hc⟩
        | some i => exact ⟨_, _, .log _ _ _ _ hp hc⟩
      | enq p => exact ⟨_, _, .enq _ _ _ hp (hfree (by simp [hp]))⟩
      | fin0 => exact ⟨_, _, .clearWorker _ _ hp⟩
      | fin1 => exact ⟨_, _, .signal _ _ hp⟩
      | fin2 => exact ⟨_, _, .release _ _ hp⟩

/-- The state after submission 7 has been graded and its thread has ended. -/
private theorem demo19 :
    ∃ s, Reachable (fun _ => false) WorkerBye s ∧ s.grs = [] ∧ s.net = .idle ∧
      s.finished.length = 1 ∧ s.sh.queue = [] := by
  obtain ⟨s, hr, e1, e2, e3, e4, e5, e6, e7, e8⟩ := demo17 (fun _ => false) WorkerBye (fun _ => rfl)
  obtain ⟨sh, net, fl, grs, next, finished⟩ := s
  obtain ⟨hist, queue, qlock, glock, current, ready⟩ := sh
  simp only at e1 e2 e3 e4 e5 e6 e7 e8
  subst e1 e2 e3 e4 e5 e6 e7 e8
  have h1 := Reachable.step hr (.grader _ [] _ [] _ _ rfl
    (.bye _ _ rfl ⟨rfl, .gradingEnd, by simp, rfl⟩))
  have h2 := Reachable.step h1 (.grader _ [] _ [] _ _ rfl (.clearWorker _ _ rfl))
  have h3 := Reachable.step h2 (.grader _ [] _ [] _ _ rfl (.signal _ _ rfl))
  have h4 := Reachable.step h3 (.graderEnd _ [] _ [] _ rfl (.release _ _ rfl))
  exact ⟨_, h4, rfl, rfl, rfl, rfl⟩

example : ∃ s, Reachable (fun _ => false) WorkerBye s ∧ s.grs = [] ∧
    (∀ sid, s.net ≠ .create sid ∧ s.net ≠ .start sid) ∧ s.finished.length = 1 := by
  obtain ⟨s, hr, h1, h2, h3, _⟩ := demo19
  exact ⟨s, hr, h1, by simp [h2], h3⟩

/-- The worker of this grading thread has reported in, or the grading is over. -/
private def Started (g : Gr) : Prop := .hello ∈ g.got ∨ g.pc = .fin2

private theorem fl_ready {bad t h fl h' r} (st : FlStep bad t h fl h' r) : h'.ready = h.ready := by
  cases st <;> rfl

private theorem handle_ready (g : Gr) (m : Msg) :
    (.hello ∈ g.got → .hello ∈ (g.handle m).got) ∧ ((g.handle m).pc = .ready → .hello ∈ (g.handle m).got) := by
  obtain ⟨t, s, pc, mode, got, sent⟩ := g
  cases m <;> cases mode <;> simp [Gr.handle, Gr.fail]

private theorem ok_ready (g : Gr) : g.ok.got = g.got ∧ g.ok.pc ≠ .ready := by
  unfold Gr.ok; split <;> simp

private theorem fail_ready (g : Gr) : g.fail.got = g.got ∧ g.fail.pc ≠ .ready := by
  unfold Gr.fail; split <;> simp

/-- Effect of a grading thread's transition on the ready signal. -/
private theorem gr_ready {bad bye h g h' g'} (st : GrStep bad bye h g h' (some g'))
    (hr : g.pc = .ready → .hello ∈ g.got) :
    (g'.pc = .ready → .hello ∈ g'.got) ∧ (Started g → Started g') ∧
    (h'.ready = true → h.ready = true ∨ Started g') := by
  cases st with
  | recv m hp =>
    exact ⟨(handle_ready g m).2, fun h => .inl ((handle_ready g m).1 (h.resolve_right (by simp [hp]))), .inl⟩
  | bye hp hb => exact ⟨by simp, fun h => .inl (h.resolve_right (by simp [hp])), .inl⟩
  | crash hp =>
    have := fail_ready g
    exact ⟨fun h => absurd h this.2, fun h => .inl (this.1 ▸ h.resolve_right (by simp [hp])), .inl⟩
  | ready hp =>
    have := ok_ready g
    exact ⟨fun h => absurd h this.2, fun _ => .inl (this.1 ▸ hr hp), fun _ => .inr (.inl (this.1 ▸ hr hp))⟩
  | plainNone k hp hc =>
    have := fail_ready g
    exact ⟨fun h => absurd h this.2, fun h => .inl (this.1 ▸ h.resolve_right (by simp [hp])), .inl⟩
  | plainRead k sid hp hc => exact ⟨by simp, fun h => .inl (h.resolve_right (by simp [hp])), .inl⟩
  | plainSend k sid hp =>
    have := ok_ready { g with sent := g.sent ++ [k] }
    refine ⟨fun h => absurd h this.2, fun h => .inl ?_, .inl⟩
    rw [this.1]
    exact h.resolve_right (by simp [hp])
  | flush k fl _ fl' hp hf =>
    exact ⟨by simp, fun h => .inl (h.resolve_right (by simp [hp])), fun h => .inl (fl_ready hf ▸ h)⟩
  | flushDone k fl _ hp hf =>
    exact ⟨by simp, fun h => .inl (h.resolve_right (by simp [hp])), fun h => .inl (fl_ready hf ▸ h)⟩
  | flushFail k fl _ hp hf =>
    have := fail_ready g
    exact ⟨fun h => absurd h this.2, fun h => .inl (this.1 ▸ h.resolve_right (by simp [hp])),
      fun h => .inl (fl_ready hf ▸ h)⟩
  | closeNone k hp hc =>
    have := fail_ready g
    exact ⟨fun h => absurd h this.2, fun h => .inl (this.1 ▸ h.resolve_right (by simp [hp])), .inl⟩
  | closeRead k sid hp hc => exact ⟨by simp, fun h => .inl (h.resolve_right (by simp [hp])), .inl⟩
  | closeSend k sid hp =>
    have := ok_ready { g with sent := g.sent ++ [k] }
    refine ⟨fun h => absurd h this.2, fun h => .inl ?_, .inl⟩
    rw [this.1]
    exact h.resolve_right (by simp [hp])
  | logNone p hp hc =>
    have := fail_ready g
    exact ⟨fun h => absurd h this.2, fun h => .inl (this.1 ▸ h.resolve_right (by simp [hp])), .inl⟩
  | log p sid hp hc => exact ⟨by simp, fun h => .inl (h.resolve_right (by simp [hp])), .inl⟩
  | enq p hp hl =>
    have := ok_ready g
    exact ⟨fun h => absurd h this.2, fun h => .inl (this.1 ▸ h.resolve_right (by simp [hp])), .inl⟩
  | clearWorker hp => exact ⟨by simp, fun h => .inl (h.resolve_right (by simp [hp])), .inl⟩
  | signal hp => exact ⟨by simp, fun _ => .inr rfl, fun _ => .inr (.inr rfl)⟩

/-- C19.  `begin_grading` returns (the network thread goes on to other messages) only when the worker
has reported in or its grading is over. -/
theorem C19_started (bad : Case → Bool) (bye : List Msg → Prop) (s : S) (h : Reachable bad bye s)
    (hn : s.net = .idle) : ∀ g ∈ s.grs, .hello ∈ g.got ∨ g.pc = .fin2 := by
  suffices key : (∀ g ∈ s.grs, g.pc = .ready → .hello ∈ g.got) ∧
      (s.sh.ready = true → ∀ g ∈ s.grs, Started g) ∧ (s.net ≠ .wait → ∀ g ∈ s.grs, Started g) ∧
      (∀ sid, s.net = .start sid → s.sh.ready = false) from key.2.2.1 (by simp [hn])
  clear hn
  induction h with
  | init => simp [Judge.init]
  | step hr st ih =>
    rename_i s s'
    obtain ⟨i1, i2, i3, i4⟩ := ih
    have one := C19_one bad bye s hr
    cases st with
    | request sid hn => exact ⟨i1, i2, fun _ => i3 (by simp [hn]), by simp⟩
    | acquire sid hn hl => exact ⟨i1, i2, fun _ => i3 (by simp [hn]), by simp⟩
    | create sid hn => exact ⟨i1, by simp, fun _ => i3 (by simp [hn]), by simp⟩
    | start sid hn =>
      refine ⟨?_, by simp [i4 sid hn], by simp, by simp⟩
      intro g hg
      rcases List.mem_append.1 hg with hg | hg
      · exact i1 g hg
      · simp only [List.mem_singleton] at hg; subst hg; simp
    | wait hn hr => exact ⟨i1, i2, fun _ => i2 hr, by simp⟩
    | other => exact ⟨i1, i2, i3, i4⟩
    | flushStart hf => exact ⟨i1, i2, i3, i4⟩
    | flush fl _ fl' hf hs =>
      have := fl_ready hs
      exact ⟨i1, fun h => i2 (this ▸ h), i3, fun sid hn => this ▸ i4 sid hn⟩
    | flushEnd fl _ r hf hs hr' =>
      have := fl_ready hs
      exact ⟨i1, fun h => i2 (this ▸ h), i3, fun sid hn => this ▸ i4 sid hn⟩
    | grader pre g post h' g' hg hs =>
      have hlen := one.1
      obtain ⟨rfl, rfl⟩ : pre = [] ∧ post = [] := by
        rw [hg] at hlen
        simp only [List.length_append, List.length_cons] at hlen
        exact ⟨List.length_eq_zero_iff.1 (by omega), List.length_eq_zero_iff.1 (by omega)⟩
      simp only [List.nil_append] at hg
      have e := gr_ready hs (i1 g (by simp [hg]))
      have hst : ∀ sid, s.net ≠ .start sid := by
        intro sid hn
        obtain ⟨og, hi⟩ := Inv_reachable (byeOk := bye) False (by simp) hr
        have hsl := hi.slot
        cases og with
        | none => simp [hsl.1] at hg
        | some g => obtain ⟨-, -, -, -, s3⟩ := hsl; simp [hn] at s3
      refine ⟨by simpa using e.1, ?_, ?_, fun sid hn => absurd hn (hst sid)⟩
      · intro h
        rcases e.2.2 h with h | h
        · simpa using e.2.1 (i2 h g (by simp [hg]))
        · simpa using h
      · intro hn; simpa using e.2.1 (i3 hn g (by simp [hg]))
    | graderEnd pre g post h' hg hs =>
      have hlen := one.1
      obtain ⟨rfl, rfl⟩ : pre = [] ∧ post = [] := by
        rw [hg] at hlen
        simp only [List.length_append, List.length_cons] at hlen
        exact ⟨List.length_eq_zero_iff.1 (by omega), List.length_eq_zero_iff.1 (by omega)⟩
      refine ⟨by simp, by simp, by simp, ?_⟩
      cases hs with
      | release hp => exact i4

/-- Non-vacuity: a judge that has begun a grading, whose worker has reported in, is idle again. -/
example : ∃ s, Reachable (fun _ => false) (fun _ => True) s ∧ s.net = .idle ∧ s.grs.length = 1 := by
  refine ⟨_, .step (.step (.step (.step (.step (.step (.step .init (.request _ 5 rfl))
    (.acquire _ 5 rfl rfl)) (.create _ 5 rfl)) (.start _ 5 rfl))
    (.grader _ [] _ [] _ _ rfl (.recv _ _ .hello rfl)))
    (.grader _ [] _ [] _ _ rfl (.ready _ _ rfl))) (.wait _ rfl rfl), by exact ⟨rfl, rfl⟩⟩

/-! ## C20 -/

/-- The packets a grading thread counts as sent are on the wire. -/
private def OnWire (s : S) : Prop :=
  ∀ g, g ∈ s.grs ∨ g ∈ s.finished → ∀ k ∈ g.sent, ∃ sid, Ev.say k sid g.sid ∈ s.sh.hist

private theorem hist_flush {bad t h fl h' r} (st : FlStep bad t h fl h' r) :
    ∃ e, h'.hist = h.hist ++ e := by
  cases st with
  | send sid cs hb => exact ⟨_, rfl⟩
  | _ => exact ⟨[], by simp⟩

private theorem ok_sent (g : Gr) : g.ok.sent = g.sent ∧ g.ok.sid = g.sid := by
  unfold Gr.ok; split <;> exact ⟨rfl, rfl⟩

private theorem fail_sent (g : Gr) : g.fail.sent = g.sent ∧ g.fail.sid = g.sid := by
  unfold Gr.fail; split <;> exact ⟨rfl, rfl⟩

private theorem handle_sent (g : Gr) (m : Msg) :
    (g.handle m).sent = g.sent ∧ (g.handle m).sid = g.sid := by
  cases m <;> first | exact fail_sent _ | exact ⟨rfl, rfl⟩

private theorem hist_grader {bad bye h g h' og} (st : GrStep bad bye h g h' og) :
    ∃ e, h'.hist = h.hist ++ e ∧ ∀ g', og = some g' → g'.sid = g.sid ∧
      ∀ k ∈ g'.sent, k ∈ g.sent ∨ ∃ sid, Ev.say k sid g.sid ∈ e := by
  have same : ∀ g' : Gr, (g'.sent = g.sent ∧ g'.sid = g.sid) → ∀ (e : List Ev), ∀ x, some g' = some x →
      x.sid = g.sid ∧ ∀ k ∈ x.sent, k ∈ g.sent ∨ ∃ sid, Ev.say k sid g.sid ∈ e := by
    rintro g' ⟨h1, h2⟩ e x hx
    cases hx
    exact ⟨h2, fun k hk => .inl (h1 ▸ hk)⟩
  cases st with
  | recv m hp => exact ⟨[], by simp, same _ (handle_sent g m) _⟩
  | bye hp hb => exact ⟨[], by simp, same _ (by exact ⟨rfl, rfl⟩) _⟩
  | crash hp => exact ⟨[], by simp, same _ (fail_sent g) _⟩
  | ready hp => exact ⟨[], by simp, same _ (ok_sent g) _⟩
  | plainNone k hp hc => exact ⟨[], by simp, same _ (fail_sent g) _⟩
  | plainRead k sid hp hc => exact ⟨[], by simp, same _ (by exact ⟨rfl, rfl⟩) _⟩
  | plainSend k sid hp =>
    refine ⟨_, rfl, ?_⟩
    rintro x hx
    cases hx
    rw [(ok_sent _).1, (ok_sent _).2]
    refine ⟨rfl, fun k' hk' => ?_⟩
    rcases List.mem_append.1 hk' with h | h
    · exact .inl h
    · exact .inr ⟨sid, by simp [List.mem_singleton.1 h]⟩
  | flush k fl _ fl' hp hf =>
    obtain ⟨e, he⟩ := hist_flush hf
    exact ⟨e, he, same _ (by exact ⟨rfl, rfl⟩) _⟩
  | flushDone k fl _ hp hf =>
    obtain ⟨e, he⟩ := hist_flush hf
    exact ⟨e, he, same _ (by exact ⟨rfl, rfl⟩) _⟩
  | flushFail k fl _ hp hf =>
    obtain ⟨e, he⟩ := hist_flush hf
    exact ⟨e, he, same _ (fail_sent g) _⟩
  | closeNone k hp hc => exact ⟨[], by simp, same _ (fail_sent g) _⟩
  | closeRead k sid hp hc => exact ⟨[], by simp, same _ (by exact ⟨rfl, rfl⟩) _⟩
  | closeSend k sid hp =>
    refine ⟨_, rfl, ?_⟩
    rintro x hx
    cases hx
    rw [(ok_sent _).1, (ok_sent _).2]
    refine ⟨rfl, fun k' hk' => ?_⟩
    rcases List.mem_append.1 hk' with h | h
    · exact .inl h
    · exact .inr ⟨sid, by simp [List.mem_singleton.1 h]⟩
  | logNone p hp hc => exact ⟨[], by simp, same _ (fail_sent g) _⟩
  | log p sid hp hc => exact ⟨[], by simp, same _ (by exact ⟨rfl, rfl⟩) _⟩
  | enq p hp hl => exact ⟨_, rfl, same _ (ok_sent g) _⟩
  | clearWorker hp => exact ⟨[], by simp, same _ (by exact ⟨rfl, rfl⟩) _⟩
  | signal hp => exact ⟨[], by simp, same _ (by exact ⟨rfl, rfl⟩) _⟩
  | release hp => exact ⟨[], by simp, by simp⟩

private theorem onWire {bad bye s} (h : Reachable bad bye s) : OnWire s := by
  have ext : ∀ (h h' : List Ev) (e) , h' = h ++ e → ∀ k b, (∃ sid, Ev.say k sid b ∈ h) →
      ∃ sid, Ev.say k sid b ∈ h' := by
    rintro h h' e rfl k b ⟨sid, hm⟩
    exact ⟨sid, by simp [hm]⟩
  induction h with
  | init => intro g hg; simp [init] at hg
  | @step s s' _ st ih =>
    cases st with
    | request sid hn => exact fun g hg k hk => ext _ _ _ rfl _ _ (ih g hg k hk)
    | acquire sid hn hl => exact ih
    | create sid hn => exact ih
    | start sid hn =>
      intro g hg k hk
      rcases hg with hg | hg
      · rcases List.mem_append.1 hg with hg | hg
        · exact ih g (.inl hg) k hk
        · rw [List.mem_singleton.1 hg] at hk; simp at hk
      · exact ih g (.inr hg) k hk
    | wait hn hr => exact ih
    | other => exact fun g hg k hk => ext _ _ _ rfl _ _ (ih g hg k hk)
    | flushStart hf => exact ih
    | flush fl h' fl' hf hs =>
      obtain ⟨e, he⟩ := hist_flush hs
      exact fun g hg k hk => ext _ _ _ he _ _ (ih g hg k hk)
    | flushEnd fl h' r hf hs hr =>
      obtain ⟨e, he⟩ := hist_flush hs
      exact fun g hg k hk => ext _ _ _ he _ _ (ih g hg k hk)
    | grader pre g post h' g' hg hs =>
      obtain ⟨e, he, hgr⟩ := hist_grader hs
      obtain ⟨hsid, hse⟩ := hgr g' rfl
      have hgm := ih g (.inl (by simp [hg]))
      intro x hx k hk
      have hx : x = g' ∨ ((x ∈ pre ∨ x ∈ post) ∨ x ∈ s.finished) := by
        rcases hx with hx | hx
        · simp at hx; tauto
        · exact .inr (.inr hx)
      rcases hx with rfl | hx
      · rcases hse k hk with h | ⟨sid, h⟩
        · rw [hsid]; exact ext _ _ _ he _ _ (hgm k h)
        · exact ⟨sid, by rw [hsid]; simp [he, h]⟩
      · refine ext _ _ _ he _ _ (ih x ?_ k hk)
        rcases hx with (hx | hx) | hx
        · left; simp [hg, hx]
        · left; simp [hg, hx]
        · exact .inr hx
    | graderEnd pre g post h' hg hs =>
      obtain ⟨e, he, -⟩ := hist_grader hs
      intro x hx k hk
      refine ext _ _ _ he _ _ (ih x ?_ k hk)
      rcases hx with hx | hx
      · left
        rw [hg]
        rcases List.mem_append.1 hx with hx | hx <;> simp [hx]
      · rcases List.mem_append.1 hx with hx | hx
        · exact .inr hx
        · left; rw [hg, List.mem_singleton.1 hx]; simp

/-- C20.  For every worker that follows its protocol but may crash, hang or send garbage at any
time: if results can be serialised, then each finished submission got a terminal packet
(compile-error, grading-end, submission-terminated or internal-error) with its own id. -/
theorem C20_terminal (bad : Case → Bool) (hb : ∀ c, bad c = false) (s : S)
    (h : Reachable bad WorkerBye s) (g : Gr) (hg : g ∈ s.finished) :
    ∃ k, k.terminal = true ∧ Ev.say k g.sid g.sid ∈ s.sh.hist := by
  obtain ⟨og, hi⟩ := Inv_reachable (byeOk := WorkerBye) True (fun _ _ h => h) h
  rcases hi.fin trivial g hg with ⟨k, hk, ht⟩ | ⟨c, _, hc⟩
  · obtain ⟨sid, hm⟩ := onWire h g (.inr hg) k hk
    obtain rfl := hi.hist.ids _ _ _ hm
    exact ⟨k, ht, hm⟩
  · simp [hb] at hc

/-- C20.  Exactly one terminal packet is not guaranteed: a worker that dies after reporting the end
of grading and before saying BYE yields both a grading-end and an internal-error packet. -/
theorem C20_exactly_one_fails : ∃ s, Reachable (fun _ => false) WorkerBye s ∧
    ∃ g ∈ s.finished, g.sent = [.gradingEnd, .internalError] ∧
      Ev.say .gradingEnd 7 7 ∈ s.sh.hist ∧ Ev.say .internalError 7 7 ∈ s.sh.hist := by
  obtain ⟨s, hr, e1, e2, e3, e4, e5, e6, e7, e8⟩ := demo17 (fun _ => false) WorkerBye (fun _ => rfl)
  obtain ⟨sh, net, fl, grs, next, finished⟩ := s
  obtain ⟨hist, queue, qlock, glock, current, ready⟩ := sh
  simp only at e1 e2 e3 e4 e5 e6 e7 e8
  subst e1 e2 e3 e4 e5 e6 e7 e8
  have h1 := Reachable.step hr (.grader _ [] _ [] _ _ rfl (.crash _ _ rfl))
  have h2 := Reachable.step h1 (.grader _ [] _ [] _ _ rfl (.flush _ _ _ _ _ _ rfl (.acq _ rfl)))
  have h3 := Reachable.step h2 (.grader _ [] _ [] _ _ rfl (.flushDone _ _ _ _ _ rfl (.empty _ rfl)))
  have h4 := Reachable.step h3 (.grader _ [] _ [] _ _ rfl (.closeRead _ _ _ 7 rfl rfl))
  have h5 := Reachable.step h4 (.grader _ [] _ [] _ _ rfl (.closeSend _ _ _ 7 rfl))
  have h6 := Reachable.step h5 (.grader _ [] _ [] _ _ rfl (.clearWorker _ _ rfl))
  have h7 := Reachable.step h6 (.grader _ [] _ [] _ _ rfl (.signal _ _ rfl))
  have h8 := Reachable.step h7 (.graderEnd _ [] _ [] _ rfl (.release _ _ rfl))
  exact ⟨_, h8, _, List.mem_singleton.2 rfl, rfl,
    by simp, List.mem_append_right _ (List.mem_singleton.2 rfl)⟩

/-- C20.  A result that cannot be serialised leaves its submission without any terminal packet: the
flush fails, and so does the flush of the internal-error packet meant to report it. -/
theorem C20_unserialisable_fails : ∃ s, Reachable (fun c => c.pos == 2) WorkerBye s ∧
    ∃ g ∈ s.finished, g.sid = 7 ∧ g.sent = [] ∧ s.sh.queue ≠ [] := by
  obtain ⟨s, hr, e1, e2, e3, e4, e5, e6, e7, e8⟩ := demo16 (fun c => c.pos == 2) WorkerBye rfl
  obtain ⟨sh, net, fl, grs, next, finished⟩ := s
  obtain ⟨hist, queue, qlock, glock, current, ready⟩ := sh
  simp only at e1 e2 e3 e4 e5 e6 e7 e8
  subst e1 e2 e3 e4 e5 e6 e7 e8
  have h1 := Reachable.step hr (.grader _ [] _ [] _ _ rfl (.recv _ _ .gradingEnd rfl))
  have h2 := Reachable.step h1 (.grader _ [] _ [] _ _ rfl (.flush _ _ _ _ _ _ rfl (.acq _ rfl)))
  have h3 := Reachable.step h2 (.grader _ [] _ [] _ _ rfl (.flush _ _ _ _ _ _ rfl (.nonempty _ (by simp))))
  have h4 := Reachable.step h3 (.grader _ [] _ [] _ _ rfl (.flush _ _ _ _ _ _ rfl (.build _ 7 rfl)))
  have h5 := Reachable.step h4 (.grader _ [] _ [] _ _ rfl
    (.flushFail _ _ _ _ _ rfl (.unserialisable _ 7 _ rfl)))
  have h6 := Reachable.step h5 (.grader _ [] _ [] _ _ rfl (.flush _ _ _ _ _ _ rfl (.acq _ rfl)))
  have h7 := Reachable.step h6 (.grader _ [] _ [] _ _ rfl (.flush _ _ _ _ _ _ rfl (.nonempty _ (by simp))))
  have h8 := Reachable.step h7 (.grader _ [] _ [] _ _ rfl (.flush _ _ _ _ _ _ rfl (.build _ 7 rfl)))
  have h9 := Reachable.step h8 (.grader _ [] _ [] _ _ rfl
    (.flushFail _ _ _ _ _ rfl (.unserialisable _ 7 _ rfl)))
  have h10 := Reachable.step h9 (.grader _ [] _ [] _ _ rfl (.clearWorker _ _ rfl))
  have h11 := Reachable.step h10 (.grader _ [] _ [] _ _ rfl (.signal _ _ rfl))
  have h12 := Reachable.step h11 (.graderEnd _ [] _ [] _ rfl (.release _ _ rfl))
  exact ⟨_, h12, _, List.mem_singleton.2 rfl, rfl, rfl, by simp⟩

example : ∃ s, Reachable (fun _ => false) WorkerBye s ∧ s.finished.length = 1 := by
  obtain ⟨s, hr, _, _, h, _⟩ := demo19
  exact ⟨s, hr, h⟩

end Verif.Props
