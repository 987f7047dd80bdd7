import Verif.Spec.Site
import Verif.Lemmas.Judge
import Verif.Lemmas.Worker

/-!
# What the site is told: lemmas
-/

namespace Verif.Site
open Verif Judge

/-! ## The shape of what a worker says -/

/-- Messages before the first case. -/
def Opening : Msg → Prop
  | .hello | .compileMessage | .gradingBegin => True
  | _ => False

/-- Messages of the grading loop. -/
def Middle : Msg → Prop
  | .batchBegin | .batchEnd | .result _ => True
  | _ => False

theorem sends_append (a b : List Worker.Act) : sends (a ++ b) = sends a ++ sends b := by
  induction a with
  | nil => rfl
  | cons x a ih => cases x <;> simp [sends, ih]

/-- How a loop adds to what was done. -/
def LoopI (acts : List Worker.Act) : Worker.Ctl → Prop
  | .next s => ∃ l, s.acts = acts ++ l ∧ ∀ m ∈ sends l, Middle m
  | .stop a => ∃ l n, (∀ m ∈ sends l, Middle m) ∧
      (a = acts ++ l ++ [.exec n] ∨ a = acts ++ l ++ [.exec n, .send .gradingAborted])

theorem LoopI_trans {acts l : List Worker.Act} {c : Worker.Ctl} (hl : ∀ m ∈ sends l, Middle m) (h : LoopI (acts ++ l) c) :
    LoopI acts c := by
  cases c with
  | next s =>
    obtain ⟨l', e, h'⟩ := h
    refine ⟨l ++ l', by rw [e, List.append_assoc], ?_⟩
    intro m hm
    rw [sends_append, List.mem_append] at hm
    exact hm.elim (hl m) (h' m)
  | stop a =>
    obtain ⟨l', n, h', e⟩ := h
    refine ⟨l ++ l', n, ?_, ?_⟩
    · intro m hm
      rw [sends_append, List.mem_append] at hm
      exact hm.elim (hl m) (h' m)
    · simpa only [List.append_assoc] using e

theorem caseLoop_I (w : Worker.World) (bn : Option Nat) (cs : List Worker.TestCase) (s : Worker.St) :
    LoopI s.acts (Worker.caseLoop w bn cs s) := by
  induction cs generalizing s with
  | nil => exact ⟨[], by simp, by simp [sends]⟩
  | cons c cs ih =>
    rw [Worker.caseLoop]
    split
    · exact LoopI_trans (l := [.send (.result bn (s.caseNo + 1) ⟨Result.SC, 0⟩)]) (by simp [sends, toMsg, Middle]) (ih _)
    · split
      · exact ⟨[], s.caseNo + 1, by simp [sends], by simp⟩
      · rename_i r _
        split
        · exact ⟨[], s.caseNo + 1, by simp [sends], by simp⟩
        · exact LoopI_trans (l := [.exec (s.caseNo + 1), .send (.result bn (s.caseNo + 1) r)]) (by simp [sends, toMsg, Middle]) (ih _)

theorem groupLoop_I (w : Worker.World) (gs : List (Option Nat × List Worker.TestCase)) (s : Worker.St) :
    LoopI s.acts (Worker.groupLoop w gs s) := by
  induction gs generalizing s with
  | nil => exact ⟨[], by simp, by simp [sends]⟩
  | cons g gs ih =>
    obtain ⟨bn, cs⟩ := g
    rw [Worker.groupLoop]
    have h1 : ∃ l, (∀ m ∈ sends l, Middle m) ∧
        (if Worker.truthy bn then { s with acts := s.acts ++ [.send (.batchBegin (bn.getD 0))] } else s).acts = s.acts ++ l := by
      split
      · exact ⟨_, by simp [sends, toMsg, Middle], rfl⟩
      · exact ⟨[], by simp [sends], by simp⟩
    obtain ⟨l, hl, e⟩ := h1
    have h2 := caseLoop_I w bn cs (if Worker.truthy bn then { s with acts := s.acts ++ [.send (.batchBegin (bn.getD 0))] } else s)
    rw [e] at h2
    have h3 := LoopI_trans hl h2
    dsimp only
    split
    · rename_i a h4
      rw [h4] at h3; exact h3
    · rename_i s2 h4
      rw [h4] at h3
      obtain ⟨l2, e2, hl2⟩ := h3
      have h5 := ih (if Worker.truthy bn then
          { s2 with acts := s2.acts ++ [.send (.batchEnd (bn.getD 0))], sc := s2.sc && s2.enabled } else s2)
      refine LoopI_trans hl2 ?_
      rw [← e2]
      split at h5
      · rename_i ht
        rw [if_pos ht]
        exact LoopI_trans (l := [.send (.batchEnd (bn.getD 0))]) (by simp [sends, toMsg, Middle]) h5
      · rename_i ht
        rw [if_neg ht]; exact h5

/-- What a worker says: an opening, what happens in the grading loop, and one last message. -/
theorem msgs_shape (r : WorkerRun) : ∃ o l t, workerMsgs r = o ++ l ++ [t] ∧ (∀ m ∈ o, Opening m) ∧ (∀ m ∈ l, Middle m) ∧
    t.terminal = true ∧ (t = .compileError → l = []) := by
  cases r with
  | failedEarly => exact ⟨[.hello], [], .unhandled, rfl, by simp [Opening], by simp, rfl, by simp⟩
  | badCases warning pretested =>
    cases warning
    · exact ⟨[.hello, .gradingBegin], [], .unhandled, rfl, by simp [Opening], by simp, rfl, by simp⟩
    · exact ⟨[.hello, .compileMessage, .gradingBegin], [], .unhandled, rfl, by simp [Opening], by simp, rfl, by simp⟩
  | graded w sc b =>
    cases b with
    | compileError => exact ⟨[.hello], [], .compileError, rfl, by simp [Opening], by simp, rfl, by simp⟩
    | ok warning pretested items =>
      generalize ha : (if warning then [Worker.Act.send .compileMessage] else []) ++ [Worker.Act.send (.gradingBegin pretested)] = acts
      have h0 : ∀ m ∈ Msg.hello :: sends acts, Opening m := by
        rw [← ha]; cases warning <;> simp [sends, toMsg, Opening]
      have h := groupLoop_I w (Worker.groupBy (Worker.flatten 0 items)) ⟨acts, 0, false, sc⟩
      rw [workerMsgs, Worker.gradeCases]
      rw [ha]
      cases hc : Worker.groupLoop w (Worker.groupBy (Worker.flatten 0 items)) ⟨acts, 0, false, sc⟩ with
      | next s =>
        rw [hc] at h
        obtain ⟨l, e, hl⟩ := h
        dsimp only at e ⊢
        refine ⟨.hello :: sends acts, sends l, .gradingEnd, ?_, h0, hl, rfl, by simp⟩
        rw [if_neg (by simp [raised]), e]
        simp [sends_append, sends, toMsg]
      | stop a =>
        rw [hc] at h
        obtain ⟨l, n, hl, rfl | rfl⟩ := h
        · refine ⟨.hello :: sends acts, sends l, .unhandled, ?_, h0, hl, rfl, by simp⟩
          dsimp only
          rw [if_pos (by simp [raised])]
          simp [sends_append, sends]
        · refine ⟨.hello :: sends acts, sends l, .gradingAborted, ?_, h0, hl, rfl, by simp⟩
          dsimp only
          rw [if_neg (by simp [raised])]
          simp [sends_append, sends, toMsg]

/-- Messages passed on at once. -/
def Plain : Msg → Prop
  | .compileError | .compileMessage | .gradingBegin => True
  | _ => False

theorem openResults_opening (l : List Msg) (h : ∀ m ∈ l, Opening m) : openResults l = false := by
  unfold openResults
  induction l with
  | nil => rfl
  | cons m l ih =>
    have h1 := h m (by simp)
    have h2 : openAfter false m = false := by cases m <;> simp_all [Opening, openAfter]
    rw [List.foldl_cons, h2]
    exact ih (fun x hx => h x (by simp [hx]))

/-- No message that is passed on at once comes while results may be waiting. -/
theorem plain_closed (r : WorkerRun) (pre : List Msg) (m : Msg) (h : pre ++ [m] <+: workerMsgs r) (hm : Plain m) :
    openResults pre = false := by
  obtain ⟨o, l, t, e, ho, hl, ht, hce⟩ := msgs_shape r
  rw [e] at h
  apply openResults_opening
  intro x hx
  obtain ⟨post, hp⟩ := h
  have hlen := congrArg List.length hp
  simp only [List.length_append, List.length_singleton] at hlen
  have hget : (o ++ l ++ [t])[pre.length]? = some m := by rw [← hp]; simp
  obtain ⟨i, hi, rfl⟩ := List.getElem_of_mem hx
  have hpre : (o ++ l ++ [t])[i]? = some pre[i] := by
    rw [← hp, List.append_assoc, List.getElem?_append_left hi, List.getElem?_eq_getElem hi]
  by_cases h1 : pre.length < o.length
  · rw [List.append_assoc, List.getElem?_append_left (by omega)] at hpre
    exact ho _ (List.mem_of_getElem? hpre)
  · by_cases h2 : pre.length < o.length + l.length
    · rw [List.append_assoc, List.getElem?_append_right (by omega), List.getElem?_append_left (by omega)] at hget
      have := hl _ (List.mem_of_getElem? hget)
      cases m <;> simp_all [Middle, Plain]
    · rw [List.getElem?_append_right (by simp; omega)] at hget
      have h3 : t = m := by
        have := List.mem_of_getElem? hget
        exact (List.mem_singleton.1 this).symm
      subst h3
      have : t = .compileError := by cases t <;> simp_all [Plain, Msg.terminal]
      have hnil := hce this
      subst hnil
      simp only [List.append_nil] at hpre
      simp only [List.length_nil] at h2 hlen
      rw [List.getElem?_append_left (by omega)] at hpre
      exact ho _ (List.mem_of_getElem? hpre)

/-- A worker says nothing after its last message. -/
theorem msgs_prefix (r r' : WorkerRun) (h : workerMsgs r <+: workerMsgs r') : workerMsgs r = workerMsgs r' := by
  obtain ⟨o, l, t, e, ho, hl, ht, -⟩ := msgs_shape r
  obtain ⟨o', l', t', e', ho', hl', ht', -⟩ := msgs_shape r'
  obtain ⟨post, hp⟩ := h
  rcases List.eq_nil_or_concat post with rfl | ⟨q, x, rfl⟩
  · simpa using hp
  · exfalso
    rw [e, e'] at hp
    simp only [List.concat_eq_append] at hp
    rw [← List.append_assoc] at hp
    have h1 := (List.append_inj' hp rfl).1
    have h2 : t ∈ o' ++ l' := by rw [← h1]; simp
    rcases List.mem_append.1 h2 with h2 | h2
    · have := ho' t h2; cases t <;> simp_all [Opening, Msg.terminal]
    · have := hl' t h2; cases t <;> simp_all [Middle, Msg.terminal]

theorem no_garbage (r : WorkerRun) : .garbage ∉ workerMsgs r := by
  obtain ⟨o, l, t, e, ho, hl, ht, -⟩ := msgs_shape r
  rw [e]
  intro h
  simp only [List.mem_append, List.mem_singleton] at h
  rcases h with (h | h) | h
  · exact ho _ h
  · exact hl _ h
  · subst h; simp [Msg.terminal] at ht

/-! ## What is on its way -/

@[simp] theorem received_append (a b : List Ev) : received (a ++ b) = received a ++ received b := by
  induction a with
  | nil => rfl
  | cons e a ih => cases e <;> simp [received, ih]

@[simp] theorem requested_append (a b : List Ev) : requested (a ++ b) = requested a ++ requested b := by
  induction a with
  | nil => rfl
  | cons e a ih => cases e <;> simp [requested, ih]

@[simp] theorem told_append (sid : Nat) (a b : List Msg) : told sid (a ++ b) = told sid a ++ told sid b := by simp [told]

@[simp] theorem told_one (sid : Nat) (m : Msg) : told sid [m] = tell sid m := by simp [told]

/-- What the site has learnt and what is queued for it. -/
def flow (h : List Ev) : List Item :=
  received h ++ ((enqueued h).drop (transmitted h).length).map (fun c => .result c.owner c.pos)

theorem flow_done {h : List Ev} (e : enqueued h = transmitted h) : flow h = received h := by simp [flow, e]

theorem flow_book {h : Sh} (e : Book h) : flow h.hist = received h.hist ++ h.queue.map (fun c => .result c.owner c.pos) := by
  rw [flow, e, List.drop_left]

theorem flow_status {h : Sh} (e : Book h) (sid : Nat) (ho : ∀ c ∈ h.queue, c.owner = sid) :
    flow (h.hist ++ [.status sid h.queue]) = flow h.hist := by
  have h1 : enqueued (h.hist ++ [.status sid h.queue]) = transmitted (h.hist ++ [.status sid h.queue]) := by
    have := e
    simpa [enqueued, transmitted, Book] using this
  rw [flow_done h1, flow_book e]
  simp only [received_append, received, List.append_nil, List.append_cancel_left_eq]
  exact List.map_congr_left fun c hc => by rw [ho c hc]

theorem flow_say {h : List Ev} (e : enqueued h = transmitted h) (k : Kind) (sid b : Nat) :
    flow (h ++ [.say k sid b]) = flow h ++ [.packet k sid] := by
  rw [flow_done e, flow_done (by simpa [enqueued, transmitted] using e)]
  simp [received]

theorem flow_enq {h : List Ev} (e : transmitted h <+: enqueued h) (c : Case) :
    flow (h ++ [.enq c]) = flow h ++ [.result c.owner c.pos] := by
  obtain ⟨q, hq⟩ := e
  have h1 : enqueued (h ++ [.enq c]) = transmitted (h ++ [.enq c]) ++ (q ++ [c]) := by simp [enqueued, transmitted, ← hq]
  rw [flow, flow, h1, ← hq, List.drop_left, List.drop_left]
  simp [received]

theorem flow_ack (h : List Ev) (sid : Nat) : flow (h ++ [.ack sid]) = flow h := by
  simp [flow, received, enqueued, transmitted]

theorem flow_other (h : List Ev) : flow (h ++ [.other]) = flow h := by
  simp [flow, received, enqueued, transmitted]

/-- Flushing changes nothing. -/
theorem FlStep_flow {bad t h fl h' r} (hb : ∀ c, bad c = false) (st : FlStep bad t h fl h' r) (hi : FlI True bad h fl) :
    flow h'.hist = flow h.hist := by
  cases st with
  | send sid cs _ =>
    obtain ⟨i1, i2, rfl, i4⟩ := hi
    refine flow_status i1 sid ((i4 trivial).resolve_left ?_)
    rintro ⟨c, _, hc⟩
    simp [hb] at hc
  | _ => rfl

theorem FlStep_requested {bad t h fl h' r} (st : FlStep bad t h fl h' r) : requested h'.hist = requested h.hist := by
  cases st <;> simp [requested]

/-! ## The invariant -/

/-- How far the report on the current submission is at each point of its thread. -/
def RelI (g : Gr) (x : List Item) : Pc → Prop
  | .loop | .ready => x = told g.sid g.got
  | .plain k _ => x ++ [.packet k g.sid] = told g.sid g.got ∧ openResults g.got = false
  | .flush k _ | .close k _ =>
    (g.mode = .err ∧ k = .internalError ∧ x = told g.sid g.got) ∨ (g.mode ≠ .err ∧ x ++ [.packet k g.sid] = told g.sid g.got)
  | .log p | .enq p => x ++ [.result g.sid p] = told g.sid g.got
  | .fin0 | .fin1 | .fin2 => (x = told g.sid g.got ∧ SaidAll g.got) ∨ x = told g.sid g.got ++ [.packet .internalError g.sid]

theorem handle_sid (g : Gr) (m : Msg) : (g.handle m).sid = g.sid := by
  cases m <;> simp [Gr.handle, Gr.fail] ; split <;> rfl

theorem handle_got (g : Gr) (m : Msg) : (g.handle m).got = g.got ++ [m] := by
  cases m <;> simp [Gr.handle, Gr.fail] ; split <;> rfl

theorem ok_sid (g : Gr) : g.ok.sid = g.sid := by unfold Gr.ok; split <;> rfl
theorem ok_got (g : Gr) : g.ok.got = g.got := by unfold Gr.ok; split <;> rfl
theorem fail_sid (g : Gr) : g.fail.sid = g.sid := by unfold Gr.fail; split <;> rfl
theorem fail_got (g : Gr) : g.fail.got = g.got := by unfold Gr.fail; split <;> rfl

theorem handle_RelI (g : Gr) (m : Msg) (r : WorkerRun) (hm : g.mode = .loop) (hg : (g.handle m).got <+: workerMsgs r) :
    RelI (g.handle m) (told g.sid g.got) (g.handle m).pc := by
  rw [handle_got] at hg
  have hp : Plain m → openResults (g.got ++ [m]) = false := by
    intro h
    rw [openResults_append, plain_closed r _ _ hg h]
    cases m <;> simp_all [Plain, openAfter]
  have hgb : m ≠ .garbage := by
    rintro rfl
    exact no_garbage r (hg.subset (by simp))
  cases m <;> simp_all [Gr.handle, RelI, tell, Plain]

/-- A step of a grading thread adds to the report what it should. -/
theorem GrStep_rel {bad h g h' g'} (hb : ∀ c, bad c = false) (st : GrStep bad SaidAll h g h' (some g'))
    (hi : PcI True bad h g g.pc) (hold : g.pc.holds = true → h.qlock = some (.grader g.ticket))
    (book : h.qlock = none → Book h) (hq : h.queue = [] → enqueued h.hist = transmitted h.hist)
    (own : True → Bad bad h ∨ ∀ c ∈ h.queue, h.current = some c.owner) (hist : HistI True h.hist) (r : WorkerRun)
    (hg : g'.got <+: workerMsgs r) {base x : List Item} (hf : flow h.hist = base ++ x) (hx : RelI g x g.pc) :
    g'.sid = g.sid ∧ g.got <+: g'.got ∧ requested h'.hist = requested h.hist ∧
    ∃ x', flow h'.hist = base ++ x' ∧ RelI g' x' g'.pc := by
  have nb : ¬ Bad bad h := by rintro ⟨c, _, hc⟩; simp [hb] at hc
  cases st with
  | recv m hp =>
    rw [hp] at hi hx
    refine ⟨handle_sid g m, by rw [handle_got]; exact List.prefix_append _ _, rfl, x, hf, ?_⟩
    obtain rfl := hx
    exact handle_RelI g m r hi.2.1 hg
  | bye hp hbye => rw [hp] at hx; exact ⟨rfl, List.prefix_refl _, rfl, x, hf, .inl ⟨hx, hbye⟩⟩
  | crash hp =>
    rw [hp] at hi hx
    refine ⟨fail_sid g, by rw [fail_got]; exact List.prefix_refl _, rfl, x, hf, ?_⟩
    have hm := hi.2.1
    simp only [Gr.fail, hm, RelI, true_and]
    exact .inl hx
  | ready hp =>
    rw [hp] at hi hx
    refine ⟨ok_sid g, by rw [ok_got]; exact List.prefix_refl _, rfl, x, hf, ?_⟩
    have hm := hi.2.1
    simp only [Gr.ok, hm, RelI]
    exact hx
  | plainNone k hp hc => rw [hp] at hi; simp [hi.1] at hc
  | plainRead k sid hp hc => rw [hp] at hx; exact ⟨rfl, List.prefix_refl _, rfl, x, hf, hx⟩
  | plainSend k sid hp =>
    rw [hp] at hi hx
    have hm := hi.2.1
    have hs : sid = g.sid := hi.2.2.2.1 sid rfl
    subst hs
    refine ⟨ok_sid _, by rw [ok_got]; exact List.prefix_refl _, by simp [requested], x ++ [.packet k g.sid], ?_, ?_⟩
    · have hqe : h.queue = [] := (hi.2.2.2.2.1 trivial hx.2).resolve_right nb
      rw [flow_say (hq hqe), hf, List.append_assoc]
    · simp only [Gr.ok, hm, RelI]
      exact hx.1
  | flush k fl _ fl' hp hs =>
    rw [hp] at hi hx
    refine ⟨rfl, List.prefix_refl _, FlStep_requested hs, x, ?_, hx⟩
    rw [FlStep_flow hb hs hi.2.1, hf]
  | flushDone k fl _ hp hs =>
    rw [hp] at hi hx
    refine ⟨rfl, List.prefix_refl _, FlStep_requested hs, x, ?_, hx⟩
    rw [FlStep_flow hb hs hi.2.1, hf]
  | flushFail k fl _ hp hs =>
    rw [hp] at hi
    have e := FlStep_eff (ok := True) hs hi.2.1 (fun hh => hold (by rw [hp]; exact hh)) book own hist
    rcases (e.failed rfl).2.2 with h0 | ⟨c, _, h0⟩
    · simp [hi.1] at h0
    · simp [hb] at h0
  | closeNone k hp hc => rw [hp] at hi; simp [hi.1] at hc
  | closeRead k sid hp hc => rw [hp] at hx; exact ⟨rfl, List.prefix_refl _, rfl, x, hf, hx⟩
  | closeSend k sid hp =>
    rw [hp] at hi hx
    have hs : sid = g.sid := hi.2.2.2.1 sid rfl
    subst hs
    refine ⟨ok_sid _, by rw [ok_got]; exact List.prefix_refl _, by simp [requested], x ++ [.packet k g.sid], ?_, ?_⟩
    · rw [flow_say (hq hi.2.1), hf, List.append_assoc]
    · rcases hx with ⟨hm, rfl, rfl⟩ | ⟨hm, hx⟩
      · simp only [Gr.ok, hm, RelI, or_true]
      · cases hm' : g.mode <;> simp_all [Gr.ok, RelI]
  | logNone p hp hc => rw [hp] at hi; simp [hi.1] at hc
  | log p sid hp hc => rw [hp] at hx; exact ⟨rfl, List.prefix_refl _, rfl, x, hf, hx⟩
  | enq p hp hl =>
    rw [hp] at hi hx
    have hm := hi.2.1
    refine ⟨ok_sid g, by rw [ok_got]; exact List.prefix_refl _, by simp [requested], x ++ [.result g.sid p], ?_, ?_⟩
    · have hbk : transmitted h.hist <+: enqueued h.hist := by rw [book hl]; exact List.prefix_append _ _
      rw [flow_enq hbk, hf, List.append_assoc]
    · simp only [Gr.ok, hm, RelI]
      exact hx
  | clearWorker hp => rw [hp] at hx; exact ⟨rfl, List.prefix_refl _, rfl, x, hf, hx⟩
  | signal hp => rw [hp] at hx; exact ⟨rfl, List.prefix_refl _, rfl, x, hf, hx⟩

end Verif.Site
