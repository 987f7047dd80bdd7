import Verif.Lemmas.Site
import Verif.Props.Judge
import Verif.Props.Worker

/-! # C82: what the site is told of each submission -/

namespace Verif.Props
open Verif Judge Site

namespace Site

theorem Inv_quiet {bad s og} (hi : Inv True bad s og) (hq : s.sh.queue = []) : enqueued s.sh.hist = transmitted s.sh.hist := by
  have bk : Book s.sh → enqueued s.sh.hist = transmitted s.sh.hist := by
    intro h
    have h : _ = _ := h
    rw [h, hq, List.append_nil]
  have key : ∀ fl : Fl, fl.holds = true → FlI True bad s.sh fl → enqueued s.sh.hist = transmitted s.sh.hist := by
    intro fl hh hf
    cases fl with
    | acq => simp [Fl.holds] at hh
    | test => exact bk hf
    | build => exact bk hf.1
    | send sid cs => exact bk hf.1
    | clear => exact hf.1
  by_cases hl : s.sh.qlock = none
  · exact bk (hi.book hl)
  · by_cases hf : (s.fl.map Fl.holds).getD false = true
    · cases hfl : s.fl with
      | none => simp [hfl] at hf
      | some fl => exact key fl (by simpa [hfl] using hf) (hi.fl fl hfl)
    · have hs := hi.slot
      cases og with
      | none => exact absurd (by simpa [hf] using hs.2.1) hl
      | some g =>
        have h4 := hs.2.2.2.1
        by_cases hp : g.pc.holds = true
        · have hpc := hi.pc g rfl
          generalize hq : g.pc = pc at hp hpc
          cases pc <;> simp at hp
          exact key _ hp hpc.2.1
        · exact absurd (by simpa [hf, hp] using h4) hl

theorem Reports_snoc (run : Nat → WorkerRun) (i : Nat) (l : List Nat) (sid : Nat) (b y : List Item) (h : Reports run i l b)
    (hy : Report sid (run (i + l.length)) y) : Reports run i (l ++ [sid]) (b ++ y) := by
  induction l generalizing i b with
  | nil =>
    have : b = [] := h
    subst this
    exact ⟨y, [], by simp, by simpa using hy, rfl⟩
  | cons a l ih =>
    obtain ⟨u, v, rfl, h1, h2⟩ := h
    refine ⟨u, v ++ y, by simp, h1, ih (i + 1) v h2 ?_⟩
    rwa [show i + 1 + l.length = i + (a :: l).length by simp; omega]

theorem FlStep_received {bad t h fl h' r} (st : FlStep bad t h fl h' r) : received h.hist <+: received h'.hist := by
  cases st <;> simp

theorem GrStep_received {bad bye h g h' og} (st : GrStep bad bye h g h' og) : received h.hist <+: received h'.hist := by
  cases st with
  | flush _ _ _ _ _ hs => exact FlStep_received hs
  | flushDone _ _ _ _ hs => exact FlStep_received hs
  | flushFail _ _ _ _ hs => exact FlStep_received hs
  | _ => simp

/-- Submissions asked for whose thread has not been started. -/
def waiting : Net → List Nat
  | .idle | .wait => []
  | .acquire sid | .create sid | .start sid => [sid]

/-- The invariant. -/
structure SiteI (run : Nat → WorkerRun) (s : S) : Prop where
  tickets : (s.finished ++ s.grs).map Gr.ticket = List.range s.next
  asked : requested s.sh.hist = (s.finished ++ s.grs).map Gr.sid ++ waiting s.net
  report : ∃ base x, (Reports run 0 (s.finished.map Gr.sid) base ∧ base <+: received s.sh.hist) ∧ flow s.sh.hist = base ++ x ∧
    (s.grs = [] → x = []) ∧ ∀ g ∈ s.grs, RelI g x g.pc

theorem SiteI_reachable {bad : Case → Bool} (hb : ∀ c, bad c = false) (run : Nat → WorkerRun) {s : S}
    (h : Reachable bad SaidAll s) (hw : Keeps run s) : SiteI run s := by
  induction h with
  | init => exact ⟨rfl, rfl, [], [], ⟨rfl, List.prefix_refl _⟩, rfl, fun _ => rfl, by simp [init]⟩
  | @step s s' hr st ih =>
    obtain ⟨og, hi⟩ := Inv_reachable (byeOk := SaidAll) True (by rintro - _ ⟨r, rfl⟩; exact C20_worker_protocol r) hr
    have hs := hi.slot
    cases st with
    | request sid hn =>
      obtain ⟨i1, i2, i3⟩ := ih hw
      refine ⟨i1, ?_, ?_⟩
      · simp [i2, hn, waiting, requested]
      · simpa [flow_ack, received] using i3
    | acquire sid hn hl =>
      obtain ⟨i1, i2, i3⟩ := ih hw
      exact ⟨i1, by simpa [hn, waiting] using i2, i3⟩
    | create sid hn =>
      obtain ⟨i1, i2, i3⟩ := ih hw
      exact ⟨i1, by simpa [hn, waiting] using i2, i3⟩
    | start sid hn =>
      cases og with
      | some g => simp_all [Slot]
      | none =>
        have hg : s.grs = [] := hs.1
        have hw' : Keeps run s := fun g hg' => hw g (by simp [hg] at hg' ⊢; exact .inl hg')
        obtain ⟨i1, i2, base, x, i3, i4, i5, i6⟩ := ih hw'
        refine ⟨?_, ?_, base, x, i3, i4, by simp, ?_⟩
        · simp [hg, List.range_succ] at i1 ⊢; exact i1
        · simp [hg, hn, waiting] at i2 ⊢; exact i2
        · have hx := i5 hg
          subst hx
          simp [hg, RelI, told]
    | wait hn hr' =>
      obtain ⟨i1, i2, i3⟩ := ih hw
      exact ⟨i1, by simpa [hn, waiting] using i2, i3⟩
    | other =>
      obtain ⟨i1, i2, i3⟩ := ih hw
      exact ⟨i1, by simpa [requested] using i2, by simpa [flow_other, received] using i3⟩
    | flushStart hf =>
      obtain ⟨i1, i2, i3⟩ := ih hw
      exact ⟨i1, i2, i3⟩
    | flush fl h' fl' hf hst =>
      obtain ⟨i1, i2, i3⟩ := ih hw
      refine ⟨i1, by rw [← i2]; exact FlStep_requested hst, ?_⟩
      obtain ⟨base, x, ⟨i3, i4⟩, i5⟩ := i3
      refine ⟨base, x, ⟨i3, i4.trans (FlStep_received hst)⟩, ?_⟩
      rw [← FlStep_flow hb hst (hi.fl fl hf)] at i5
      exact i5
    | flushEnd fl h' r hf hst hr' =>
      obtain ⟨i1, i2, i3⟩ := ih hw
      refine ⟨i1, by rw [← i2]; exact FlStep_requested hst, ?_⟩
      obtain ⟨base, x, ⟨i3, i4⟩, i5⟩ := i3
      refine ⟨base, x, ⟨i3, i4.trans (FlStep_received hst)⟩, ?_⟩
      rw [← FlStep_flow hb hst (hi.fl fl hf)] at i5
      exact i5
    | grader pre g post h' g' hg hst =>
      cases og with
      | none => simp_all [Slot]
      | some g₀ =>
        obtain ⟨s1, s2, s3, s4, s5⟩ := hs
        have hg0 := hg
        rw [s1] at hg
        obtain ⟨rfl, rfl, rfl⟩ : pre = [] ∧ g = g₀ ∧ post = [] := by
          cases pre <;> simp_all
        have hpc := hi.pc g rfl
        have hold : g.pc.holds = true → s.sh.qlock = some (.grader g.ticket) := by
          intro h
          rw [s4]
          by_cases hf : (s.fl.map Fl.holds).getD false = true
          · simp [s3 hf] at h
          · simp [hf, h]
        have ht : g'.ticket = g.ticket := (GrStep_eff (ok := True) (by rintro - _ ⟨r, rfl⟩; exact C20_worker_protocol r) hst hpc hold
          hi.book hi.own hi.hist).ticket
        have hgot : g'.got <+: workerMsgs (run g.ticket) := by rw [← ht]; exact hw g' (by simp)
        have key := fun base x hf hx => GrStep_rel (base := base) (x := x) hb hst hpc hold hi.book (Inv_quiet hi) hi.own hi.hist
          _ hgot hf hx
        have hpre : g.got <+: g'.got := by
          cases hst <;> first | exact List.prefix_refl _ | (simp only [handle_got, ok_got, fail_got]; first | exact List.prefix_append _ _ | exact List.prefix_refl _)
        have hw' : Keeps run s := by
          intro y hy
          rw [s1] at hy
          rcases List.mem_append.1 hy with hy | hy
          · exact hw y (by simp [hy])
          · rw [List.mem_singleton.1 hy]; exact hpre.trans hgot
        obtain ⟨i1, i2, base, x, i3, i4, i5, i6⟩ := ih hw'
        obtain ⟨k1, k2, k3, x', k4, k5⟩ := key base x i4 (i6 g (by simp [s1]))
        refine ⟨?_, ?_, base, x', ⟨i3.1, i3.2.trans (GrStep_received hst)⟩, k4, by simp, by simpa using k5⟩
        · simpa [s1, ht] using i1
        · simpa [s1, k1, k3] using i2
    | graderEnd pre g post h' hg hst =>
      cases og with
      | none => simp_all [Slot]
      | some g₀ =>
        obtain ⟨s1, s2, s3, s4, s5⟩ := hs
        rw [s1] at hg
        obtain ⟨rfl, rfl, rfl⟩ : pre = [] ∧ g = g₀ ∧ post = [] := by
          cases pre <;> simp_all
        have hw' : Keeps run s := by
          intro y hy
          rw [s1] at hy
          exact hw y (by simpa using hy)
        obtain ⟨i1, i2, base, x, i3, i4, i5, i6⟩ := ih hw'
        cases hst with
        | release hp =>
          have hx := i6 g (by simp [s1])
          rw [hp] at hx
          have hst := (hi.pc g rfl)
          rw [hp] at hst
          have hq : s.sh.queue = [] := (hst.2.2.1 trivial).resolve_right (by rintro ⟨c, _, hc⟩; simp [hb] at hc)
          have hfl := flow_done (Inv_quiet hi hq)
          refine ⟨by simpa [s1] using i1, by simpa [s1] using i2, base ++ x, [], ⟨?_, ?_⟩, by simpa using i4, fun _ => rfl, by simp⟩
          rotate_left
          · show base ++ x <+: received s.sh.hist
            rw [← hfl, i4]; exact List.prefix_refl _
          rw [List.map_append]
          have hlen : g.ticket = s.finished.length := by
            have h1 := congrArg (fun l => l[s.finished.length]?) i1
            have h2 := congrArg List.length i1
            simp [s1] at h1 h2
            rw [List.getElem?_range (by omega)] at h1
            simpa using h1
          apply Reports_snoc _ _ _ _ _ _ i3.1
          have hpg := hw g (by simp)
          rw [hlen] at hpg
          simp only [Nat.zero_add, List.length_map]
          rcases hx with ⟨rfl, r, hr'⟩ | rfl
          · left
            rw [hr'] at hpg
            rw [← msgs_prefix _ _ hpg, hr']
          · exact .inr ⟨g.got, hpg, rfl⟩

theorem told_sends (sid : Nat) (l : List Worker.Act) (h : .send .compileMessage ∉ l) :
    told sid (sends l) = (Spec.marks l).map (shown sid) := by
  induction l with
  | nil => rfl
  | cons a l ih =>
    have ih := ih (fun hm => h (by simp [hm]))
    cases a with
    | exec n => exact ih
    | send e =>
      have : told sid (sends (.send e :: l)) = tell sid (toMsg e) ++ told sid (sends l) := by simp [told, sends]
      rw [this, ih]
      cases e <;> simp_all [Spec.marks, Spec.mark, toMsg, tell, shown]

theorem mem_sends (l : List Worker.Act) (e : Worker.Event) (h : .send e ∈ l) : toMsg e ∈ sends l := by
  induction l with
  | nil => simp at h
  | cons a l ih =>
    rcases List.mem_cons.1 h with rfl | h'
    · simp [sends]
    · cases a <;> simp [sends, ih h']

theorem grade_split (w : Worker.World) (sc warning pretested : Bool) (items : List Worker.Item) :
    ∃ l, Worker.gradeCases w sc (.ok warning pretested items) =
      (if warning then [.send .compileMessage] else []) ++ l ∧ .send .compileMessage ∉ l := by
  generalize ha : (if warning then [Worker.Act.send .compileMessage] else []) = pre
  have h := groupLoop_I w (Worker.groupBy (Worker.flatten 0 items)) ⟨pre ++ [.send (.gradingBegin pretested)], 0, false, sc⟩
  have hno : ∀ l, (∀ m ∈ sends l, Middle m) → Worker.Act.send .compileMessage ∉ l := fun l hl hm => hl _ (mem_sends l _ hm)
  rw [Worker.gradeCases]
  rw [ha]
  cases hc : Worker.groupLoop w (Worker.groupBy (Worker.flatten 0 items)) ⟨pre ++ [.send (.gradingBegin pretested)], 0, false, sc⟩ with
  | next s =>
    rw [hc] at h
    obtain ⟨l, e, hl⟩ := h
    dsimp only at e ⊢
    exact ⟨[.send (.gradingBegin pretested)] ++ l ++ [.send .gradingEnd], by simp [e], by simp [hno l hl]⟩
  | stop a =>
    rw [hc] at h
    obtain ⟨l, n, hl, rfl | rfl⟩ := h
    · exact ⟨[.send (.gradingBegin pretested)] ++ l ++ [.exec n], by simp, by simp [hno l hl]⟩
    · exact ⟨[.send (.gradingBegin pretested)] ++ l ++ [.exec n, .send .gradingAborted], by simp, by simp [hno l hl]⟩

end Site

open Site

/-- C82.  Whenever no submission is being graded, what the site has been told is exactly the reports on the submissions it asked for,
one after the other in the order it asked for them: of each, all its worker says or a part of it and the news of an internal error. -/
theorem C82_reports (run : Nat → WorkerRun) (s : S) (h : Reachable (fun _ => false) SaidAll s) (hw : Keeps run s) (hd : s.grs = [])
    (hn : s.net = .idle ∨ s.net = .wait) : Reports run 0 (requested s.sh.hist) (received s.sh.hist) := by
  obtain ⟨i1, i2, base, x, i3, i4, i5, i6⟩ := SiteI_reachable (fun _ => rfl) run h hw
  obtain ⟨og, hi⟩ := Inv_reachable (byeOk := SaidAll) True (by rintro - _ ⟨r, rfl⟩; exact C20_worker_protocol r) h
  have hs := hi.slot
  cases og with
  | some g => simp [hs.1] at hd
  | none =>
    have hq : s.sh.queue = [] := (hi.fresh trivial rfl).resolve_right (by rintro ⟨c, _, hc⟩; simp at hc)
    have hfl := flow_done (Inv_quiet hi hq)
    have hwt : waiting s.net = [] := by rcases hn with hn | hn <;> rw [hn] <;> rfl
    rw [i5 hd, List.append_nil] at i4
    rw [← hfl, i4, i2, hwt, hd]
    simpa using i3.1

/-- The worker of the first submission grades one case, that of the second dies. -/
def demoRun : Nat → WorkerRun := fun _ => .graded ⟨fun _ => some ⟨0, 1⟩, fun _ => false⟩ false (.ok false false [.one ⟨0, 0, 1⟩])

theorem demoRun_msgs (n : Nat) : workerMsgs (demoRun n) = [.hello, .gradingBegin, .result 1, .gradingEnd] := by
  show workerMsgs (demoRun 0) = _
  decide +kernel

theorem demo82 : ∃ s, Reachable (fun _ => false) SaidAll s ∧ s.grs = [] ∧ s.net = .idle ∧ Keeps demoRun s ∧
    requested s.sh.hist = [7, 8] ∧ received s.sh.hist = [.packet .gradingBegin 7, .result 7 1, .packet .gradingEnd 7,
      .packet .internalError 8] ∧
    s.sh.hist = [.ack 7, .say .gradingBegin 7 7, .enq ⟨7, 1⟩, .status 7 [⟨7, 1⟩], .say .gradingEnd 7 7, .ack 8, .say .internalError 8 8] := by
  have h := Reachable.init (bad := fun _ => false) (byeOk := SaidAll)
  have h := Reachable.step h (.request _ 7 rfl)
  have h := Reachable.step h (.acquire _ 7 rfl rfl)
  have h := Reachable.step h (.create _ 7 rfl)
  have h := Reachable.step h (.start _ 7 rfl)
  have h := Reachable.step h (.grader _ [] _ [] _ _ rfl (.recv _ _ .hello rfl))
  have h := Reachable.step h (.grader _ [] _ [] _ _ rfl (.ready _ _ rfl))
  have h := Reachable.step h (.wait _ rfl rfl)
  have h := Reachable.step h (.grader _ [] _ [] _ _ rfl (.recv _ _ .gradingBegin rfl))
  have h := Reachable.step h (.grader _ [] _ [] _ _ rfl (.plainRead _ _ _ 7 rfl rfl))
  have h := Reachable.step h (.grader _ [] _ [] _ _ rfl (.plainSend _ _ _ 7 rfl))
  have h := Reachable.step h (.grader _ [] _ [] _ _ rfl (.recv _ _ (.result 1) rfl))
  have h := Reachable.step h (.grader _ [] _ [] _ _ rfl (.log _ _ _ 7 rfl rfl))
  have h := Reachable.step h (.grader _ [] _ [] _ _ rfl (.enq _ _ _ rfl rfl))
  have h := Reachable.step h (.grader _ [] _ [] _ _ rfl (.recv _ _ .gradingEnd rfl))
  have h := Reachable.step h (.grader _ [] _ [] _ _ rfl (.flush _ _ _ _ _ _ rfl (.acq _ rfl)))
  have h := Reachable.step h (.grader _ [] _ [] _ _ rfl (.flush _ _ _ _ _ _ rfl (.nonempty _ (by simp [Judge.init]))))
  have h := Reachable.step h (.grader _ [] _ [] _ _ rfl (.flush _ _ _ _ _ _ rfl (.build _ 7 rfl)))
  have h := Reachable.step h (.grader _ [] _ [] _ _ rfl (.flush _ _ _ _ _ _ rfl (.send _ 7 _ (by simp))))
  have h := Reachable.step h (.grader _ [] _ [] _ _ rfl (.flushDone _ _ _ _ _ rfl (.clear _)))
  have h := Reachable.step h (.grader _ [] _ [] _ _ rfl (.closeRead _ _ _ 7 rfl rfl))
  have h := Reachable.step h (.grader _ [] _ [] _ _ rfl (.closeSend _ _ _ 7 rfl))
  have h := Reachable.step h (.grader _ [] _ [] _ _ rfl (.bye _ _ rfl ⟨demoRun 0, (demoRun_msgs 0).symm⟩))
  have h := Reachable.step h (.grader _ [] _ [] _ _ rfl (.clearWorker _ _ rfl))
  have h := Reachable.step h (.grader _ [] _ [] _ _ rfl (.signal _ _ rfl))
  have h := Reachable.step h (.graderEnd _ [] _ [] _ rfl (.release _ _ rfl))
  have h := Reachable.step h (.request _ 8 rfl)
  have h := Reachable.step h (.acquire _ 8 rfl rfl)
  have h := Reachable.step h (.create _ 8 rfl)
  have h := Reachable.step h (.start _ 8 rfl)
  have h := Reachable.step h (.grader _ [] _ [] _ _ rfl (.recv _ _ .hello rfl))
  have h := Reachable.step h (.grader _ [] _ [] _ _ rfl (.ready _ _ rfl))
  have h := Reachable.step h (.wait _ rfl rfl)
  have h := Reachable.step h (.grader _ [] _ [] _ _ rfl (.crash _ _ rfl))
  have h := Reachable.step h (.grader _ [] _ [] _ _ rfl (.flush _ _ _ _ _ _ rfl (.acq _ rfl)))
  have h := Reachable.step h (.grader _ [] _ [] _ _ rfl (.flushDone _ _ _ _ _ rfl (.empty _ rfl)))
  have h := Reachable.step h (.grader _ [] _ [] _ _ rfl (.closeRead _ _ _ 8 rfl rfl))
  have h := Reachable.step h (.grader _ [] _ [] _ _ rfl (.closeSend _ _ _ 8 rfl))
  have h := Reachable.step h (.grader _ [] _ [] _ _ rfl (.clearWorker _ _ rfl))
  have h := Reachable.step h (.grader _ [] _ [] _ _ rfl (.signal _ _ rfl))
  have h := Reachable.step h (.graderEnd _ [] _ [] _ rfl (.release _ _ rfl))
  refine ⟨_, h, rfl, rfl, ?_, rfl, rfl, rfl⟩
  intro g hg
  rw [demoRun_msgs]
  revert g hg
  simp [Judge.init, Gr.handle, Gr.ok, Gr.fail]

/-- Two submissions, the second of which ends in an internal error. -/
example : ∃ s, Reachable (fun _ => false) SaidAll s ∧ Keeps demoRun s ∧ s.grs = [] ∧ s.net = .idle ∧
    requested s.sh.hist = [7, 8] ∧ received s.sh.hist = [.packet .gradingBegin 7, .result 7 1, .packet .gradingEnd 7,
      .packet .internalError 8] := by
  obtain ⟨s, h1, h2, h3, h4, h5, h6, _⟩ := demo82
  exact ⟨s, h1, h4, h2, h3, h5, h6⟩

/-- C82.  At every instant: the site has the complete reports on the submissions that are over, and after them a part of what the
worker of the next one has said (or that and the news of an internal error), nothing else. -/
theorem C82_now (run : Nat → WorkerRun) (s : S) (h : Reachable (fun _ => false) SaidAll s) (hw : Keeps run s) :
    ∃ done base x, done <+: requested s.sh.hist ∧ Reports run 0 done base ∧ received s.sh.hist = base ++ x ∧
      (x = [] ∨ ∃ sid p, done ++ [sid] <+: requested s.sh.hist ∧ p <+: workerMsgs (run done.length) ∧
        x <+: told sid p ++ [.packet .internalError sid]) := by
  obtain ⟨i1, i2, base, x, ⟨i3, y, hy⟩, i4, i5, i6⟩ := SiteI_reachable (fun _ => rfl) run h hw
  refine ⟨s.finished.map Gr.sid, base, y, ?_, i3, hy.symm, ?_⟩
  · rw [i2]; simp
  · have hyx : y <+: x := by
      have : received s.sh.hist <+: flow s.sh.hist := List.prefix_append _ _
      rw [i4, ← hy, List.prefix_append_right_inj] at this
      exact this
    obtain ⟨og, hi⟩ := Inv_reachable (byeOk := SaidAll) True (by rintro - _ ⟨r, rfl⟩; exact C20_worker_protocol r) h
    have hs := hi.slot
    cases og with
    | none =>
      left
      rw [i5 hs.1] at hyx
      simpa using hyx
    | some g =>
      have hg : s.grs = [g] := hs.1
      have hx := i6 g (by simp [hg])
      have hlen : g.ticket = s.finished.length := by
        have h1 := congrArg (fun l => l[s.finished.length]?) i1
        have h2 := congrArg List.length i1
        simp [hg] at h1 h2
        rw [List.getElem?_range (by omega)] at h1
        simpa using h1
      refine .inr ⟨g.sid, g.got, by rw [i2, hg]; simp, ?_, hyx.trans ?_⟩
      · have := hw g (by simp [hg])
        rw [hlen] at this
        simpa using this
      · generalize g.pc = pc at hx
        cases pc <;> simp only [RelI] at hx
        all_goals grind

/-- C82.  What the site is told of a submission that was compiled and whose worker said everything: the compiler's message if there is
one, the stream of C11, and the news of an internal error if grading raised. -/
theorem C82_stream (sid : Nat) (w : Worker.World) (sc warning pretested : Bool) (items : List Worker.Item) :
    told sid (workerMsgs (.graded w sc (.ok warning pretested items))) =
      (if warning then [.packet .compileMessage sid] else []) ++
      (Spec.marks (Worker.gradeCases w sc (.ok warning pretested items))).map (shown sid) ++
      (if raised (Worker.gradeCases w sc (.ok warning pretested items)) then [.packet .internalError sid] else []) := by
  obtain ⟨l, e, hl⟩ := grade_split w sc warning pretested items
  rw [workerMsgs]
  generalize raised (Worker.gradeCases w sc (.ok warning pretested items)) = ra
  rw [e]
  have h1 : Spec.marks ((if warning then [Worker.Act.send .compileMessage] else []) ++ l) = Spec.marks l := by
    cases warning <;> rfl
  have h2 : told sid (sends ((if warning then [Worker.Act.send .compileMessage] else []) ++ l)) =
      (if warning then [.packet .compileMessage sid] else []) ++ told sid (sends l) := by
    rw [sends_append, told_append]; cases warning <;> rfl
  have h3 : told sid (if ra then [.unhandled] else []) = if ra then [Item.packet .internalError sid] else [] := by
    cases ra <;> rfl
  rw [List.cons_append, ← List.singleton_append, told_append, told_append, h1, h2, h3, told_sends sid l hl]
  rfl

/-- C82.  If no case raises and nobody aborts, the site is told of every case, in order and in its batch, and then that grading is over. -/
theorem C82_complete (sid : Nat) (w : Worker.World) (sc warning pretested : Bool) (items : List Worker.Item)
    (hg : ∀ n, ∃ r, w.grade n = some r) (ha : ∀ n, w.aborted n = false) :
    told sid (workerMsgs (.graded w sc (.ok warning pretested items))) =
      (if warning then [.packet .compileMessage sid] else []) ++ .packet .gradingBegin sid ::
      (Spec.layout 0 0 items).map (shown sid) ++ [.packet .gradingEnd sid] := by
  have hm := C11_complete w sc warning pretested items hg ha
  have hr : raised (Worker.gradeCases w sc (.ok warning pretested items)) = false := by
    obtain ⟨acts0, c, _, _, _, _, hi, he⟩ := Worker.grade_ctl w sc warning pretested items
    rw [he]
    cases c with
    | next s => simp [raised]
    | stop a =>
      obtain ⟨k', _, _, a0, _, _, h | h⟩ := hi
      · obtain ⟨r, hr⟩ := hg k'; rw [h.2] at hr; cases hr
      · rw [ha] at h; simp at h
  rw [C82_stream, hm, hr]
  simp [fullStream, shown]

/-- A case and a batch of two. -/
example : told 7 (workerMsgs (.graded ⟨fun _ => some ⟨0, 1⟩, fun _ => false⟩ false
      (.ok true false [.one ⟨0, 0, 1⟩, .batch 1 [⟨1, 1, 1⟩, ⟨2, 1, 1⟩]]))) =
    [.packet .compileMessage 7, .packet .gradingBegin 7, .result 7 1, .packet .batchBegin 7, .result 7 2, .result 7 3,
      .packet .batchEnd 7, .packet .gradingEnd 7] := by decide +kernel

/-- C82.  A complete report ends the submission once, at its end. -/
theorem C82_once (sid : Nat) (r : WorkerRun) : ∃ x k, told sid (workerMsgs r) = x ++ [.packet k sid] ∧ k.terminal = true ∧
    ∀ i ∈ x, i.ends = false := by
  obtain ⟨o, l, t, e, ho, hl, ht, -⟩ := msgs_shape r
  have key : ∀ m, Opening m ∨ Middle m → ∀ i ∈ tell sid m, i.ends = false := by
    intro m hm
    cases m <;> simp_all [Opening, Middle, tell, Item.ends, Kind.terminal]
  have hk : ∃ k, tell sid t = [.packet k sid] ∧ k.terminal = true := by
    cases t <;> simp_all [Msg.terminal, tell, Kind.terminal]
  obtain ⟨k, hk, hkt⟩ := hk
  refine ⟨told sid (o ++ l), k, by rw [e, told_append, told_one, hk], hkt, ?_⟩
  intro i hi
  simp only [told, List.mem_flatMap] at hi
  obtain ⟨m, hm, hi⟩ := hi
  exact key m ((List.mem_append.1 hm).imp (ho m) (hl m)) i hi

end Verif.Props
