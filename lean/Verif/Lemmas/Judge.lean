import Verif.Spec.Judge

/-!
# Invariant of the judge process
-/

namespace Verif.Judge

@[simp] theorem enqueued_append (a b : List Ev) : enqueued (a ++ b) = enqueued a ++ enqueued b := by
  induction a with
  | nil => rfl
  | cons e a ih => cases e <;> simp [enqueued, ih]

@[simp] theorem transmitted_append (a b : List Ev) :
    transmitted (a ++ b) = transmitted a ++ transmitted b := by
  induction a with
  | nil => rfl
  | cons e a ih => cases e <;> simp [transmitted, ih]

@[simp] theorem openResults_append (a : List Msg) (m : Msg) :
    openResults (a ++ [m]) = openAfter (openResults a) m := by
  simp [openResults]

/-- Some queued result cannot be serialised. -/
def Bad (bad : Case → Bool) (h : Sh) : Prop := ∃ c ∈ h.queue, bad c = true

/-- Nothing pending, or nothing will ever be sent again. -/
def Still (bad : Case → Bool) (h : Sh) : Prop := h.queue = [] ∨ Bad bad h

/-- Accounting. -/
def Book (h : Sh) : Prop := enqueued h.hist = transmitted h.hist ++ h.queue

/-- What holds at each point of a flush (`ok`: the worker follows its protocol). -/
def FlI (ok : Prop) (bad : Case → Bool) (h : Sh) : Fl → Prop
  | .acq => True
  | .test => Book h
  | .build => Book h ∧ h.queue ≠ []
  | .send sid cs => Book h ∧ h.queue ≠ [] ∧ cs = h.queue ∧
      (ok → Bad bad h ∨ ∀ c ∈ h.queue, c.owner = sid)
  | .clear => enqueued h.hist = transmitted h.hist ∧ h.queue ≠ [] ∧ ∀ c ∈ h.queue, bad c = false

/-- A terminal packet was sent. -/
def Sent (g : Gr) : Prop := ∃ k ∈ g.sent, k.terminal = true

/-- A terminal message was received. -/
def Told (g : Gr) : Prop := ∃ m ∈ g.got, m.terminal = true

/-- Does this point of the flush hold the queue lock? -/
def Fl.holds : Fl → Bool
  | .acq => false
  | _ => true

/-- Does the grading thread hold the queue lock? -/
def Pc.holds : Pc → Bool
  | .flush _ fl => fl.holds
  | _ => false

section
variable (k : Kind) (id : Option Nat) (p : Nat) (fl : Fl)
@[simp] theorem holds_loop : Pc.loop.holds = false := rfl
@[simp] theorem holds_ready : Pc.ready.holds = false := rfl
@[simp] theorem holds_plain : (Pc.plain k id).holds = false := rfl
@[simp] theorem holds_flush : (Pc.flush k fl).holds = fl.holds := rfl
@[simp] theorem holds_close : (Pc.close k id).holds = false := rfl
@[simp] theorem holds_log : (Pc.log p).holds = false := rfl
@[simp] theorem holds_enq : (Pc.enq p).holds = false := rfl
@[simp] theorem holds_fin0 : Pc.fin0.holds = false := rfl
@[simp] theorem holds_fin1 : Pc.fin1.holds = false := rfl
@[simp] theorem holds_fin2 : Pc.fin2.holds = false := rfl
end

/-- What holds at each point of a grading thread. -/
def PcI (ok : Prop) (bad : Case → Bool) (h : Sh) (g : Gr) : Pc → Prop
  | .loop => h.current = some g.sid ∧ g.mode = .loop ∧
      (ok → openResults g.got = false → Still bad h) ∧ (Told g → Sent g ∨ Bad bad h)
  | .ready => h.current = some g.sid ∧ g.mode = .loop ∧
      (ok → openResults g.got = false → Still bad h) ∧ (Told g → Sent g ∨ Bad bad h)
  | .plain k id => h.current = some g.sid ∧ g.mode = .loop ∧ k.closing = false ∧
      (∀ i, id = some i → i = g.sid) ∧
      (ok → openResults g.got = false → Still bad h) ∧
      (Told g → Sent g ∨ Bad bad h ∨ k.terminal = true)
  | .flush k fl => h.current = some g.sid ∧ FlI ok bad h fl ∧ k.closing = true ∧
      (g.mode = .loop → Told g → Sent g ∨ Bad bad h ∨ k.terminal = true) ∧
      (g.mode ≠ .loop → k = .internalError)
  | .close k id => h.current = some g.sid ∧ h.queue = [] ∧ Book h ∧
      (∀ i, id = some i → i = g.sid) ∧
      (g.mode = .loop → Told g → Sent g ∨ Bad bad h ∨ k.terminal = true) ∧
      (g.mode ≠ .loop → k = .internalError)
  | .log _ => h.current = some g.sid ∧ g.mode = .loop ∧ openResults g.got = true ∧
      (Told g → Sent g ∨ Bad bad h)
  | .enq _ => h.current = some g.sid ∧ g.mode = .loop ∧ openResults g.got = true ∧
      (Told g → Sent g ∨ Bad bad h)
  | .fin0 => h.current = some g.sid ∧ (ok → Still bad h) ∧ (ok → Sent g ∨ Bad bad h)
  | .fin1 => h.current = none ∧ (ok → Still bad h) ∧ (ok → Sent g ∨ Bad bad h)
  | .fin2 => h.current = none ∧ h.ready = true ∧ (ok → Still bad h) ∧ (ok → Sent g ∨ Bad bad h)

/-- History part: closing packets come after all results; ids are right. -/
structure HistI (ok : Prop) (hist : List Ev) : Prop where
  closing : ∀ h₁ k sid b h₂, hist = h₁ ++ .say k sid b :: h₂ → k.closing = true →
    transmitted h₁ = enqueued h₁
  own : ok → ∀ sid cs, Ev.status sid cs ∈ hist → ∀ c ∈ cs, c.owner = sid
  ids : ∀ k sid b, Ev.say k sid b ∈ hist → sid = b

/-- Who may hold the locks. -/
def Slot (s : S) : Option Gr → Prop
  | none => s.grs = [] ∧ s.sh.qlock = (if (s.fl.map Fl.holds).getD false then some .flusher else none) ∧
      match s.net with
      | .idle => s.sh.glock = false ∧ s.sh.current = none
      | .acquire _ => s.sh.glock = false ∧ s.sh.current = none
      | .create _ => s.sh.glock = true ∧ s.sh.current = none
      | .start sid => s.sh.glock = true ∧ s.sh.current = some sid
      | .wait => s.sh.glock = false ∧ s.sh.current = none ∧ s.sh.ready = true
  | some g => s.grs = [g] ∧ s.sh.glock = true ∧
      ((s.fl.map Fl.holds).getD false = true → g.pc.holds = false) ∧
      s.sh.qlock = (if (s.fl.map Fl.holds).getD false then some .flusher else
        if g.pc.holds then some (.grader g.ticket) else none) ∧
      match s.net with
      | .idle => True
      | .acquire _ => True
      | .create _ => False
      | .start _ => False
      | .wait => True

/-- The invariant. -/
structure Inv (ok : Prop) (bad : Case → Bool) (s : S) (og : Option Gr) : Prop where
  slot : Slot s og
  pc : ∀ g, og = some g → PcI ok bad s.sh g g.pc
  fl : ∀ fl, s.fl = some fl → FlI ok bad s.sh fl
  book : s.sh.qlock = none → Book s.sh
  own : ok → Bad bad s.sh ∨ ∀ c ∈ s.sh.queue, s.sh.current = some c.owner
  hist : HistI ok s.sh.hist
  fin : ok → ∀ g ∈ s.finished, Sent g ∨ Bad bad s.sh
  fresh : ok → og = none → Still bad s.sh

/-! ## Preservation -/

/-- Same queue and same accounting. -/
def Quiet (h h' : Sh) : Prop :=
  h'.queue = h.queue ∧ enqueued h'.hist = enqueued h.hist ∧ transmitted h'.hist = transmitted h.hist

theorem FlI_congr {ok bad h h'} (q : Quiet h h') : ∀ {fl}, FlI ok bad h fl → FlI ok bad h' fl := by
  obtain ⟨q1, q2, q3⟩ := q
  intro fl
  cases fl <;> simp_all [FlI, Book, Bad]

theorem PcI_mono {ok bad h h' g} (hc : h'.current = h.current) (hr : h.ready = true → h'.ready = true)
    (hb : Bad bad h → Bad bad h') (hs : Still bad h → Still bad h')
    (hq : Quiet h h' ∨ (g.pc.holds = false ∧ h.queue ≠ [])) (hi : PcI ok bad h g g.pc) :
    PcI ok bad h' g g.pc := by
  have hB : ∀ P : Prop, (P ∨ Bad bad h) → (P ∨ Bad bad h') := fun P => Or.imp_right hb
  have hB2 : ∀ P Q : Prop, (P ∨ Bad bad h ∨ Q) → (P ∨ Bad bad h' ∨ Q) :=
    fun P Q => Or.imp_right (Or.imp_left hb)
  generalize g.pc = pc at hi hq
  cases pc with
  | loop => exact ⟨hc ▸ hi.1, hi.2.1, fun o p => hs (hi.2.2.1 o p), fun t => hB _ (hi.2.2.2 t)⟩
  | ready => exact ⟨hc ▸ hi.1, hi.2.1, fun o p => hs (hi.2.2.1 o p), fun t => hB _ (hi.2.2.2 t)⟩
  | plain k id =>
    exact ⟨hc ▸ hi.1, hi.2.1, hi.2.2.1, hi.2.2.2.1, fun o p => hs (hi.2.2.2.2.1 o p),
      fun t => hB2 _ _ (hi.2.2.2.2.2 t)⟩
  | flush k fl =>
    refine ⟨hc ▸ hi.1, ?_, hi.2.2.1, fun m t => hB2 _ _ (hi.2.2.2.1 m t), hi.2.2.2.2⟩
    rcases hq with hq | ⟨hq, -⟩
    · exact FlI_congr hq hi.2.1
    · cases fl <;> simp_all [Pc.holds, Fl.holds, FlI]
  | close k id =>
    have hq : Quiet h h' := by
      rcases hq with hq | ⟨-, hq⟩
      · exact hq
      · exact absurd hi.2.1 hq
    obtain ⟨q1, q2, q3⟩ := hq
    refine ⟨hc ▸ hi.1, q1 ▸ hi.2.1, ?_, hi.2.2.2.1, fun m t => hB2 _ _ (hi.2.2.2.2.1 m t),
      hi.2.2.2.2.2⟩
    have := hi.2.2.1
    simpa [Book, q1, q2, q3] using this
  | log p => exact ⟨hc ▸ hi.1, hi.2.1, hi.2.2.1, fun t => hB _ (hi.2.2.2 t)⟩
  | enq p => exact ⟨hc ▸ hi.1, hi.2.1, hi.2.2.1, fun t => hB _ (hi.2.2.2 t)⟩
  | fin0 => exact ⟨hc ▸ hi.1, fun o => hs (hi.2.1 o), fun o => hB _ (hi.2.2 o)⟩
  | fin1 => exact ⟨hc ▸ hi.1, fun o => hs (hi.2.1 o), fun o => hB _ (hi.2.2 o)⟩
  | fin2 =>
    exact ⟨hc ▸ hi.1, hr hi.2.1, fun o => hs (hi.2.2.1 o), fun o => hB _ (hi.2.2.2 o)⟩

theorem Bad_congr {bad h h'} (q : h'.queue = h.queue) : Bad bad h → Bad bad h' := by
  simp [Bad, q]

theorem Still_congr {bad h h'} (q : h'.queue = h.queue) : Still bad h → Still bad h' := by
  simp [Still, Bad, q]

theorem HistI_snoc {ok hist} (e : Ev) (hi : HistI ok hist)
    (hc : ∀ k sid b, e = .say k sid b → k.closing = true → transmitted hist = enqueued hist)
    (hs : ok → ∀ sid cs, e = .status sid cs → ∀ c ∈ cs, c.owner = sid)
    (hk : ∀ k sid b, e = .say k sid b → sid = b) : HistI ok (hist ++ [e]) where
  closing := by
    intro h₁ k sid b h₂ h hk
    rcases List.eq_nil_or_concat h₂ with rfl | ⟨h₂, x, rfl⟩
    · have := List.append_inj' h rfl
      simp at this
      rw [← this.1]; exact hc k sid b this.2 hk
    · have h' : hist ++ [e] = (h₁ ++ .say k sid b :: h₂) ++ [x] := by simpa using h
      exact hi.closing _ _ _ _ _ (List.append_inj' h' rfl).1 hk
  own := by
    intro o sid cs h
    rcases List.mem_append.1 h with h | h
    · exact hi.own o sid cs h
    · exact hs o sid cs (List.mem_singleton.1 h).symm
  ids := by
    intro k sid b h
    rcases List.mem_append.1 h with h | h
    · exact hi.ids k sid b h
    · exact hk k sid b (List.mem_singleton.1 h).symm

/-- Effect of one flush transition of thread `t`. -/
structure FlEff (ok : Prop) (bad : Case → Bool) (t : Tid) (h : Sh) (fl : Fl) (h' : Sh) (r : FlRes) :
    Prop where
  go : ∀ fl', r = .go fl' → FlI ok bad h' fl' ∧ fl'.holds = true ∧ h'.qlock = some t
  done : r = .done → h'.queue = [] ∧ Book h' ∧ h'.qlock = none
  failed : r = .failed → h'.qlock = none ∧ Book h' ∧ (h.current = none ∨ Bad bad h')
  cur : h'.current = h.current
  glock : h'.glock = h.glock
  ready : h'.ready = h.ready
  keeps : Bad bad h → Bad bad h'
  still : Still bad h → Still bad h'
  hist : HistI ok h'.hist
  own : ok → Bad bad h' ∨ ∀ c ∈ h'.queue, h'.current = some c.owner
  quiet : Quiet h h' ∨ h.queue ≠ []
  free : fl.holds = false → h.qlock = none

theorem FlStep_eff {ok bad t h fl h' r} (st : FlStep bad t h fl h' r) (hi : FlI ok bad h fl)
    (hold : fl.holds = true → h.qlock = some t) (book : h.qlock = none → Book h)
    (own : ok → Bad bad h ∨ ∀ c ∈ h.queue, h.current = some c.owner) (hist : HistI ok h.hist) :
    FlEff ok bad t h fl h' r := by
  have key : ∀ h', h'.queue = h.queue → h'.hist = h.hist → h'.current = h.current → 
      (Bad bad h → Bad bad h') ∧ (Still bad h → Still bad h') ∧ HistI ok h'.hist ∧
      (ok → Bad bad h' ∨ ∀ c ∈ h'.queue, h'.current = some c.owner) ∧ Quiet h h' := by
    intro h' e1 e2 e3
    refine ⟨Bad_congr e1, Still_congr e1, e2 ▸ hist, fun o => ?_, e1, by rw [e2], by rw [e2]⟩
    rw [e1, e3]; exact (own o).imp_left (Bad_congr e1)
  cases st with
  | acq hl =>
    obtain ⟨k1, k2, k3, k4, k5⟩ := key { h with qlock := some t } rfl rfl rfl
    refine ⟨?_, by simp, by simp, rfl, rfl, rfl, k1, k2, k3, k4, .inl k5, fun _ => hl⟩
    intro fl' e
    cases e
    exact ⟨book hl, rfl, rfl⟩
  | empty hq =>
    obtain ⟨k1, k2, k3, k4, k5⟩ := key { h with qlock := none } rfl rfl rfl
    exact ⟨by simp, fun _ => ⟨hq, hi, rfl⟩, by simp, rfl, rfl, rfl, k1, k2, k3, k4, .inl k5, by simp [Fl.holds]⟩
  | nonempty hq =>
    obtain ⟨k1, k2, k3, k4, k5⟩ := key h rfl rfl rfl
    refine ⟨?_, by simp, by simp, rfl, rfl, rfl, k1, k2, k3, k4, .inl k5, by simp [Fl.holds]⟩
    intro fl' e
    cases e
    exact ⟨⟨hi, hq⟩, rfl, hold rfl⟩
  | noCurrent hc =>
    obtain ⟨k1, k2, k3, k4, k5⟩ := key { h with qlock := none } rfl rfl rfl
    exact ⟨by simp, by simp, fun _ => ⟨rfl, hi.1, .inl hc⟩, rfl, rfl, rfl, k1, k2, k3, k4, .inl k5,
      by simp [Fl.holds]⟩
  | build sid hc =>
    obtain ⟨k1, k2, k3, k4, k5⟩ := key h rfl rfl rfl
    refine ⟨?_, by simp, by simp, rfl, rfl, rfl, k1, k2, k3, k4, .inl k5, by simp [Fl.holds]⟩
    intro fl' e
    cases e
    refine ⟨⟨hi.1, hi.2, rfl, fun o => ?_⟩, rfl, hold rfl⟩
    refine (own o).imp_right fun k c hm => ?_
    have := k c hm
    rw [hc] at this
    simpa using this.symm
  | unserialisable sid cs hb =>
    obtain ⟨k1, k2, k3, k4, k5⟩ := key { h with qlock := none } rfl rfl rfl
    obtain ⟨i1, i2, rfl, i4⟩ := hi
    refine ⟨by simp, by simp, fun _ => ⟨rfl, i1, .inr ?_⟩, rfl, rfl, rfl, k1, k2, k3, k4, .inl k5,
      by simp [Fl.holds]⟩
    simpa [Bad] using hb
  | send sid cs hb =>
    obtain ⟨i1, i2, rfl, i4⟩ := hi
    have hnb : ∀ c ∈ h.queue, bad c = false := by simpa using hb
    have hnb' : ¬ Bad bad h := by
      rintro ⟨c, hc, hb⟩
      simp [hnb c hc] at hb
    refine ⟨?_, by simp, by simp, rfl, rfl, rfl, Bad_congr rfl, Still_congr rfl, ?_, ?_, .inr i2,
      by simp [Fl.holds]⟩
    · intro fl' e
      cases e
      refine ⟨⟨?_, i2, hnb⟩, rfl, hold rfl⟩
      simpa [enqueued, transmitted, Book] using i1
    · refine HistI_snoc _ hist (by simp) ?_ (by simp)
      intro o sid' cs' e
      cases e
      exact (i4 o).resolve_left hnb'
    · exact fun o => (own o).imp_left (Bad_congr rfl)
  | clear =>
    obtain ⟨i1, i2, i3⟩ := hi
    have hnb' : ¬ Bad bad h := by
      rintro ⟨c, hc, hb⟩
      simp [i3 c hc] at hb
    refine ⟨by simp, fun _ => ⟨rfl, ?_, rfl⟩, by simp, rfl, rfl, rfl, fun b => absurd b hnb',
      fun _ => .inl rfl, hist, fun _ => .inr (by simp), .inr i2, by simp [Fl.holds]⟩
    simpa [Book] using i1

theorem ok_PcI {ok bad h} {g : Gr} (hc : h.current = some g.sid)
    (h1 : ok → openResults g.got = false → Still bad h) (h2 : Told g → Sent g ∨ Bad bad h)
    (h3 : g.mode = .err → (ok → Still bad h) ∧ (ok → Sent g ∨ Bad bad h)) :
    PcI ok bad h g.ok g.ok.pc := by
  unfold Gr.ok
  split
  · rename_i hm; exact ⟨hc, hm, h1, h2⟩
  · exact ⟨hc, rfl, h1, h2⟩
  · rename_i hm; exact ⟨hc, (h3 hm).1, (h3 hm).2⟩

theorem fail_PcI {ok bad h} {g : Gr} (hc : h.current = some g.sid) (hb : g.mode ≠ .loop → Bad bad h) :
    PcI ok bad h g.fail g.fail.pc := by
  unfold Gr.fail
  split
  · exact ⟨hc, trivial, rfl, by simp, by simp⟩
  · rename_i hm
    have hb := hb (by simp [hm])
    exact ⟨hc, rfl, fun _ _ => .inr hb, fun _ => .inr hb⟩
  · rename_i hm
    have hb := hb (by simp [hm])
    exact ⟨hc, fun _ => .inr hb, fun _ => .inr hb⟩

theorem ok_holds (g : Gr) : g.ok.pc.holds = false := by
  unfold Gr.ok; split <;> rfl

theorem fail_holds (g : Gr) : g.fail.pc.holds = false := by
  unfold Gr.fail; split <;> rfl

theorem ok_ticket (g : Gr) : g.ok.ticket = g.ticket := by
  unfold Gr.ok; split <;> rfl

theorem fail_ticket (g : Gr) : g.fail.ticket = g.ticket := by
  unfold Gr.fail; split <;> rfl

theorem handle_holds (g : Gr) (m : Msg) : (g.handle m).pc.holds = false := by
  cases m <;> first | exact fail_holds _ | rfl

theorem handle_ticket (g : Gr) (m : Msg) : (g.handle m).ticket = g.ticket := by
  cases m <;> simp [Gr.handle, fail_ticket]

theorem handle_PcI {ok bad h} {g : Gr} (m : Msg) (hi : PcI ok bad h g .loop) :
    PcI ok bad h (g.handle m) (g.handle m).pc := by
  obtain ⟨i1, i2, i3, i4⟩ := hi
  have told : ∀ g' : Gr, g'.got = g.got ++ [m] → g'.sent = g.sent →
      (Told g' → Sent g' ∨ Bad bad h ∨ m.terminal = true) := by
    rintro g' e1 e2 ⟨x, hx, ht⟩
    rw [e1] at hx
    rcases List.mem_append.1 hx with hx | hx
    · rcases i4 ⟨x, hx, ht⟩ with h | h
      · left; simpa [Sent, e2] using h
      · exact .inr (.inl h)
    · rw [List.mem_singleton.1 hx] at ht; exact .inr (.inr ht)
  cases m with
  | hello =>
    refine ⟨i1, i2, by simpa [Gr.handle, openAfter] using i3, fun t => ?_⟩
    simpa [Msg.terminal] using told (g.handle _) rfl rfl t
  | compileError =>
    exact ⟨i1, i2, rfl, by simp, by simpa [Gr.handle, openAfter] using i3, fun _ => .inr (.inr rfl)⟩
  | compileMessage =>
    refine ⟨i1, i2, rfl, by simp, by simpa [Gr.handle, openAfter] using i3, fun t => ?_⟩
    simpa [Msg.terminal, Kind.terminal] using told (g.handle _) rfl rfl t
  | gradingBegin =>
    refine ⟨i1, i2, rfl, by simp, by simpa [Gr.handle, openAfter] using i3, fun t => ?_⟩
    simpa [Msg.terminal, Kind.terminal] using told (g.handle _) rfl rfl t
  | gradingEnd => exact ⟨i1, trivial, rfl, fun _ _ => .inr (.inr rfl), by simp [Gr.handle, i2]⟩
  | gradingAborted => exact ⟨i1, trivial, rfl, fun _ _ => .inr (.inr rfl), by simp [Gr.handle, i2]⟩
  | batchBegin =>
    refine ⟨i1, trivial, rfl, fun _ t => ?_, by simp [Gr.handle, i2]⟩
    simpa [Msg.terminal, Kind.terminal] using told (g.handle _) rfl rfl t
  | batchEnd =>
    refine ⟨i1, trivial, rfl, fun _ t => ?_, by simp [Gr.handle, i2]⟩
    simpa [Msg.terminal, Kind.terminal] using told (g.handle _) rfl rfl t
  | result p =>
    refine ⟨i1, i2, by simp [Gr.handle, openAfter], fun t => ?_⟩
    simpa [Msg.terminal] using told (g.handle _) rfl rfl t
  | unhandled => exact ⟨i1, trivial, rfl, by simp [Gr.handle], by simp [Gr.handle]⟩
  | garbage => exact fail_PcI (by simpa using i1) (by simp [i2])

/-- Effect of one transition of a grading thread that goes on. -/
structure GrEff (ok : Prop) (bad : Case → Bool) (h : Sh) (g : Gr) (h' : Sh) (g' : Gr) : Prop where
  pc : PcI ok bad h' g' g'.pc
  ticket : g'.ticket = g.ticket
  glock : h'.glock = h.glock
  lock : h'.qlock = if g'.pc.holds then some (.grader g.ticket) else
    if g.pc.holds then none else h.qlock
  free : g'.pc.holds = true → g.pc.holds = false → h.qlock = none
  book : h'.qlock = none → Book h'
  keeps : Bad bad h → Bad bad h'
  hist : HistI ok h'.hist
  own : ok → Bad bad h' ∨ ∀ c ∈ h'.queue, h'.current = some c.owner
  quiet : Quiet h h' ∨ g.pc.holds = true ∨ h.qlock = none

theorem Quiet.refl (h : Sh) : Quiet h h := ⟨rfl, rfl, rfl⟩

/-- A transition of a grading thread that only changes the thread itself. -/
theorem GrEff_local {ok bad h} {g g' : Gr} (book : h.qlock = none → Book h)
    (own : ok → Bad bad h ∨ ∀ c ∈ h.queue, h.current = some c.owner) (hist : HistI ok h.hist)
    (hg : g.pc.holds = false) (hg' : g'.pc.holds = false) (ht : g'.ticket = g.ticket)
    (hi : PcI ok bad h g' g'.pc) : GrEff ok bad h g h g' :=
  ⟨hi, ht, rfl, by simp [hg, hg'], by simp [hg'], book, id, hist, own, .inl (Quiet.refl h)⟩

theorem GrEff_flush {ok bad h fl h' r} {g g' : Gr} {k : Kind} (hp : g.pc = .flush k fl)
    (e : FlEff ok bad (.grader g.ticket) h fl h' r) (ht : g'.ticket = g.ticket)
    (hl : g'.pc.holds = true → h'.qlock = some (.grader g.ticket))
    (hl' : g'.pc.holds = false → h'.qlock = none ∧ Book h')
    (hh : fl.holds = true ∨ g'.pc.holds = true)
    (hi : PcI ok bad h' g' g'.pc) : GrEff ok bad h g h' g' := by
  refine ⟨hi, ht, e.glock, ?_, ?_, ?_, e.keeps, e.hist, e.own, ?_⟩
  · by_cases hb : g'.pc.holds = true
    · simp [hb, hl hb]
    · simp only [Bool.not_eq_true] at hb
      have : fl.holds = true := by simpa [hb] using hh
      simp [hb, hp, this, (hl' hb).1]
  · intro _ h2
    exact e.free (by simpa [hp] using h2)
  · intro hn
    by_cases hb : g'.pc.holds = true
    · simp [hl hb] at hn
    · exact (hl' (by simpa using hb)).2
  · by_cases hb : fl.holds = true
    · exact .inr (.inl (by simp [hp, hb]))
    · exact .inr (.inr (e.free (by simpa using hb)))

theorem GrStep_eff {ok bad byeOk h g h' g'} (hb : ok → ∀ got, byeOk got → WorkerBye got)
    (st : GrStep bad byeOk h g h' (some g')) (hi : PcI ok bad h g g.pc)
    (hold : g.pc.holds = true → h.qlock = some (.grader g.ticket)) (book : h.qlock = none → Book h)
    (own : ok → Bad bad h ∨ ∀ c ∈ h.queue, h.current = some c.owner) (hist : HistI ok h.hist) :
    GrEff ok bad h g h' g' := by
  cases st with
  | recv m hp =>
    rw [hp] at hi
    exact GrEff_local book own hist (by simp [hp]) (handle_holds g m) (handle_ticket g m)
      (handle_PcI m hi)
  | bye hp hbye =>
    rw [hp] at hi
    refine GrEff_local book own hist (by simp [hp]) rfl rfl ⟨hi.1, fun o => ?_, fun o => ?_⟩
    · exact hi.2.2.1 o (hb o _ hbye).1
    · exact hi.2.2.2 (hb o _ hbye).2
  | crash hp =>
    rw [hp] at hi
    exact GrEff_local book own hist (by simp [hp]) (fail_holds g) (fail_ticket g)
      (fail_PcI hi.1 (fun hm => absurd hi.2.1 hm))
  | ready hp =>
    rw [hp] at hi
    refine ⟨ok_PcI hi.1 (fun o p => Still_congr rfl (hi.2.2.1 o p)) (fun t => hi.2.2.2 t)
      (fun hm => by simp [hi.2.1] at hm), ok_ticket g, rfl,
      by simp [ok_holds, hp], by simp [ok_holds], book, id, hist, own, .inl ⟨rfl, rfl, rfl⟩⟩
  | plainNone k hp hc => rw [hp] at hi; simp [hi.1] at hc
  | plainRead k sid hp hc =>
    rw [hp] at hi
    refine GrEff_local book own hist (by simp [hp]) rfl rfl
      ⟨hi.1, hi.2.1, hi.2.2.1, ?_, hi.2.2.2.2.1, hi.2.2.2.2.2⟩
    intro i e
    rw [hi.1] at hc
    simp_all
  | plainSend k sid hp =>
    rw [hp] at hi
    obtain ⟨i1, i2, i3, i4, i5, i6⟩ := hi
    refine ⟨ok_PcI i1 (fun o p => Still_congr rfl (i5 o p)) (fun t => ?_) (fun hm => by simp [i2] at hm),
      ok_ticket _, rfl, by simp [ok_holds, hp], by simp [ok_holds], ?_, id, ?_, own, .inl ?_⟩
    · rcases i6 t with ⟨x, hx, ht⟩ | h | h
      · exact .inl ⟨x, by simp [hx], ht⟩
      · exact .inr h
      · exact .inl ⟨k, by simp, h⟩
    · intro hn
      have := book hn
      simpa [Book, enqueued, transmitted] using this
    · refine HistI_snoc _ hist ?_ (by simp) ?_
      · intro k' _ _ e hk
        cases e
        simp [i3] at hk
      · intro _ _ _ e
        cases e
        exact i4 sid rfl
    · simp [Quiet, enqueued, transmitted]
  | flush k fl _ fl' hp hf =>
    rw [hp] at hi
    have e := FlStep_eff hf hi.2.1 (by simpa [hp] using hold) book own hist
    obtain ⟨e1, e2, e3⟩ := e.go _ rfl
    refine GrEff_flush hp e rfl (fun _ => e3) (by simp [e2]) (.inr (by simp [e2]))
      ⟨e.cur ▸ hi.1, e1, hi.2.2.1, fun hm t => ?_, hi.2.2.2.2⟩
    exact (hi.2.2.2.1 hm t).imp_right (Or.imp_left e.keeps)
  | flushDone k fl _ hp hf =>
    rw [hp] at hi
    have e := FlStep_eff hf hi.2.1 (by simpa [hp] using hold) book own hist
    obtain ⟨e1, e2, e3⟩ := e.done rfl
    refine GrEff_flush hp e rfl (by simp) (fun _ => ⟨e3, e2⟩) (.inl ?_)
      ⟨e.cur ▸ hi.1, e1, e2, by simp, fun hm t => ?_, hi.2.2.2.2⟩
    · cases hf <;> rfl
    · exact (hi.2.2.2.1 hm t).imp_right (Or.imp_left e.keeps)
  | flushFail k fl _ hp hf =>
    rw [hp] at hi
    have e := FlStep_eff hf hi.2.1 (by simpa [hp] using hold) book own hist
    obtain ⟨e1, e2, e3⟩ := e.failed rfl
    refine GrEff_flush hp e (fail_ticket g) (by simp [fail_holds]) (fun _ => ⟨e1, e2⟩) (.inl ?_)
      (fail_PcI (e.cur ▸ hi.1) fun _ => ?_)
    · cases hf <;> rfl
    · rcases e3 with e3 | e3
      · simp [hi.1] at e3
      · exact e3
  | closeNone k hp hc => rw [hp] at hi; simp [hi.1] at hc
  | closeRead k sid hp hc =>
    rw [hp] at hi
    refine GrEff_local book own hist (by simp [hp]) rfl rfl
      ⟨hi.1, hi.2.1, hi.2.2.1, ?_, hi.2.2.2.2.1, hi.2.2.2.2.2⟩
    intro i e
    rw [hi.1] at hc
    simp_all
  | closeSend k sid hp =>
    rw [hp] at hi
    obtain ⟨i1, i2, i3, i4, i5, i6⟩ := hi
    refine ⟨ok_PcI i1 (fun _ _ => .inl i2) (fun t => ?_)
      (fun hm => ⟨fun _ => .inl i2, fun _ => .inl ⟨k, by simp, ?_⟩⟩),
      ok_ticket _, rfl, by simp [ok_holds, hp], by simp [ok_holds], ?_, id, ?_, own, .inl ?_⟩
    · by_cases hm : g.mode = .loop
      · rcases i5 hm t with ⟨x, hx, ht⟩ | h | h
        · exact .inl ⟨x, by simp [hx], ht⟩
        · exact .inr h
        · exact .inl ⟨k, by simp, h⟩
      · exact .inl ⟨k, by simp, by rw [i6 hm]; rfl⟩
    · have hm : g.mode = .err := hm
      rw [i6 (by simp [hm])]; rfl
    · intro hn
      have := book hn
      simpa [Book, enqueued, transmitted] using this
    · refine HistI_snoc _ hist ?_ (by simp) ?_
      · intro _ _ _ e hk
        simpa [Book, i2] using i3.symm
      · intro _ _ _ e
        cases e
        exact i4 sid rfl
    · simp [Quiet, enqueued, transmitted]
  | logNone p hp hc => rw [hp] at hi; simp [hi.1] at hc
  | log p sid hp hc =>
    rw [hp] at hi
    exact GrEff_local book own hist (by simp [hp]) rfl rfl hi
  | enq p hp hl =>
    rw [hp] at hi
    obtain ⟨i1, i2, i3, i4⟩ := hi
    have keeps : Bad bad h → Bad bad { h with queue := h.queue ++ [⟨g.sid, p⟩], hist := h.hist ++ [.enq ⟨g.sid, p⟩] } := by
      rintro ⟨c, hc, hb⟩
      exact ⟨c, by simp [hc], hb⟩
    refine ⟨ok_PcI i1 (fun _ hf => by simp [i3] at hf) (fun t => (i4 t).imp_right keeps)
      (fun hm => by simp [i2] at hm), ok_ticket _, rfl, by simp [ok_holds, hp],
      by simp [ok_holds], ?_, keeps, ?_, ?_, .inr (.inr hl)⟩
    · intro hn
      have := book hl
      simp only [Book] at this
      simp [Book, enqueued, transmitted, this]
    · exact HistI_snoc _ hist (by simp) (by simp) (by simp)
    · intro o
      rcases own o with hb | ho
      · exact .inl (keeps hb)
      · right
        intro c hc
        rcases List.mem_append.1 hc with hc | hc
        · exact ho c hc
        · rw [List.mem_singleton.1 hc]; exact i1
  | clearWorker hp =>
    rw [hp] at hi
    refine ⟨⟨rfl, fun o => hi.2.1 o, fun o => hi.2.2 o⟩, rfl, rfl, by simp [hp],
      by simp, book, id, hist, ?_, .inl ⟨rfl, rfl, rfl⟩⟩
    intro o
    rcases hi.2.1 o with h | h
    · right; intro c hc; simp [h] at hc
    · exact .inl h
  | signal hp =>
    rw [hp] at hi
    exact ⟨⟨hi.1, rfl, fun o => hi.2.1 o, fun o => hi.2.2 o⟩, rfl, rfl, by simp [hp],
      by simp, book, id, hist, own, .inl ⟨rfl, rfl, rfl⟩⟩

/-- The flusher holds the queue lock. -/
def S.fholds (s : S) : Bool := (s.fl.map Fl.holds).getD false

/-- A step of the network thread that leaves queue, queue lock and worker alone. -/
theorem Inv_sh {ok bad s og} (hi : Inv ok bad s og) (h' : Sh) (net : Net)
    (hs : Slot { s with net := net, sh := h' } og)
    (hl : h'.qlock = s.sh.qlock) (hc : h'.current = s.sh.current)
    (hr : s.sh.ready = true → h'.ready = true) (hq : Quiet s.sh h') (hh : HistI ok h'.hist) :
    Inv ok bad { s with net := net, sh := h' } og where
  slot := hs
  pc := fun g hg => PcI_mono hc hr (Bad_congr hq.1) (Still_congr hq.1) (.inl hq) (hi.pc g hg)
  fl := fun fl hf => FlI_congr hq (hi.fl fl hf)
  book := by
    intro hn
    have := hi.book (hl ▸ hn)
    simpa [Book, hq.1, hq.2.1, hq.2.2] using this
  own := fun o => by
    have := hi.own o
    rw [← hq.1, ← hc] at this
    exact this.imp_left (Bad_congr hq.1)
  hist := hh
  fin := fun o g hg => (hi.fin o g hg).imp_right (Bad_congr hq.1)
  fresh := fun o h => Still_congr hq.1 (hi.fresh o h)

theorem lockF {ok bad s og} (hi : Inv ok bad s og) (hf : s.fholds = true) :
    s.sh.qlock = some .flusher := by
  have := hi.slot
  cases og with
  | none => simpa [Slot, S.fholds] using (by simp_all [Slot, S.fholds] : s.sh.qlock = _)
  | some g => simp_all [Slot, S.fholds]

theorem Inv_flush {ok bad s og fl h' r} (hi : Inv ok bad s og) (hf : s.fl = some fl)
    (st : FlStep bad .flusher s.sh fl h' r) (fl'' : Option Fl)
    (hr : (∃ fl', r = .go fl' ∧ fl'' = some fl') ∨ ((r = .done ∨ r = .failed) ∧ fl'' = none)) :
    ∃ og, Inv ok bad { s with sh := h', fl := fl'' } og := by
  have hold : fl.holds = true → s.sh.qlock = some .flusher := by
    intro h; exact lockF hi (by simp [S.fholds, hf, h])
  have e := FlStep_eff st (hi.fl fl hf) hold hi.book hi.own hi.hist
  have hlk : h'.qlock = if (fl''.map Fl.holds).getD false then some .flusher else none := by
    rcases hr with ⟨fl', h1, h2⟩ | ⟨h1 | h1, h2⟩
    · obtain ⟨_, e2, e3⟩ := e.go _ h1
      simp [h2, e2, e3]
    · simp [h2, (e.done h1).2.2]
    · simp [h2, (e.failed h1).1]
  have hnog : ∀ g, og = some g → g.pc.holds = false := by
    rintro g rfl
    have hs := hi.slot
    by_cases hb : fl.holds = true
    · exact hs.2.2.1 (by simp [hf, hb])
    · have hn := e.free (by simpa using hb)
      have := hs.2.2.2.1
      rw [hn] at this
      simp only [hf, Option.map_some, Option.getD_some] at this
      by_contra hc
      simp [hb, hc] at this
  refine ⟨og, ⟨?_, ?_, ?_, ?_, e.own, e.hist, ?_, fun o h => e.still (hi.fresh o h)⟩⟩
  · cases og with
    | none =>
      have hs := hi.slot
      refine ⟨hs.1, hlk, ?_⟩
      have := hs.2.2
      simp only [e.glock, e.cur, e.ready]
      exact this
    | some g =>
      have hs := hi.slot
      refine ⟨hs.1, e.glock ▸ hs.2.1, fun _ => hnog g rfl, ?_, hs.2.2.2.2⟩
      simp [hlk, hnog g rfl]
  · intro g hg
    refine PcI_mono e.cur (by simp [e.ready]) e.keeps e.still ?_ (hi.pc g hg)
    exact e.quiet.imp_right fun h => ⟨hnog g hg, h⟩
  · intro fl' hfl
    rcases hr with ⟨fl₁, h1, h2⟩ | ⟨h1, h2⟩
    · have : fl₁ = fl' := by simpa [h2] using hfl
      exact this ▸ (e.go _ h1).1
    · simp [h2] at hfl
  · intro hn
    rcases hr with ⟨fl₁, h1, h2⟩ | ⟨h1 | h1, h2⟩
    · have := (e.go _ h1).2.2
      rw [show h'.qlock = none from hn] at this
      simp at this
    · exact (e.done h1).2.1
    · exact (e.failed h1).2.1
  · exact fun o g hg => (hi.fin o g hg).imp_right e.keeps

theorem Inv_init (ok bad) : Inv ok bad init none := by
  refine ⟨?_, by simp, by simp [init], by simp [init, Book, enqueued, transmitted], by simp [init], ?_,
    by simp [init], fun _ _ => .inl rfl⟩
  · simp [Slot, init]
  · exact ⟨by simp [init], by simp [init], by simp [init]⟩

theorem Inv_step {ok bad byeOk s s' og} (hb : ok → ∀ got, byeOk got → WorkerBye got)
    (hi : Inv ok bad s og) (st : Step bad byeOk s s') : ∃ og, Inv ok bad s' og := by
  have hs := hi.slot
  cases st with
  | request sid hn =>
    refine ⟨og, Inv_sh hi _ _ ?_ rfl rfl id ?_ (HistI_snoc _ hi.hist (by simp) (by simp) (by simp))⟩
    · cases og <;> simp_all [Slot]
    · simp [Quiet, enqueued, transmitted]
  | acquire sid hn hl =>
    refine ⟨og, Inv_sh hi _ _ ?_ rfl rfl id (Quiet.refl _) hi.hist⟩
    cases og <;> simp_all [Slot]
  | create sid hn =>
    cases og with
    | some g => simp_all [Slot]
    | none =>
      refine ⟨none, ?_, by simp, fun fl hf => FlI_congr (by exact ⟨rfl, rfl, rfl⟩) (hi.fl fl hf), hi.book, ?_, hi.hist, hi.fin,
        fun o h => Still_congr rfl (hi.fresh o h)⟩
      · simp_all [Slot]
      · intro o
        refine (hi.own o).imp_right fun h c hc => ?_
        have hcur : s.sh.current = none := by simp_all [Slot]
        have := h c hc
        simp [hcur] at this
  | start sid hn =>
    cases og with
    | some g => simp_all [Slot]
    | none =>
      have hcur : s.sh.current = some sid := by simp_all [Slot]
      refine ⟨some ⟨s.next, sid, .loop, .loop, [], []⟩, ?_, ?_, hi.fl, hi.book, hi.own, hi.hist, hi.fin,
        by simp⟩
      · simp_all [Slot]
      · rintro g hg
        cases hg
        exact ⟨hcur, rfl, fun o _ => hi.fresh o rfl, by simp [Told]⟩
  | wait hn hr =>
    refine ⟨og, Inv_sh hi s.sh _ ?_ rfl rfl id (Quiet.refl _) hi.hist⟩
    cases og <;> simp_all [Slot]
  | other =>
    refine ⟨og, Inv_sh hi _ s.net ?_ rfl rfl id ?_ (HistI_snoc _ hi.hist (by simp) (by simp) (by simp))⟩
    · cases og <;> simp_all [Slot]
    · simp [Quiet, enqueued, transmitted]
  | flushStart hf =>
    refine ⟨og, ?_, hi.pc, ?_, hi.book, hi.own, hi.hist, hi.fin, hi.fresh⟩
    · cases og <;> simp_all [Slot, Fl.holds]
    · intro fl h
      cases h
      trivial
  | flush fl h' fl' hf hst => exact Inv_flush hi hf hst (some fl') (.inl ⟨fl', rfl, rfl⟩)
  | flushEnd fl h' r hf hst hr => exact Inv_flush hi hf hst none (.inr ⟨hr, rfl⟩)
  | grader pre g post h' g' hg hst =>
    cases og with
    | none => simp_all [Slot]
    | some g₀ =>
      obtain ⟨s1, s2, s3, s4, s5⟩ := hs
      rw [s1] at hg
      obtain ⟨rfl, rfl, rfl⟩ : pre = [] ∧ g = g₀ ∧ post = [] := by
        cases pre <;> simp_all
      have hpc := hi.pc g rfl
      have hold : g.pc.holds = true → s.sh.qlock = some (.grader g.ticket) := by
        intro h
        rw [s4]
        by_cases hf : (s.fl.map Fl.holds).getD false = true
        · simp [s3 hf] at h
        · simp [hf, h]
      have e := GrStep_eff hb hst hpc hold hi.book hi.own hi.hist
      have hfq : ∀ fl, s.fl = some fl → fl.holds = true → g.pc.holds = false ∧ s.sh.qlock ≠ none := by
        intro fl hf hh
        have h1 : (s.fl.map Fl.holds).getD false = true := by simp [hf, hh]
        exact ⟨s3 h1, by rw [s4]; simp [h1]⟩
      refine ⟨some g', ⟨?_, ?_, ?_, e.book, e.own, e.hist, ?_, by simp⟩⟩
      · refine ⟨rfl, e.glock ▸ s2, ?_, ?_, s5⟩
        · intro h
          have h : (s.fl.map Fl.holds).getD false = true := h
          by_contra hc
          have := e.free (by simpa using hc) (s3 h)
          rw [s4] at this
          simp [h] at this
        · show h'.qlock = if (s.fl.map Fl.holds).getD false then _ else _
          rw [e.lock, s4, e.ticket]
          by_cases h : (s.fl.map Fl.holds).getD false = true
          · have h2 := s3 h
            by_cases h3 : g'.pc.holds = true
            · have := e.free h3 h2
              rw [s4] at this
              simp [h] at this
            · simp [h, h2, h3]
          · by_cases h3 : g'.pc.holds = true <;> by_cases h2 : g.pc.holds = true <;> simp [h, h2, h3]
      · intro x hx
        cases hx
        exact e.pc
      · intro fl hf
        rcases e.quiet with q | q | q
        · exact FlI_congr q (hi.fl fl hf)
        · by_cases hh : fl.holds = true
          · simp [(hfq fl hf hh).1] at q
          · cases fl <;> trivial
        · by_cases hh : fl.holds = true
          · exact absurd q (hfq fl hf hh).2
          · cases fl <;> trivial
      · exact fun o x hx => (hi.fin o x hx).imp_right e.keeps
  | graderEnd pre g post h' hg hst =>
    cases og with
    | none => simp_all [Slot]
    | some g₀ =>
      obtain ⟨s1, s2, s3, s4, s5⟩ := hs
      rw [s1] at hg
      obtain ⟨rfl, rfl, rfl⟩ : pre = [] ∧ g = g₀ ∧ post = [] := by
        cases pre <;> simp_all
      have hpc := hi.pc g rfl
      cases hst with
      | release hp =>
        rw [hp] at hpc
        refine ⟨none, ⟨?_, by simp, fun fl hf => FlI_congr ⟨rfl, rfl, rfl⟩ (hi.fl fl hf), hi.book,
          hi.own, hi.hist, ?_, fun o _ => hpc.2.2.1 o⟩⟩
        · refine ⟨rfl, ?_, ?_⟩
          · simpa [hp] using s4
          · have h1 := hpc.1
            have h2 := hpc.2.1
            cases hn : s.net <;> simp only [hn] at s5 ⊢
            · exact ⟨trivial, h1⟩
            · exact ⟨trivial, h1⟩
            · exact ⟨trivial, h1, h2⟩
        · intro o x hx
          rcases List.mem_append.1 hx with hx | hx
          · exact hi.fin o x hx
          · rw [List.mem_singleton.1 hx]; exact hpc.2.2.2 o

theorem Inv_reachable {bad byeOk s} (ok : Prop) (hb : ok → ∀ got, byeOk got → WorkerBye got)
    (hr : Reachable bad byeOk s) : ∃ og, Inv ok bad s og := by
  induction hr with
  | init => exact ⟨none, Inv_init ok bad⟩
  | step _ st ih =>
    obtain ⟨og, hi⟩ := ih
    exact Inv_step hb hi st

end Verif.Judge
