import Verif.Lemmas.Exchange

/-!
# C111 A program, its three pipes and the judge
-/

namespace Verif.Exchange
open Verif.Communicate (Chan Fd Args)
open Verif.Exchange.Spec

theorem pipes_of {cap : Nat} {a : Args} {s : State} (h : Inv cap a s) :
    (∃ c, Pipes a s c) ∨ (∃ n, s.phase = .setup n ∧ Setup s n) ∨ s.status = .unborn := by
  have hat := h.at_
  cases hp : s.phase with
  | setup n => rw [hp] at hat; exact .inr (.inl ⟨n, rfl, hat⟩)
  | talk c ps => rw [hp] at hat; exact .inl ⟨c, hat.1⟩
  | kill c => rw [hp] at hat; exact .inl ⟨c, hat.1⟩
  | wait c o => rw [hp] at hat; exact .inl ⟨c, by cases o <;> exact hat.1⟩
  | done c o => rw [hp] at hat; exact .inl ⟨c, by cases o <;> exact hat.1⟩
  | failing n => rw [hp] at hat; exact .inr (.inr hat.unborn)
  | failed => rw [hp] at hat; exact .inr (.inr hat.unborn)

/-- **C111**: while the judge talks to the program, only the program can read the input and only the judge can write it; only the
program can write to its outputs and only the judge can read them. -/
theorem C111_ends {cap : Nat} {input : List UInt8} {limit : Nat} {s : State} (h : Reach cap input limit s) (ht : Talking s)
    (hb : s.status ≠ .born) :
    (∀ w, s.rd .in_ w = true → w = .prog) ∧ (∀ w, s.wr .in_ w = true → w = .judge) ∧
    ∀ x, (∀ w, s.rd (.out x) w = true → w = .judge) ∧ ∀ w, s.wr (.out x) w = true → w = .prog := by
  have hi := inv h
  obtain ⟨c, ps, hp⟩ := ht
  obtain ⟨⟨i1, i2, i3⟩, _, hat⟩ := hi
  rw [hp] at hat
  obtain ⟨⟨p1, p2, p3, p4, p5, p6, p7, p8, p9, p10, p11, p12, p13⟩, _⟩ := hat
  have key : (∀ p, s.wr p .prog = true → p ≠ .in_) ∧ ∀ x, s.rd (.out x) .prog = false := by
    cases hs : s.status <;> grind
  refine ⟨?_, ?_, fun x => ⟨?_, ?_⟩⟩ <;> rintro (_ | _) <;> grind

/-- **C111**: at any time, what the program has read, followed by what is waiting for it, is a beginning of the input. -/
theorem C111_input {cap : Nat} {input : List UInt8} {limit : Nat} {s : State} (h : Reach cap input limit s) :
    s.got .in_ ++ s.buf .in_ <+: input := by
  have hi := inv h
  rw [← hi.bytes.bytes]
  have hat := hi.at_
  have key : ∀ c, Pipes (args input limit) s c → s.put .in_ <+: input := by
    intro c hc
    rw [hc.put, hc.sent]
    exact List.take_prefix _ _
  cases hp : s.phase with
  | setup n => rw [hp] at hat; rw [hat.put]; exact List.nil_prefix
  | talk c ps => rw [hp] at hat; exact key c hat.1
  | kill c => rw [hp] at hat; exact key c hat.1
  | wait c o => rw [hp] at hat; exact key c (by cases o <;> exact hat.1)
  | done c o => rw [hp] at hat; exact key c (by cases o <;> exact hat.1)
  | failing n => rw [hp] at hat; rw [hat.put]; exact List.nil_prefix
  | failed => rw [hp] at hat; rw [hat.put]; exact List.nil_prefix

/-- **C111**: a program that meets the end of its input has read all of it. -/
theorem C111_eof {cap : Nat} {input : List UInt8} {limit : Nat} {s : State} (h : Reach cap input limit s) (hr : s.status = .running)
    (hd : s.rd .in_ .prog = true) (he : s.buf .in_ = []) (hw : noWriter s .in_ = true) : s.got .in_ = input := by
  have hi := inv h
  simp only [noWriter, Bool.and_eq_true, Bool.not_eq_true'] at hw
  rcases pipes_of hi with ⟨c, hc⟩ | ⟨n, _, hc⟩ | hc
  · have hb := hi.bytes.bytes .in_
    rw [he, List.append_nil] at hb
    rw [← hb, hc.put, hc.sent]
    rcases hc.fin (by rw [← hc.win]; exact hw.1) with h1 | h1
    · rw [h1]; exact List.take_length
    · rw [hd] at h1; cases h1
  · have h1 := hc.w0
    have h2 : ¬ n ≤ 3 := fun h => by have := hc.unborn.2 h; rw [hr] at this; cases this
    rw [hw.1, eq_comm, decide_eq_false_iff_not] at h1
    omega
  · rw [hr] at hc; cases hc

/-- **C111**: nothing the program writes is lost: whatever it writes to an output or to its errors is added to what was put there,
and nothing else is. -/
theorem C111_written {cap : Nat} {input : List UInt8} {limit : Nat} {s t : State} {l : Label} (h : Reach cap input limit s)
    (hs : step cap (args input limit) s l = some t) (x : Chan) :
    (∀ b, l = .prog (.write x b) → t.put (.out x) = s.put (.out x) ++ [b]) ∧
    ((∀ b, l ≠ .prog (.write x b)) → t.put (.out x) = s.put (.out x)) := by
  have hi := inv h
  constructor
  · rintro b rfl
    simp only [step, deed] at hs
    split at hs
    · rename_i hc
      have hn : noReader s (.out x) = false := by
        simp only [noReader]
        rcases pipes_of hi with ⟨c, hc'⟩ | ⟨n, _, hc'⟩ | hc'
        · cases ho : c.isOpen (.chan x) with
          | true => rw [hc'.rout, ho]; rfl
          | false => have := (hc'.closed x ho).2; rw [hc.2] at this; cases this
        · have h2 : ¬ n ≤ 3 := fun h => by have := hc'.unborn.2 h; rw [hc.1] at this; cases this
          cases x with
          | out => rw [hc'.r1, decide_eq_true (by omega)]; rfl
          | err => rw [hc'.r2, decide_eq_true (by omega)]; rfl
        · rw [hc.1] at hc'; cases hc'
      rw [hn, if_neg (by decide)] at hs
      split at hs <;> cases hs
      simp [upd]
    · cases hs
  · intro hl
    have hset : ∀ c c' r, (settle s c c' r).put (.out x) = s.put (.out x) := by
      intro c c' r
      unfold settle
      cases r <;> simp [upd]
    cases l with
    | noFork => simp only [step] at hs; split at hs <;> cases hs; rfl
    | judge =>
      simp only [step, judge] at hs
      cases hp : s.phase with
      | setup n =>
        rw [hp] at hs
        simp only at hs
        split at hs
        · cases hs; rename_i y _; cases y <;> rfl
        · cases hs; rfl
      | talk c ps =>
        rw [hp] at hs
        cases ps with
        | nil =>
          simp only at hs
          split at hs
          · split at hs <;> cases hs; rfl
          · cases hs; rfl
        | cons e ps =>
          simp only at hs
          split at hs
          · cases hs
          · cases hs; exact hset ..
      | kill c => rw [hp] at hs; simp only at hs; cases hs; rfl
      | wait c o => rw [hp] at hs; simp only at hs; split at hs <;> cases hs; rfl
      | done c o => rw [hp] at hs; simp only at hs; cases hs
      | failing n =>
        rw [hp] at hs
        simp only at hs
        split at hs
        · cases hs; rename_i y _; cases y <;> rfl
        · cases hs; rfl
      | failed => rw [hp] at hs; simp only at hs; cases hs
    | prog d =>
      simp only [step] at hs
      cases d with
      | write y b =>
        have hy : x ≠ y := fun h => hl b (by rw [h])
        simp only [deed] at hs
        split_ifs at hs <;> cases hs <;> simp [upd, hy]
      | _ => simp only [deed] at hs; split_ifs at hs; cases hs; rfl

/-- **C111**: if the case is graded with an output, the program has ended, and the output and the errors are exactly what it wrote,
within what is allowed. -/
theorem C111_result {cap : Nat} {input : List UInt8} {limit : Nat} {s : State} {o e : List UInt8} (h : Reach cap input limit s)
    (hf : Finished s (.ok o e)) :
    s.status = .gone ∧ o = s.put (.out .out) ∧ e = s.put (.out .err) ∧
    o.length ≤ allowed limit .out ∧ e.length ≤ allowed limit .err := by
  have hi := inv h
  obtain ⟨c, hp⟩ := hf
  have hat := hi.at_
  rw [hp] at hat
  obtain ⟨h1, h2, h3, h4, h5, h6⟩ := hat
  have hb : ∀ x, s.put (.out x) = (c.got x).flatten := fun x => by
    rw [hi.bytes.bytes, h1.got, (h1.closed x (h3 _)).1, List.append_nil]
  refine ⟨h6, by rw [h4, hb], by rw [h5, hb], ?_, ?_⟩
  · rw [h4, ← h1.len]; exact h2 .out
  · rw [h5, ← h1.len]; exact h2 .err

/-- **C111**: the output limit is said to be exceeded only if the program wrote more than is allowed to one of the two, and the
program has been ended by then. -/
theorem C111_exceeded {cap : Nat} {input : List UInt8} {limit : Nat} {s : State} (h : Reach cap input limit s)
    (hf : Finished s .ole) : s.status = .gone ∧ ∃ x, allowed limit x < (s.put (.out x)).length := by
  have hi := inv h
  obtain ⟨c, hp⟩ := hf
  have hat := hi.at_
  rw [hp] at hat
  obtain ⟨h1, ⟨x, hx⟩, h6⟩ := hat
  refine ⟨h6, x, ?_⟩
  rw [hi.bytes.bytes, h1.got, List.length_append]
  rw [h1.len] at hx
  have : (args input limit).limit x = allowed limit x := by cases x <;> rfl
  omega

/-- **C111**: another failure comes up only if the program closed its output and wrote more than is allowed to its errors. -/
theorem C111_other {cap : Nat} {input : List UInt8} {limit : Nat} {s : State} (h : Reach cap input limit s)
    (hf : Finished s .error) : s.status = .gone ∧ allowed limit .err < (s.put (.out .err)).length := by
  have hi := inv h
  obtain ⟨c, hp⟩ := hf
  have hat := hi.at_
  rw [hp] at hat
  obtain ⟨h1, hx, _, h6⟩ := hat
  refine ⟨h6, ?_⟩
  rw [hi.bytes.bytes, h1.got, List.length_append]
  rw [h1.len] at hx
  have : (args input limit).limit .err = allowed limit .err := rfl
  omega

theorem judge_none {cap : Nat} {input : List UInt8} {limit : Nat} {s : State} (hi : Inv cap (args input limit) s)
    (hj : step cap (args input limit) s .judge = none) :
    (∃ c, s.phase = .talk c [] ∧ poll cap s c = [] ∧ (c.isOpen .stdin || c.isOpen (.chan .out) || c.isOpen (.chan .err)) = true) ∨
    (∃ c o, s.phase = .wait c o ∧ s.status ≠ .gone) ∨ (∃ c o, s.phase = .done c o) ∨ s.phase = .failed := by
  simp only [step, judge] at hj
  cases hp : s.phase with
  | setup n => rw [hp] at hj; simp only at hj; split at hj <;> cases hj
  | talk c ps =>
    cases ps with
    | nil =>
      rw [hp] at hj; simp only at hj
      split at hj
      · rename_i ho
        split at hj
        · rename_i he; exact .inl ⟨c, rfl, he, ho⟩
        · cases hj
      · cases hj
    | cons e ps =>
      have hat := hi.at_
      rw [hp] at hat
      obtain ⟨r, hr, _⟩ := answers hat
      rw [hp] at hj; simp only [hr] at hj
      cases hj
  | kill c => rw [hp] at hj; simp only at hj; cases hj
  | wait c o =>
    rw [hp] at hj; simp only at hj
    split at hj
    · cases hj
    · rename_i hg; exact .inr (.inl ⟨c, o, rfl, hg⟩)
  | done c o => exact .inr (.inr (.inl ⟨c, o, rfl⟩))
  | failing n => rw [hp] at hj; simp only at hj; split at hj <;> cases hj
  | failed => exact .inr (.inr (.inr rfl))

theorem silent {cap : Nat} {s : State} {c : Communicate.State} (hp : poll cap s c = []) :
    (c.isOpen .stdin = true → cap < (s.buf .in_).length + 4096 ∧ noReader s .in_ = false) ∧
    ∀ x, c.isOpen (.chan x) = true → s.buf (.out x) = [] ∧ noWriter s (.out x) = false := by
  simp only [poll, List.append_eq_nil_iff] at hp
  obtain ⟨⟨h1, h2⟩, h3⟩ := hp
  constructor
  · intro ho
    rw [if_pos ho] at h1
    have ha : atomic = 4096 := rfl
    simp only [pollIn] at h1
    by_cases k1 : (s.buf .in_).length + atomic ≤ cap
    · rw [if_pos k1] at h1; cases h1
    · rw [if_neg k1] at h1
      cases k2 : noReader s .in_ with
      | true => rw [k2] at h1; cases h1
      | false => exact ⟨by omega, rfl⟩
  · intro x ho
    have h4 : pollOut s x = [] := by
      cases x with
      | out => rw [if_pos ho] at h2; exact h2
      | err => rw [if_pos ho] at h3; exact h3
    simp only [pollOut] at h4
    by_cases k1 : s.buf (.out x) = []
    · rw [if_neg (not_not.2 k1)] at h4
      cases k2 : noWriter s (.out x) with
      | true => rw [k2] at h4; cases h4
      | false => exact ⟨k1, rfl⟩
    · rw [if_pos k1] at h4; cases h4

/-- **C111 (partial)**: the judge and the program never wait for each other: if the judge, talking to the program, has to wait, then the
program is alive and can do at once whatever it wants. Missing: a judge that has given up talking (`C111_stderr_fails`). -/
theorem C111_lively_partial {cap : Nat} {input : List UInt8} {limit : Nat} {s : State} (hcap : 4096 ≤ cap) (h : Reach cap input limit s)
    (ht : Talking s) (hj : step cap (args input limit) s .judge = none) : Free cap s := by
  have hi := inv h
  obtain ⟨c', ps, hp'⟩ := ht
  rcases judge_none hi hj with ⟨c, hp, he, ho⟩ | ⟨c, o, hp, _⟩ | ⟨c, o, hp⟩ | hp
  · obtain ⟨h1, h2⟩ := silent he
    have hat := hi.at_
    rw [hp] at hat
    obtain ⟨⟨p1, p2, p3, p4, p5, p6, p7, p8, p9, p10, p11, p12, p13⟩, _⟩ := hat
    obtain ⟨i1, i2, i3⟩ := hi.prog
    cases hs : s.status with
    | unborn => exact absurd hs p1
    | born => exact .inl ⟨hs, by simp [deed, hs]⟩
    | gone =>
      have i3 := i3 (.inl hs)
      simp only [Bool.or_eq_true] at ho
      rcases ho with (ho | ho) | ho
      · have := (h1 ho).2; simp [noReader, p2, i3] at this
      · have := (h2 .out ho).2; simp [noWriter, p3, i3] at this
      · have := (h2 .err ho).2; simp [noWriter, p3, i3] at this
    | running =>
      right
      refine ⟨hs, fun d hd hh => ?_⟩
      obtain ⟨j1, j2⟩ := i2 hs
      cases d with
      | settle => exact absurd rfl hd
      | read n =>
        have hh : s.rd .in_ .prog = true := hh
        have key : s.buf .in_ ≠ [] ∨ noWriter s .in_ = true := by
          by_cases hb : s.buf .in_ = []
          · right
            simp only [noWriter, j1, p4]
            cases hx : c.isOpen .stdin with
            | false => rfl
            | true => have := (h1 hx).1; rw [hb] at this; simp at this; omega
          · exact .inl hb
        simp only [deed, hs, hh, true_and, if_pos key]; rfl
      | write x b =>
        have hh : s.wr (.out x) .prog = true := hh
        simp only [deed, hs, hh, true_and, if_true]
        split_ifs with k1 k2
        · rfl
        · rfl
        · exfalso
          simp only [noReader, j2, p5] at k1
          have hx : c.isOpen (.chan x) = true := by simpa using k1
          rw [(h2 x hx).1] at k2
          simp at k2; omega
      | closeIn => simp [deed, hs]
      | closeOut x => simp [deed, hs]
      | die => simp [deed, hs]
  · rw [hp'] at hp; cases hp
  · rw [hp'] at hp; cases hp
  · rw [hp'] at hp; cases hp

/-- **C111**: the judge waits only for a program that has not ended. -/
theorem C111_waits {cap : Nat} {input : List UInt8} {limit : Nat} {s : State} (hcap : 4096 ≤ cap) (h : Reach cap input limit s)
    (hj : step cap (args input limit) s .judge = none) : Alive s ∨ (∃ o, Finished s o) ∨ s.phase = .failed := by
  have hi := inv h
  rcases judge_none hi hj with ⟨c, hp, he, ho⟩ | ⟨c, o, hp, hg⟩ | ⟨c, o, hp⟩ | hp
  · rcases C111_lively_partial hcap h ⟨c, [], hp⟩ hj with h1 | h1
    · exact .inl (.inl h1.1)
    · exact .inl (.inr h1.1)
  · have hat := hi.at_
    rw [hp] at hat
    have hu : s.status ≠ .unborn := by cases o <;> exact hat.1.alive
    left
    unfold Alive
    cases hs : s.status <;> simp_all
  · exact .inr (.inl ⟨o, c, hp⟩)
  · exact .inr (.inr hp)

/-- How many streams are open. -/
def opened (c : Communicate.State) : Nat :=
  (c.isOpen .stdin).toNat + (c.isOpen (.chan .out)).toNat + (c.isOpen (.chan .err)).toNat

/-- What there is still to do with the streams. -/
def load (a : Args) (s : State) (c : Communicate.State) : Nat :=
  (a.input.length - c.offset) + (s.buf (.out .out)).length + (s.buf (.out .err)).length + opened c

/-- An upper bound of the number of actions of the judge as long as the program does nothing. -/
def weight (a : Args) (s : State) : Nat :=
  match s.phase with
  | .setup n => (8 - n) + 2 * (a.input.length + (s.buf (.out .out)).length + (s.buf (.out .err)).length + 3) + 10
  | .talk c ps => 2 * load a s c + (if ps = [] then 1 else 0) + 3
  | .kill _ => 2
  | .wait _ _ => 1
  | .done _ _ => 0
  | .failing n => 8 - n
  | .failed => 0

theorem weight_talk {cap : Nat} {a : Args} {s : State} {c : Communicate.State} {e : Event} {ps : List Event} (ha : Three a)
    (h : Inv cap a s) (hp : s.phase = .talk c (e :: ps)) {r : Communicate.Ready} (hr : answer cap a s c e = some r) :
    weight a { settle s c (Communicate.step a c r).state r with phase := after ps (Communicate.step a c r) } < weight a s := by
  have hat := h.at_
  rw [hp] at hat
  obtain ⟨r', hr', hfd, hw, hb, hrd, hh⟩ := answers hat
  rw [hr] at hr'
  cases hr'
  have ho : c.isOpen r.fd = true := by rw [hfd]; exact (hat.2.2.2 e (by simp)).1
  have hv := (hat.2.2.2 e (by simp)).2
  have hstep : Communicate.step a c r = _ := if_neg (by rw [ho]; decide)
  have hws : weight a s = 2 * load a s c + 0 + 3 := by simp [weight, hp]
  have hif : (if ps = [] then 1 else 0) ≤ 1 := by split <;> omega
  have quiet : ∀ c', (∀ x d, r ≠ .avail x d) → load a s c' < load a s c →
      weight a { settle s c c' r with phase := .talk c' ps } < weight a s := by
    intro c' hq hl
    rw [settle_quiet _ _ _ _ hq, hws]
    have : ∀ x, upd s.buf .in_ (s.buf .in_ ++ c'.sent.drop c.sent.length) (.out x) = s.buf (.out x) := fun x => by simp [upd]
    simp only [weight, load, this] at hl ⊢
    omega
  have closed : ∀ (f : Fd) (l : List Communicate.Ready), c.isOpen f = true →
      load a s (Communicate.State.close { c with log := l } f) < load a s c := by
    intro f l hf
    simp only [load, opened, Communicate.State.close]
    rcases f with _ | (_ | _) <;> simp [hf] <;> omega
  cases e with
  | canWrite =>
    rcases hw rfl with ⟨rfl, hx⟩ | ⟨rfl, hl⟩
    · rw [hstep]
      exact quiet _ (by simp) (closed _ _ ho)
    · rw [hstep]
      set k := ((a.input.drop c.offset).take Communicate.pipeBuf).length with hk
      have hmin : min (cap - (s.buf .in_).length) k = k := by omega
      have hmore : c.offset < a.input.length := hat.1.more ho
      have hkp : 0 < k := by
        rw [hk, List.length_take, List.length_drop]
        have : Communicate.pipeBuf = 4096 := rfl
        omega
      simp only [← hk, hmin]
      split
      · refine quiet _ (by simp) ?_
        simp only [load, opened, Communicate.State.close]
        simp
        have := Bool.toNat_le (c.isOpen .stdin)
        omega
      · refine quiet _ (by simp) ?_
        simp only [load, opened]
        omega
  | broken =>
    rw [hb rfl] at hstep ho quiet ⊢
    rw [hstep]
    exact quiet _ (by simp) (closed _ _ ho)
  | hungUp x =>
    rw [hh x rfl] at hstep ho quiet ⊢
    rw [hstep]
    exact quiet _ (by simp) (closed _ _ ho)
  | canRead x =>
    rw [hrd x rfl] at hstep ⊢
    have hv : s.buf (.out x) ≠ [] := hv
    have hne : (s.buf (.out x)).take 4096 ≠ [] := by
      intro h0
      rcases List.take_eq_nil_iff.1 h0 with h0 | h0
      · omega
      · exact hv h0
    have hpos := List.length_pos_iff.2 hv
    set c1 : Communicate.State := ({ c with log := c.log ++ [.avail x (s.buf (.out x))] } : Communicate.State).receive x ((s.buf (.out x)).take 4096) with hc1
    have e1 : c1.sent = c.sent := by simp [hc1, Communicate.State.receive, hne]
    have e2 : c1.offset = c.offset := by simp [hc1, Communicate.State.receive, hne]
    have e5 : c1.isOpen = c.isOpen := by simp [hc1, Communicate.State.receive, hne]
    rw [hstep]
    show weight a { settle s c (Communicate.check a c1 x).state _ with phase := after ps (Communicate.check a c1 x) } < _
    rw [hws]
    simp only [Communicate.check, ha.2, if_true]
    split
    · split
      · simp only [weight, after]; omega
      · simp only [weight, after]; omega
    · have hbuf : (settle s c c1 (.avail x (s.buf (.out x)))).buf = upd s.buf (.out x) ((s.buf (.out x)).drop 4096) := by
        rw [settle_read _ _ _ _ _ e1]
      simp only [weight, after, Communicate.Res.state, load, hbuf, opened, e2, e5, upd]
      cases x <;> simp <;> omega

theorem weight_judge {cap : Nat} {a : Args} {s t : State} (ha : Three a) (h : Inv cap a s) (hs : judge cap a s = some t) :
    weight a t < weight a s := by
  have hat := h.at_
  cases hp : s.phase with
  | setup n =>
    rw [hp] at hat
    have hle := hat.le
    simp only [judge, hp] at hs
    split at hs
    · rename_i x hx
      have hn : n < script.length := (List.getElem?_eq_some_iff.1 hx).1
      simp only [script, List.length_cons, List.length_nil] at hn
      cases hs
      cases x <;> simp only [weight, hp, act] <;> omega
    · cases hs
      have h1 : opened (Communicate.init a) ≤ 3 := by
        have h1 := Bool.toNat_le ((Communicate.init a).isOpen .stdin)
        have h2 := Bool.toNat_le ((Communicate.init a).isOpen (.chan .out))
        have h3 := Bool.toNat_le ((Communicate.init a).isOpen (.chan .err))
        simp only [opened]; omega
      simp only [weight, hp, load]
      simp
      omega
  | talk c ps =>
    cases ps with
    | cons e ps =>
      obtain ⟨r, hr, hi⟩ := inv_talk ha h hp
      simp only [judge, hp, hr, Option.some.injEq] at hs
      subst hs
      exact weight_talk ha h hp hr
    | nil =>
      simp only [judge, hp] at hs
      split at hs
      · split at hs
        · cases hs
        · rename_i hne
          cases hs
          simp only [weight, hp, load]
          rw [if_neg hne]
          simp
      · cases hs
        simp only [weight, hp]
        omega
  | kill c => simp only [judge, hp, Option.some.injEq] at hs; subst hs; simp [weight, hp]
  | wait c o => simp only [judge, hp] at hs; split at hs <;> cases hs; simp [weight, hp]
  | done c o => simp [judge, hp] at hs
  | failing n =>
    rw [hp] at hat
    have hle := hat.le
    simp only [judge, hp] at hs
    split at hs
    · cases hs; simp only [weight, hp]; omega
    · cases hs; simp only [weight, hp]; omega
  | failed => simp [judge, hp] at hs

theorem bounded {cap : Nat} {input : List UInt8} {limit : Nat} : ∀ (k : Nat) {s : State}, Inv cap (args input limit) s →
    (alone cap input limit s k).isSome → k ≤ weight (args input limit) s
  | 0, _, _, _ => Nat.zero_le _
  | k + 1, s, h, hk => by
    simp only [alone, List.replicate_succ, run] at hk
    cases hj : step cap (args input limit) s .judge with
    | none => rw [hj] at hk; cases hk
    | some t =>
      rw [hj] at hk
      have := bounded k (inv_judge (three _ _) h hj) hk
      have := weight_judge (three _ _) h hj
      omega

/-- **C111**: the judge never goes on working forever while the program does nothing. -/
theorem C111_bounded {cap : Nat} {input : List UInt8} {limit : Nat} {s : State} (h : Reach cap input limit s) :
    ∃ n, ∀ k, (alone cap input limit s k).isSome → k ≤ n := ⟨_, fun k hk => bounded k (inv h) hk⟩

theorem reach_step {cap : Nat} {input : List UInt8} {limit : Nat} : ∀ (ls : List Label) {s t u : State} {l : Label},
    run cap (args input limit) u ls = some s → step cap (args input limit) s l = some t →
    run cap (args input limit) u (ls ++ [l]) = some t
  | [], s, t, u, l, h, hs => by cases h; simp only [List.nil_append, run, hs]; rfl
  | m :: ls, s, t, u, l, h, hs => by
    rw [run, Option.bind_eq_some_iff] at h
    obtain ⟨v, hv, h⟩ := h
    rw [List.cons_append, run, hv, Option.bind_some]
    exact reach_step ls h hs

theorem reach_next {cap : Nat} {input : List UInt8} {limit : Nat} {s t : State} {l : Label} (h : Reach cap input limit s)
    (hs : step cap (args input limit) s l = some t) : Reach cap input limit t := ⟨_, reach_step _ h.choose_spec hs⟩

theorem gone_judge {cap : Nat} {a : Args} {s t : State} (h : Inv cap a s) (hg : s.status = .gone) (hs : judge cap a s = some t) :
    t.status = .gone := by
  have hat := h.at_
  cases hp : s.phase with
  | setup n =>
    rw [hp] at hat
    have hle := hat.le
    have hn : ¬ n ≤ 3 := fun h => by have := hat.unborn.2 h; rw [hg] at this; cases this
    simp only [judge, hp] at hs
    interval_cases n <;> simp [script, act] at hs hn <;> subst hs <;> exact hg
  | talk c ps =>
    cases ps with
    | cons e ps =>
      simp only [judge, hp] at hs
      split at hs
      · cases hs
      · rename_i r _
        cases hs
        rw [← hg]
        unfold settle
        cases r <;> rfl
    | nil =>
      simp only [judge, hp] at hs
      split at hs
      · split at hs <;> cases hs; exact hg
      · cases hs; exact hg
  | kill c => simp only [judge, hp, Option.some.injEq] at hs; subst hs; rfl
  | wait c o => simp only [judge, hp, hg, if_true, Option.some.injEq] at hs; subst hs; rfl
  | done c o => simp [judge, hp] at hs
  | failing n => rw [hp] at hat; have := hat.unborn; rw [hg] at this; cases this
  | failed => rw [hp] at hat; have := hat.unborn; rw [hg] at this; cases this

theorem finishes {cap : Nat} {input : List UInt8} {limit : Nat} (hcap : 4096 ≤ cap) : ∀ (n : Nat) {s : State},
    Reach cap input limit s → s.status = .gone → weight (args input limit) s ≤ n →
    ∃ k t o, alone cap input limit s k = some t ∧ Finished t o := by
  intro n
  induction n with
  | zero =>
    intro s h hg hn
    cases hj : step cap (args input limit) s .judge with
    | some t => have := weight_judge (three _ _) (inv h) hj; omega
    | none =>
      rcases C111_waits hcap h hj with h1 | ⟨o, h1⟩ | h1
      · rcases h1 with h1 | h1 <;> rw [hg] at h1 <;> cases h1
      · exact ⟨0, s, o, rfl, h1⟩
      · have hat := (inv h).at_; rw [h1] at hat; have := hat.unborn; rw [hg] at this; cases this
  | succ n ih =>
    intro s h hg hn
    cases hj : step cap (args input limit) s .judge with
    | some t =>
      have hw := weight_judge (three _ _) (inv h) hj
      obtain ⟨k, u, o, hk, hf⟩ := ih (reach_next h hj) (gone_judge (inv h) hg hj) (by omega)
      refine ⟨k + 1, u, o, ?_, hf⟩
      simp only [alone, List.replicate_succ, run, hj, Option.bind_some]
      exact hk
    | none =>
      rcases C111_waits hcap h hj with h1 | ⟨o, h1⟩ | h1
      · rcases h1 with h1 | h1 <;> rw [hg] at h1 <;> cases h1
      · exact ⟨0, s, o, rfl, h1⟩
      · have hat := (inv h).at_; rw [h1] at hat; have := hat.unborn; rw [hg] at this; cases this

/-- **C111**: when the program has ended, the judge comes to an end by itself. -/
theorem C111_finishes {cap : Nat} {input : List UInt8} {limit : Nat} {s : State} (hcap : 4096 ≤ cap) (h : Reach cap input limit s)
    (hg : s.status = .gone) : ∃ k t o, alone cap input limit s k = some t ∧ Finished t o := finishes hcap _ h hg (Nat.le_refl _)

/-- **C111**: if the program cannot be started, the ends made for it are closed all the same. -/
theorem C111_unstarted {cap : Nat} {input : List UInt8} {limit : Nat} {s : State} (h : Reach cap input limit s)
    (hf : s.phase = .failed) :
    s.status = .unborn ∧ (∀ w, s.rd .in_ w = false) ∧ ∀ x w, s.wr (.out x) w = false := by
  have hi := inv h
  have hat := hi.at_
  rw [hf] at hat
  obtain ⟨_, f2, f3, f4, f5, _⟩ := hat
  have hg := hi.prog.gone (.inr f2)
  refine ⟨f2, ?_, ?_⟩
  · rintro (_ | _)
    · exact f3
    · exact (hg _).1
  · rintro (_ | _) (_ | _)
    · exact f4
    · exact (hg _).2
    · exact f5
    · exact (hg _).2

/-- The program has closed its output and written `k` bytes to its errors, which the judge has read. -/
def Wrote (cap limit k : Nat) (s : State) : Prop :=
  Reach cap [] limit s ∧ s.status = .running ∧ s.wr (.out .err) .prog = true ∧ s.buf (.out .err) = [] ∧
    ∃ c, s.phase = .talk c [] ∧ c.isOpen .stdin = false ∧ c.isOpen (.chan .out) = false ∧ c.isOpen (.chan .err) = true ∧
      c.length .err = k

/-- The judge waits for the program, of whose errors `k` bytes have not been read. -/
def Unread (cap limit k : Nat) (s : State) : Prop :=
  Reach cap [] limit s ∧ s.status = .running ∧ s.wr (.out .err) .prog = true ∧ (s.buf (.out .err)).length = k ∧
    s.rd (.out .err) .judge = true ∧ ∃ c, s.phase = .wait c .error

theorem wrote_next {cap limit k : Nat} {s : State} (hcap : 0 < cap) (h : Wrote cap limit k s) :
    (k < 1048576 → ∃ t, Wrote cap limit (k + 1) t) ∧ (k = 1048576 → ∃ t, Unread cap limit 0 t) := by
  obtain ⟨hr, h1, h2, h3, c, hp, o1, o2, o3, hl⟩ := h
  have hi := inv hr
  have hat := hi.at_
  rw [hp] at hat
  have hrd : s.rd (.out .err) .judge = true := by rw [hat.1.rout]; exact o3
  have s1 : step cap (args [] limit) s (.prog (.write .err 0)) =
      some { s with buf := upd s.buf (.out .err) [0], put := upd s.put (.out .err) (s.put (.out .err) ++ [0]) } := by
    simp [step, deed, h1, h2, noReader, hrd, h3, hcap]
  have r1 := reach_next hr s1
  generalize hu : ({ s with buf := upd s.buf (.out .err) [0], put := upd s.put (.out .err) (s.put (.out .err) ++ [0]) } : State) = u at s1 r1
  have ub : u.buf (.out .err) = [0] := by rw [← hu]; simp [upd]
  have up : u.phase = .talk c [] := by rw [← hu]; exact hp
  have us : u.status = .running := by rw [← hu]; exact h1
  have uw : u.wr (.out .err) .prog = true := by rw [← hu]; exact h2
  have ur : u.rd (.out .err) .judge = true := by rw [← hu]; exact hrd
  have s2 : step cap (args [] limit) u .judge = some { u with phase := .talk c [.canRead .err] } := by
    simp [step, judge, up, o1, o2, o3, poll, pollOut, ub]
  have r2 := reach_next r1 s2
  generalize hv : ({ u with phase := .talk c [.canRead .err] } : State) = v at s2 r2
  have vb : v.buf (.out .err) = [0] := by rw [← hv]; exact ub
  have vp : v.phase = .talk c [.canRead .err] := by rw [← hv]
  have vs : v.status = .running := by rw [← hv]; exact us
  have vw : v.wr (.out .err) .prog = true := by rw [← hv]; exact uw
  have vr : v.rd (.out .err) .judge = true := by rw [← hv]; exact ur
  have hans : answer cap (args [] limit) v c (.canRead .err) = some (.avail .err [0]) := by simp [answer, vb]
  have hlim : (args [] limit).limit .err = 1048576 := rfl
  obtain ⟨c1, hc1, e1, e2, e3⟩ : ∃ c1 : Communicate.State, Communicate.step (args [] limit) c (.avail .err [0]) =
      Communicate.check (args [] limit) c1 .err ∧ c1.sent = c.sent ∧ c1.isOpen = c.isOpen ∧ c1.length .err = k + 1 := by
    refine ⟨_, if_neg (by simp [Communicate.Ready.fd, o3]), ?_, ?_, ?_⟩ <;> simp [Communicate.State.receive, hl]
  have s3 : step cap (args [] limit) v .judge = some { settle v c (Communicate.check (args [] limit) c1 .err).state (.avail .err [0]) with
      phase := after [] (Communicate.check (args [] limit) c1 .err) } := by
    simp [step, judge, vp, hans, hc1]
  constructor
  · intro hk
    have hck : Communicate.check (args [] limit) c1 .err = .more c1 := if_neg (by rw [e3, hlim]; omega)
    rw [hck] at s3
    refine ⟨_, reach_next r2 s3, ?_⟩
    rw [show (Communicate.Res.more c1).state = c1 from rfl, settle_read _ _ _ _ _ e1]
    exact ⟨vs, (closing_prog ..).trans vw, by simp [upd], c1, rfl, by rw [e2]; exact o1, by rw [e2]; exact o2, by rw [e2]; exact o3, e3⟩
  · intro hk
    have hck : Communicate.check (args [] limit) c1 .err = .valueError { c1 with marked := true } := by
      have : c1.length .err > (args [] limit).limit .err := by rw [e3, hlim]; omega
      unfold Communicate.check
      rw [if_pos this]
      simp [args, e2, o2]
    rw [hck] at s3
    refine ⟨_, reach_next r2 s3, ?_⟩
    rw [show (Communicate.Res.valueError { c1 with marked := true }).state = { c1 with marked := true } from rfl,
      settle_read (c' := { c1 with marked := true }) _ _ _ _ e1]
    exact ⟨vs, (closing_prog ..).trans vw, by simp [upd], (closing_judge ..).trans (by rw [vr]; simp [readsFrom, e2, o3]), _, rfl⟩

theorem unread_next {cap limit k : Nat} {s : State} (h : Unread cap limit k s) (hk : k < cap) : ∃ t, Unread cap limit (k + 1) t := by
  obtain ⟨hr, h1, h2, h3, h4, c, hp⟩ := h
  refine ⟨_, reach_next (l := .prog (.write .err 0)) hr (t := { s with
      buf := upd s.buf (.out .err) (s.buf (.out .err) ++ [0]), put := upd s.put (.out .err) (s.put (.out .err) ++ [0]) }) ?_,
    h1, h2, ?_, h4, c, hp⟩
  · simp [step, deed, h1, h2, noReader, h4, h3, hk]
  · simp [upd, h3]

theorem wrote_zero (cap limit : Nat) : ∃ s, Wrote cap limit 0 s := by
  refine ⟨_, ⟨List.replicate 8 .judge ++ [.prog .settle, .prog (.closeOut .out), .judge, .judge], rfl⟩, ?_⟩
  exact ⟨rfl, rfl, rfl, _, rfl, rfl, rfl, rfl, rfl⟩

theorem wrote_all {cap limit : Nat} (hcap : 0 < cap) : ∀ k, k ≤ 1048576 → ∃ s, Wrote cap limit k s := by
  intro k
  induction k with
  | zero => intro _; exact wrote_zero cap limit
  | succ k ih =>
    intro hk
    obtain ⟨s, hs⟩ := ih (by omega)
    exact (wrote_next hcap hs).1 (by omega)

theorem unread_all {cap limit : Nat} (hcap : 0 < cap) : ∀ k, k ≤ cap → ∃ s, Unread cap limit k s := by
  intro k
  induction k with
  | zero =>
    intro _
    obtain ⟨s, hs⟩ := wrote_all (limit := limit) hcap 1048576 (Nat.le_refl _)
    exact (wrote_next hcap hs).2 rfl
  | succ k ih =>
    intro hk
    obtain ⟨s, hs⟩ := ih (by omega)
    exact unread_next hs (by omega)

/-- **C111 fails** for a program that closes its output and writes more than is allowed to its errors: the judge gives up reading
but does not kill it. The judge then waits for the end of the program, and the program waits for the judge to read: neither can do
anything before the time limit. -/
theorem C111_stderr_fails (cap limit : Nat) (hcap : 0 < cap) : ∃ s, Reach cap [] limit s ∧ s.status = .running ∧
    step cap (args [] limit) s .judge = none ∧ ∀ b, Has s (.write .err b) ∧ step cap (args [] limit) s (.prog (.write .err b)) = none := by
  obtain ⟨s, hr, h1, h2, h3, h4, c, hp⟩ := unread_all (limit := limit) hcap cap (Nat.le_refl _)
  refine ⟨s, hr, h1, ?_, fun b => ⟨h2, ?_⟩⟩
  · simp [step, judge, hp, h1]
  · simp [step, deed, h1, h2, noReader, h4, h3]

/-! ## Examples -/

/-- A program that reads a byte, writes another and ends. -/
def echo : List Label :=
  List.replicate 8 .judge ++ [.prog .settle, .judge, .judge, .prog (.read 5), .prog (.write .out 7), .prog .die,
    .judge, .judge, .judge, .judge, .judge, .judge, .judge]

example : ∃ s, Reach 4096 [1] 10 s ∧ Finished s (.ok [7] []) ∧ s.got .in_ = [1] := ⟨_, ⟨echo, rfl⟩, ⟨_, rfl⟩, rfl⟩

/-- A program that writes more than it may. -/
def chatty : List Label :=
  List.replicate 8 .judge ++ [.prog .settle, .prog (.write .out 7), .prog (.write .out 8), .judge, .judge, .judge, .judge, .judge]

example : ∃ s, Reach 4096 [1] 1 s ∧ Finished s .ole := ⟨_, ⟨chatty, rfl⟩, ⟨_, rfl⟩⟩

/-- The judge waits while the program has yet to read. -/
example : ∃ s, Reach 4096 [1] 1 s ∧ Talking s ∧ step 4096 (args [1] 1) s .judge = none ∧ s.status = .running :=
  ⟨_, ⟨List.replicate 8 .judge ++ [.prog .settle, .judge, .judge], rfl⟩, ⟨_, _, rfl⟩, rfl, rfl⟩

/-- A program at the end of its input. -/
example : ∃ s, Reach 4096 [1] 1 s ∧ s.status = .running ∧ s.rd .in_ .prog = true ∧ s.buf .in_ = [] ∧ noWriter s .in_ = true :=
  ⟨_, ⟨List.replicate 8 .judge ++ [.prog .settle, .judge, .judge, .prog (.read 1)], rfl⟩, rfl, rfl, rfl, rfl⟩

/-- No program. -/
example : ∃ s, Reach 4096 [1] 1 s ∧ s.phase = .failed := ⟨_, ⟨[.judge, .judge, .judge, .noFork, .judge, .judge, .judge, .judge], rfl⟩, rfl⟩

end Verif.Exchange
