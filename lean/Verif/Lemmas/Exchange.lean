import Verif.Spec.Exchange
import Mathlib.Tactic.Common
import Mathlib.Tactic.SplitIfs
import Mathlib.Tactic.IntervalCases

/-!
# The invariant of a program and the three pipes
-/

namespace Verif.Exchange
open Verif.Communicate (Chan Fd Args Ready)

/-- Who holds what as far as the program is concerned. -/
structure Prog (s : State) : Prop where
  born : s.status = .born → s.rd .in_ .prog = true ∧ ∀ x, s.wr (.out x) .prog = true
  own : s.status = .running → s.wr .in_ .prog = false ∧ ∀ x, s.rd (.out x) .prog = false
  gone : s.status = .gone ∨ s.status = .unborn → ∀ p, s.rd p .prog = false ∧ s.wr p .prog = false

/-- What is in the pipes. -/
structure Bytes (cap : Nat) (s : State) : Prop where
  bytes : ∀ p, s.put p = s.got p ++ s.buf p
  room : ∀ p, (s.buf p).length ≤ cap

/-- While the judge talks and afterwards. -/
structure Pipes (a : Args) (s : State) (c : Communicate.State) : Prop where
  alive : s.status ≠ .unborn
  jin : s.rd .in_ .judge = false
  jout : ∀ x, s.wr (.out x) .judge = false
  win : s.wr .in_ .judge = c.isOpen .stdin
  rout : ∀ x, s.rd (.out x) .judge = c.isOpen (.chan x)
  put : s.put .in_ = c.sent
  sent : c.sent = a.input.take c.offset
  off : c.offset ≤ a.input.length
  more : c.isOpen .stdin = true → c.offset < a.input.length
  fin : c.isOpen .stdin = false → c.offset = a.input.length ∨ s.rd .in_ .prog = false
  got : ∀ x, s.got (.out x) = (c.got x).flatten
  len : ∀ x, c.length x = (c.got x).flatten.length
  closed : ∀ x, c.isOpen (.chan x) = false → s.buf (.out x) = [] ∧ s.wr (.out x) .prog = false

/-- What an entry of the last `poll` still means. -/
def Valid (cap : Nat) (s : State) : Event → Prop
  | .canWrite => (s.buf .in_).length + atomic ≤ cap
  | .broken => s.rd .in_ .prog = false
  | .canRead x => s.buf (.out x) ≠ []
  | .hungUp x => s.buf (.out x) = [] ∧ s.wr (.out x) .prog = false

/-- Before the judge talks. -/
structure Setup (s : State) (n : Nat) : Prop where
  le : n ≤ 7
  unborn : s.status = .unborn ↔ n ≤ 3
  r0 : s.rd .in_ .judge = decide (1 ≤ n ∧ n ≤ 4)
  w0 : s.wr .in_ .judge = decide (1 ≤ n)
  r1 : s.rd (.out .out) .judge = decide (2 ≤ n)
  w1 : s.wr (.out .out) .judge = decide (2 ≤ n ∧ n ≤ 5)
  r2 : s.rd (.out .err) .judge = decide (3 ≤ n)
  w2 : s.wr (.out .err) .judge = decide (3 ≤ n ∧ n ≤ 6)
  put : s.put .in_ = []
  got : ∀ x, s.got (.out x) = []

/-- `fork` has failed. -/
structure Failing (s : State) (n : Nat) : Prop where
  le : 4 ≤ n ∧ n ≤ 7
  unborn : s.status = .unborn
  r0 : s.rd .in_ .judge = decide (n ≤ 4)
  w1 : s.wr (.out .out) .judge = decide (n ≤ 5)
  w2 : s.wr (.out .err) .judge = decide (n ≤ 6)
  put : s.put .in_ = []

/-- What holds in each phase. -/
def At (cap : Nat) (a : Args) (s : State) : Phase → Prop
  | .setup n => Setup s n
  | .talk c ps => Pipes a s c ∧ (∀ x, c.length x ≤ a.limit x) ∧ (ps.map Event.fd).Nodup ∧
      ∀ e ∈ ps, c.isOpen e.fd = true ∧ Valid cap s e
  | .kill c => Pipes a s c ∧ ∃ x, a.limit x < c.length x
  | .wait c (.ok o e) => Pipes a s c ∧ (∀ x, c.length x ≤ a.limit x) ∧ (∀ f, c.isOpen f = false) ∧ o = (c.got .out).flatten ∧
      e = (c.got .err).flatten
  | .wait c .ole => Pipes a s c ∧ (∃ x, a.limit x < c.length x) ∧ s.status = .gone
  | .wait c .error => Pipes a s c ∧ a.limit .err < c.length .err ∧ c.isOpen (.chan .out) = false
  | .done c (.ok o e) => Pipes a s c ∧ (∀ x, c.length x ≤ a.limit x) ∧ (∀ f, c.isOpen f = false) ∧ o = (c.got .out).flatten ∧
      e = (c.got .err).flatten ∧ s.status = .gone
  | .done c .ole => Pipes a s c ∧ (∃ x, a.limit x < c.length x) ∧ s.status = .gone
  | .done c .error => Pipes a s c ∧ a.limit .err < c.length .err ∧ c.isOpen (.chan .out) = false ∧ s.status = .gone
  | .failing n => Failing s n
  | .failed => Failing s 7

/-- The invariant. -/
structure Inv (cap : Nat) (a : Args) (s : State) : Prop where
  prog : Prog s
  bytes : Bytes cap s
  at_ : At cap a s s.phase

theorem inv_start (cap : Nat) (a : Args) : Inv cap a start :=
  ⟨⟨by simp [start], by simp [start], by simp [start]⟩, ⟨by simp [start], by simp [start]⟩,
    ⟨by omega, by simp [start], by simp [start], by simp [start], by simp [start], by simp [start], by simp [start], by simp [start],
      rfl, fun _ => rfl⟩⟩

/-- A deed changes nothing that matters to the judge. -/
theorem at_deed {cap : Nat} {s t : State} {d : Deed} (hd : deed cap s d = some t) :
    t.phase = s.phase ∧ (s.status = .born ∨ s.status = .running) ∧ (t.status = .unborn ↔ s.status = .unborn) ∧
      (s.status ≠ .gone) ∧
      (∀ p, t.rd p .judge = s.rd p .judge) ∧ (∀ p, t.wr p .judge = s.wr p .judge) ∧ t.put .in_ = s.put .in_ ∧
      (∀ x, t.got (.out x) = s.got (.out x)) ∧ (s.rd .in_ .prog = false → t.rd .in_ .prog = false) ∧
      (∀ x, s.wr (.out x) .prog = false → t.wr (.out x) .prog = false) ∧
      (∀ x, s.wr (.out x) .prog = false → t.buf (.out x) = s.buf (.out x)) ∧
      (t.buf .in_).length ≤ (s.buf .in_).length ∧ (∀ x, s.buf (.out x) ≠ [] → t.buf (.out x) ≠ []) := by
  cases d <;> simp only [deed] at hd <;> split_ifs at hd <;> cases hd <;>
    simp [hold, holdAll, upd] <;> grind [List.append_eq_nil_iff]

theorem prog_deed {cap : Nat} {s t : State} {d : Deed} (h : Prog s) (hd : deed cap s d = some t) : Prog t := by
  obtain ⟨h1, h2, h3⟩ := h
  constructor <;> cases d <;> simp only [deed] at hd <;> split_ifs at hd <;> cases hd <;>
    (try simp only [hold, holdAll]) <;> grind

theorem bytes_deed {cap : Nat} {s t : State} {d : Deed} (h : Bytes cap s) (hd : deed cap s d = some t) : Bytes cap t := by
  obtain ⟨h1, h2⟩ := h
  constructor <;> cases d <;> simp only [deed] at hd <;> split_ifs at hd <;> cases hd <;> (try simp only [upd]) <;> intro p
  all_goals (first | exact h1 p | exact h2 p | skip)
  all_goals (by_cases hp : p = .in_ <;> grind [List.length_drop, List.take_append_drop])

theorem pipes_deed {cap : Nat} {a : Args} {s t : State} {d : Deed} {c : Communicate.State} (hp : Pipes a s c)
    (hd : deed cap s d = some t) : Pipes a t c := by
  obtain ⟨_, _, e3, _, e5, e6, e7, e8, e9, e10, e11, _, _⟩ := at_deed hd
  obtain ⟨p1, p2, p3, p4, p5, p6, p7, p8, p9, p10, p11, p12, p13⟩ := hp
  exact ⟨fun h => p1 (e3.1 h), by rw [e5]; exact p2, fun x => by rw [e6]; exact p3 x, by rw [e6]; exact p4,
    fun x => by rw [e5]; exact p5 x, by rw [e7]; exact p6, p7, p8, p9, fun h => (p10 h).imp_right e9,
    fun x => by rw [e8]; exact p11 x, p12, fun x h => ⟨by rw [e11 x (p13 x h).2]; exact (p13 x h).1, e10 x (p13 x h).2⟩⟩

theorem inv_deed {cap : Nat} {a : Args} {s t : State} {d : Deed} (h : Inv cap a s) (hd : deed cap s d = some t) : Inv cap a t := by
  refine ⟨prog_deed h.prog hd, bytes_deed h.bytes hd, ?_⟩
  have key := at_deed hd
  obtain ⟨e1, e2, e3, e4, e5, e6, e7, e8, e9, e10, e11, e12, e13⟩ := key
  have hp := fun c (hc : Pipes a s c) => pipes_deed hc hd
  have hat := h.at_
  rw [e1]
  cases hph : s.phase with
  | setup n =>
    rw [hph] at hat
    obtain ⟨s1, s2, s3, s4, s5, s6, s7, s8, s9, s10⟩ := hat
    exact ⟨s1, e3.trans s2, by rw [e5]; exact s3, by rw [e6]; exact s4, by rw [e5]; exact s5, by rw [e6]; exact s6,
      by rw [e5]; exact s7, by rw [e6]; exact s8, by rw [e7]; exact s9, fun x => by rw [e8]; exact s10 x⟩
  | talk c ps =>
    rw [hph] at hat
    obtain ⟨q1, q2, q3, q4⟩ := hat
    refine ⟨hp c q1, q2, q3, fun e he => ⟨(q4 e he).1, ?_⟩⟩
    have hv := (q4 e he).2
    cases e with
    | canWrite => exact Nat.le_trans (Nat.add_le_add_right e12 _) hv
    | broken => exact e9 hv
    | canRead x => exact e13 x hv
    | hungUp x => exact ⟨by rw [e11 x hv.2]; exact hv.1, e10 x hv.2⟩
  | kill c => rw [hph] at hat; exact ⟨hp c hat.1, hat.2⟩
  | wait c o =>
    rw [hph] at hat
    cases o with
    | ok o e => exact ⟨hp c hat.1, hat.2⟩
    | ole => exact absurd hat.2.2 e4
    | error => exact ⟨hp c hat.1, hat.2⟩
  | done c o =>
    rw [hph] at hat
    cases o with
    | ok o e => exact absurd hat.2.2.2.2.2 e4
    | ole => exact absurd hat.2.2 e4
    | error => exact absurd hat.2.2.2 e4
  | failing n => rw [hph] at hat; exact absurd hat.unborn (by rcases e2 with h | h <;> rw [h] <;> decide)
  | failed => rw [hph] at hat; exact absurd hat.unborn (by rcases e2 with h | h <;> rw [h] <;> decide)

/-- `settle` when nothing was read. -/
theorem settle_quiet (s : State) (c c' : Communicate.State) (r : Ready) (hr : ∀ x d, r ≠ .avail x d) :
    settle s c c' r = { s with
      buf := upd s.buf .in_ (s.buf .in_ ++ c'.sent.drop c.sent.length)
      put := upd s.put .in_ (s.put .in_ ++ c'.sent.drop c.sent.length)
      rd := closing s.rd (readsFrom c')
      wr := closing s.wr (writesTo c') } := by
  cases r with
  | avail x d => exact absurd rfl (hr x d)
  | _ => rfl

/-- `settle` when something was read and nothing sent. -/
theorem settle_read (s : State) (c c' : Communicate.State) (x : Chan) (d : List UInt8) (hc : c'.sent = c.sent) :
    settle s c c' (.avail x d) = { s with
      buf := upd s.buf (.out x) (d.drop 4096)
      got := upd s.got (.out x) (s.got (.out x) ++ d.take 4096)
      rd := closing s.rd (readsFrom c')
      wr := closing s.wr (writesTo c') } := by
  have h : c'.sent.drop c.sent.length = [] := by rw [hc, List.drop_length]
  have e : ∀ f : P → List UInt8, upd f .in_ (f .in_) = f := fun f => by funext p; simp only [upd]; split <;> simp [*]
  simp only [settle, h, List.append_nil, e]

/-- The judge's calls never wait. -/
theorem answers {cap : Nat} {a : Args} {s : State} {c : Communicate.State} {e : Event} {ps : List Event}
    (h : At cap a s (.talk c (e :: ps))) : ∃ r, answer cap a s c e = some r ∧ r.fd = e.fd ∧ (e = .canWrite → r = .epipe ∧ s.rd .in_ .prog = false ∨
      r = .room (cap - (s.buf .in_).length) ∧ (s.buf .in_).length + ((a.input.drop c.offset).take Communicate.pipeBuf).length ≤ cap) ∧
      (e = .broken → r = .hang .stdin) ∧ (∀ x, e = .canRead x → r = .avail x (s.buf (.out x))) ∧
      (∀ x, e = .hungUp x → r = .hang (.chan x)) := by
  have hv := (h.2.2.2 e (by simp)).2
  cases e with
  | canWrite =>
    simp only [answer]
    by_cases hr : noReader s .in_ = true
    · rw [if_pos hr]
      simp only [noReader, Bool.and_eq_true, Bool.not_eq_true'] at hr
      exact ⟨_, rfl, rfl, fun _ => .inl ⟨rfl, hr.2⟩, by simp, by simp, by simp⟩
    · rw [if_neg hr]
      have hl : (s.buf .in_).length + ((a.input.drop c.offset).take Communicate.pipeBuf).length ≤ cap := by
        have hv : (s.buf .in_).length + 4096 ≤ cap := hv
        have := List.length_take_le Communicate.pipeBuf (a.input.drop c.offset)
        have : Communicate.pipeBuf = 4096 := rfl
        omega
      rw [if_pos hl]
      exact ⟨_, rfl, rfl, fun _ => .inr ⟨rfl, hl⟩, by simp, by simp, by simp⟩
  | broken => exact ⟨_, rfl, rfl, by simp, by simp, by simp, by simp⟩
  | canRead x =>
    simp only [answer]
    have hv : s.buf (.out x) ≠ [] := hv
    rw [if_neg (fun h => hv h.1)]
    exact ⟨_, rfl, rfl, by simp, by simp, fun y hy => by cases hy; rfl, by simp⟩
  | hungUp x => exact ⟨_, rfl, rfl, by simp, by simp, by simp, fun y hy => by cases hy; rfl⟩

theorem closing_prog (f : P → Who → Bool) (k : P → Bool) (p : P) : closing f k p .prog = f p .prog := by simp [closing]

theorem closing_judge (f : P → Who → Bool) (k : P → Bool) (p : P) : closing f k p .judge = (f p .judge && k p) := by
  simp [closing]

/-- The ends of the program stay. -/
theorem prog_same {s t : State} (h : Prog s) (h1 : t.status = s.status) (h2 : ∀ p, t.rd p .prog = s.rd p .prog)
    (h3 : ∀ p, t.wr p .prog = s.wr p .prog) : Prog t := by
  obtain ⟨p1, p2, p3⟩ := h
  constructor <;> simp only [h1, h2, h3] <;> assumption

/-- The judge closes the input. -/
theorem inv_closeIn {cap : Nat} {a : Args} {s : State} {c : Communicate.State} {e : Event} {ps : List Event} (h : Inv cap a s)
    (hp : s.phase = .talk c (e :: ps)) (r : Ready) (hr : ∀ x d, r ≠ .avail x d) (he : e.fd = .stdin)
    (hb : s.rd .in_ .prog = false) {c' : Communicate.State} (h1 : c'.sent = c.sent) (h2 : c'.offset = c.offset)
    (h3 : c'.got = c.got) (h4 : c'.length = c.length) (h5 : c'.isOpen = fun f => if f = .stdin then false else c.isOpen f) :
    Inv cap a { settle s c c' r with phase := .talk c' ps } := by
  obtain ⟨i1, i2, i3⟩ := h
  rw [hp] at i3
  obtain ⟨q1, q2, q3, q4⟩ := i3
  rw [settle_quiet _ _ _ _ hr, h1, List.drop_length, List.append_nil, List.append_nil]
  have e : ∀ f : P → List UInt8, upd f .in_ (f .in_) = f := fun f => by funext p; simp only [upd]; split <;> simp [*]
  rw [e, e]
  refine ⟨prog_same i1 rfl (fun p => closing_prog ..) (fun p => closing_prog ..), ⟨i2.bytes, i2.room⟩, ?_, ?_, ?_, ?_⟩
  · obtain ⟨p1, p2, p3, p4, p5, p6, p7, p8, p9, p10, p11, p12, p13⟩ := q1
    constructor <;> simp only [closing_prog, closing_judge, readsFrom, writesTo, h1, h2, h3, h4, h5] <;> grind
  · rw [h4]; exact q2
  · exact (List.nodup_cons.1 q3).2
  · intro e' he'
    have hne : e'.fd ≠ .stdin := fun hx => (List.nodup_cons.1 q3).1 (by rw [he, ← hx]; exact List.mem_map_of_mem he')
    obtain ⟨hv1, hv2⟩ := q4 e' (List.mem_cons_of_mem _ he')
    refine ⟨by rw [h5]; simp [hne, hv1], ?_⟩
    cases e' <;> simp_all [Valid, closing_prog, Event.fd]

/-- The judge closes an output. -/
theorem inv_closeOut {cap : Nat} {a : Args} {s : State} {c : Communicate.State} {e : Event} {ps : List Event} (h : Inv cap a s)
    (hp : s.phase = .talk c (e :: ps)) (r : Ready) (hr : ∀ x d, r ≠ .avail x d) {x : Chan} (he : e.fd = .chan x)
    (hb : s.buf (.out x) = [] ∧ s.wr (.out x) .prog = false) {c' : Communicate.State} (h1 : c'.sent = c.sent) (h2 : c'.offset = c.offset)
    (h3 : c'.got = c.got) (h4 : c'.length = c.length) (h5 : c'.isOpen = fun f => if f = .chan x then false else c.isOpen f) :
    Inv cap a { settle s c c' r with phase := .talk c' ps } := by
  obtain ⟨i1, i2, i3⟩ := h
  rw [hp] at i3
  obtain ⟨q1, q2, q3, q4⟩ := i3
  rw [settle_quiet _ _ _ _ hr, h1, List.drop_length, List.append_nil, List.append_nil]
  have e : ∀ f : P → List UInt8, upd f .in_ (f .in_) = f := fun f => by funext p; simp only [upd]; split <;> simp [*]
  rw [e, e]
  refine ⟨prog_same i1 rfl (fun p => closing_prog ..) (fun p => closing_prog ..), ⟨i2.bytes, i2.room⟩, ?_, ?_, ?_, ?_⟩
  · obtain ⟨p1, p2, p3, p4, p5, p6, p7, p8, p9, p10, p11, p12, p13⟩ := q1
    constructor <;> simp only [closing_prog, closing_judge, readsFrom, writesTo, h1, h2, h3, h4, h5] <;> grind
  · rw [h4]; exact q2
  · exact (List.nodup_cons.1 q3).2
  · intro e' he'
    have hne : e'.fd ≠ .chan x := fun hx => (List.nodup_cons.1 q3).1 (by rw [he, ← hx]; exact List.mem_map_of_mem he')
    obtain ⟨hv1, hv2⟩ := q4 e' (List.mem_cons_of_mem _ he')
    refine ⟨by rw [h5]; simp [hne, hv1], ?_⟩
    cases e' <;> simp_all [Valid, closing_prog, Event.fd]

/-- The judge writes the next chunk of the input. -/
theorem inv_write {cap : Nat} {a : Args} {s : State} {c : Communicate.State} {e : Event} {ps : List Event} (h : Inv cap a s)
    (hp : s.phase = .talk c (e :: ps)) (r : Ready) (hr : ∀ x d, r ≠ .avail x d) (he : e.fd = .stdin) {k : Nat}
    (hk : c.offset + k ≤ a.input.length) (hl : (s.buf .in_).length + k ≤ cap)
    {c' : Communicate.State} (h1 : c'.sent = a.input.take (c.offset + k)) (h2 : c'.offset = c.offset + k)
    (h3 : c'.got = c.got) (h4 : c'.length = c.length)
    (h5 : c'.isOpen = fun f => if f = .stdin then decide (c.offset + k < a.input.length) else c.isOpen f) :
    Inv cap a { settle s c c' r with phase := .talk c' ps } := by
  obtain ⟨i1, i2, i3⟩ := h
  rw [hp] at i3
  obtain ⟨q1, q2, q3, q4⟩ := i3
  have hd : c'.sent.drop c.sent.length = (a.input.drop c.offset).take k := by
    rw [h1, q1.sent, List.length_take, Nat.min_eq_left q1.off, List.drop_take]
    congr 1; omega
  have hs : c.sent ++ (a.input.drop c.offset).take k = a.input.take (c.offset + k) := by
    rw [q1.sent, List.take_add]
  have hopen := (q4 e (by simp)).1
  rw [he] at hopen
  rw [settle_quiet _ _ _ _ hr, hd]
  refine ⟨prog_same i1 rfl (fun p => closing_prog ..) (fun p => closing_prog ..), ⟨?_, ?_⟩, ?_, ?_, ?_, ?_⟩
  · intro p
    have := i2.bytes p
    simp only [upd]
    split
    · rename_i hp; subst hp; rw [this, List.append_assoc]
    · exact this
  · intro p
    have := i2.room p
    simp only [upd]
    split
    · rw [List.length_append, List.length_take, List.length_drop]; omega
    · exact this
  · obtain ⟨p1, p2, p3, p4, p5, p6, p7, p8, p9, p10, p11, p12, p13⟩ := q1
    constructor <;> simp only [closing_prog, closing_judge, readsFrom, writesTo, h1, h2, h3, h4, h5, upd] <;> grind
  · rw [h4]; exact q2
  · exact (List.nodup_cons.1 q3).2
  · intro e' he'
    have hne : e'.fd ≠ .stdin := fun hx => (List.nodup_cons.1 q3).1 (by rw [he, ← hx]; exact List.mem_map_of_mem he')
    obtain ⟨hv1, hv2⟩ := q4 e' (List.mem_cons_of_mem _ he')
    refine ⟨by rw [h5]; simp [hne, hv1], ?_⟩
    cases e' <;> simp_all [Valid, closing_prog, Event.fd, upd]

/-- The judge has read something: what holds whatever the limits are. -/
theorem pipes_read {cap : Nat} {a : Args} {s : State} {c : Communicate.State} (i1 : Prog s) (i2 : Bytes cap s) (q1 : Pipes a s c)
    {x : Chan} (ho : c.isOpen (.chan x) = true)
    {c' : Communicate.State} (h1 : c'.sent = c.sent) (h2 : c'.offset = c.offset)
    (h3 : c'.got = fun y => if y = x then c.got y ++ [(s.buf (.out x)).take 4096] else c.got y)
    (h4 : c'.length = fun y => if y = x then c.length y + ((s.buf (.out x)).take 4096).length else c.length y)
    (h5 : c'.isOpen = c.isOpen) (f : Phase) :
    Prog { settle s c c' (.avail x (s.buf (.out x))) with phase := f } ∧
      Bytes cap { settle s c c' (.avail x (s.buf (.out x))) with phase := f } ∧
      Pipes a { settle s c c' (.avail x (s.buf (.out x))) with phase := f } c' := by
  rw [settle_read _ _ _ _ _ h1]
  refine ⟨prog_same i1 rfl (fun p => closing_prog ..) (fun p => closing_prog ..), ⟨?_, ?_⟩, ?_⟩
  · intro p
    have := i2.bytes p
    simp only [upd]
    split
    · rename_i hp; subst hp; rw [this, List.append_assoc, List.take_append_drop]
    · exact this
  · intro p
    have := i2.room p
    simp only [upd]
    split
    · rename_i hp; subst hp; rw [List.length_drop]; omega
    · exact this
  · obtain ⟨p1, p2, p3, p4, p5, p6, p7, p8, p9, p10, p11, p12, p13⟩ := q1
    constructor <;> simp only [closing_prog, closing_judge, readsFrom, writesTo, h1, h2, h3, h4, h5, upd] <;>
      grind [List.flatten_append, List.length_append]

/-- All streams are there. -/
def Three (a : Args) : Prop := a.hasIn = true ∧ ∀ x, a.has x = true

/-- Valid entries for other outputs stay so. -/
theorem rest_read {cap : Nat} {a : Args} {s : State} {c : Communicate.State} {e : Event} {ps : List Event} {x : Chan}
    (he : e.fd = .chan x) (h : At cap a s (.talk c (e :: ps))) {c' : Communicate.State} (h1 : c'.sent = c.sent)
    (h5 : c'.isOpen = c.isOpen) (f : Phase) :
    (ps.map Event.fd).Nodup ∧ ∀ e' ∈ ps, c'.isOpen e'.fd = true ∧
      Valid cap { settle s c c' (.avail x (s.buf (.out x))) with phase := f } e' := by
  obtain ⟨q1, q2, q3, q4⟩ := h
  refine ⟨(List.nodup_cons.1 q3).2, fun e' he' => ?_⟩
  have hne : e'.fd ≠ .chan x := fun hx => (List.nodup_cons.1 q3).1 (by rw [he, ← hx]; exact List.mem_map_of_mem he')
  obtain ⟨hv1, hv2⟩ := q4 e' (List.mem_cons_of_mem _ he')
  refine ⟨by rw [h5]; exact hv1, ?_⟩
  rw [settle_read _ _ _ _ _ h1]
  cases e' <;> simp_all [Valid, closing_prog, Event.fd, upd]

theorem inv_talk {cap : Nat} {a : Args} {s : State} {c : Communicate.State} {e : Event} {ps : List Event} (ha : Three a)
    (h : Inv cap a s) (hp : s.phase = .talk c (e :: ps)) :
    ∃ r, answer cap a s c e = some r ∧
      Inv cap a { settle s c (Communicate.step a c r).state r with phase := after ps (Communicate.step a c r) } := by
  have hat := h.at_
  rw [hp] at hat
  obtain ⟨r, hr, hfd, hw, hb, hrd, hh⟩ := answers hat
  refine ⟨r, hr, ?_⟩
  have ho : c.isOpen r.fd = true := by rw [hfd]; exact (hat.2.2.2 e (by simp)).1
  have hv := (hat.2.2.2 e (by simp)).2
  have hstep : Communicate.step a c r = _ := if_neg (by rw [ho]; decide)
  cases e with
  | canWrite =>
    rcases hw rfl with ⟨rfl, hx⟩ | ⟨rfl, hl⟩
    · rw [hstep]
      exact inv_closeIn h hp _ (by simp) rfl hx rfl rfl rfl rfl rfl
    · rw [hstep]
      set k := ((a.input.drop c.offset).take Communicate.pipeBuf).length with hk
      have hmin : min (cap - (s.buf .in_).length) k = k := by omega
      have hkl : c.offset + k ≤ a.input.length := by
        have := hat.1.off
        rw [List.length_take, List.length_drop] at hk
        omega
      have hsent : c.sent ++ ((a.input.drop c.offset).take Communicate.pipeBuf).take k = a.input.take (c.offset + k) := by
        rw [hat.1.sent, hk, List.take_length, List.take_add, List.length_take, ← List.take_eq_take_min]
      simp only [← hk, hmin]
      by_cases hd : c.offset + k ≥ a.input.length
      · have hf : (fun f => if f = Fd.stdin then false else c.isOpen f) =
            fun f => if f = Fd.stdin then decide (c.offset + k < a.input.length) else c.isOpen f := by
          funext f
          rw [decide_eq_false (by omega)]
        rw [if_pos hd]
        exact inv_write h hp _ (by simp) rfl hkl hl hsent rfl rfl rfl hf
      · have hf : c.isOpen = fun f => if f = Fd.stdin then decide (c.offset + k < a.input.length) else c.isOpen f := by
          funext f
          split
          · rename_i hf; subst hf; rw [decide_eq_true (by omega)]; exact ho
          · rfl
        rw [if_neg hd]
        exact inv_write h hp _ (by simp) rfl hkl hl hsent rfl rfl rfl hf
  | broken =>
    rw [hb rfl] at hstep ⊢
    rw [hstep]
    exact inv_closeIn h hp _ (by simp) rfl hv rfl rfl rfl rfl rfl
  | hungUp x =>
    rw [hh x rfl] at hstep ⊢
    rw [hstep]
    exact inv_closeOut h hp _ (by simp) rfl hv rfl rfl rfl rfl rfl
  | canRead x =>
    rw [hrd x rfl] at hstep ⊢
    have hv : s.buf (.out x) ≠ [] := hv
    have hne : (s.buf (.out x)).take 4096 ≠ [] := by
      intro h0
      rcases List.take_eq_nil_iff.1 h0 with h0 | h0
      · omega
      · exact hv h0
    rw [hrd x rfl] at ho
    have ho : c.isOpen (.chan x) = true := ho
    set c1 : Communicate.State := ({ c with log := c.log ++ [.avail x (s.buf (.out x))] } : Communicate.State).receive x ((s.buf (.out x)).take 4096) with hc1
    have e1 : c1.sent = c.sent := by simp [hc1, Communicate.State.receive, hne]
    have e2 : c1.offset = c.offset := by simp [hc1, Communicate.State.receive, hne]
    have e3 : c1.got = fun y => if y = x then c.got y ++ [(s.buf (.out x)).take 4096] else c.got y := by
      simp [hc1, Communicate.State.receive, hne]
    have e4 : c1.length = fun y => if y = x then c.length y + ((s.buf (.out x)).take 4096).length else c.length y := by
      simp [hc1, Communicate.State.receive, hne]
    have e5 : c1.isOpen = c.isOpen := by simp [hc1, Communicate.State.receive, hne]
    rw [hstep]
    show Inv cap a { settle s c (Communicate.check a c1 x).state _ with phase := after ps (Communicate.check a c1 x) }
    simp only [Communicate.check, ha.2, if_true]
    by_cases hlim : c1.length x > a.limit x
    · rw [if_pos hlim]
      by_cases hout : c1.isOpen (.chan .out) = false
      · rw [if_pos hout]
        obtain ⟨k1, k2, k3⟩ := pipes_read h.prog h.bytes hat.1 ho (c' := { c1 with marked := true }) e1 e2 e3 e4 e5
          (.wait { c1 with marked := true } .error)
        refine ⟨k1, k2, k3, ?_, hout⟩
        cases x with
        | err => exact hlim
        | out => rw [e5, ho] at hout; cases hout
      · rw [if_neg hout]
        obtain ⟨k1, k2, k3⟩ := pipes_read h.prog h.bytes hat.1 ho (c' := { c1 with marked := true }) e1 e2 e3 e4 e5
          (.kill { c1 with marked := true })
        exact ⟨k1, k2, k3, x, hlim⟩
    · rw [if_neg hlim]
      obtain ⟨k1, k2, k3⟩ := pipes_read h.prog h.bytes hat.1 ho (c' := c1) e1 e2 e3 e4 e5 (.talk c1 ps)
      refine ⟨k1, k2, k3, fun y => ?_, rest_read rfl hat e1 e5 _⟩
      by_cases hy : y = x
      · subst hy; exact Nat.le_of_not_gt hlim
      · rw [e4]; simp only [hy, if_false]; exact hat.2.1 y

theorem mem_poll (cap : Nat) (s : State) (c : Communicate.State) :
    ((poll cap s c).map Event.fd).Nodup ∧ ∀ e ∈ poll cap s c, c.isOpen e.fd = true ∧ Valid cap s e := by
  have h1 : ∀ x, pollOut s x = [] ∨ pollOut s x = [.canRead x] ∧ s.buf (.out x) ≠ [] ∨
      pollOut s x = [.hungUp x] ∧ s.buf (.out x) = [] ∧ s.wr (.out x) .prog = false := by
    intro x
    simp only [pollOut, noWriter, Bool.and_eq_true, Bool.not_eq_true']
    split_ifs with k1 k2
    · exact .inr (.inl ⟨rfl, k1⟩)
    · exact .inr (.inr ⟨rfl, not_not.1 k1, k2.2⟩)
    · exact .inl rfl
  have h2 : pollIn cap s = [] ∨ pollIn cap s = [.canWrite] ∧ (s.buf .in_).length + atomic ≤ cap ∨
      pollIn cap s = [.broken] ∧ s.rd .in_ .prog = false := by
    simp only [pollIn, noReader, Bool.and_eq_true, Bool.not_eq_true']
    split_ifs with k1 k2
    · exact .inr (.inl ⟨rfl, k1⟩)
    · exact .inr (.inr ⟨rfl, k2.2⟩)
    · exact .inl rfl
  have ho := h1 .out
  have he := h1 .err
  unfold poll
  constructor
  · rcases h2 with h2 | ⟨h2, _⟩ | ⟨h2, _⟩ <;> rcases ho with ho | ⟨ho, _⟩ | ⟨ho, _⟩ <;> rcases he with he | ⟨he, _⟩ | ⟨he, _⟩ <;>
      rw [h2, ho, he] <;> split_ifs <;> simp [Event.fd]
  · intro e hm
    rw [List.mem_append, List.mem_append] at hm
    rcases hm with (hm | hm) | hm
    · split_ifs at hm with k
      · rcases h2 with h2 | ⟨h2, h2'⟩ | ⟨h2, h2'⟩ <;> rw [h2] at hm
        · cases hm
        · rw [List.mem_singleton] at hm; subst hm; exact ⟨k, h2'⟩
        · rw [List.mem_singleton] at hm; subst hm; exact ⟨k, h2'⟩
      · cases hm
    · split_ifs at hm with k
      · rcases ho with h2 | ⟨h2, h2'⟩ | ⟨h2, h2'⟩ <;> rw [h2] at hm
        · cases hm
        · rw [List.mem_singleton] at hm; subst hm; exact ⟨k, h2'⟩
        · rw [List.mem_singleton] at hm; subst hm; exact ⟨k, h2'⟩
      · cases hm
    · split_ifs at hm with k
      · rcases he with h2 | ⟨h2, h2'⟩ | ⟨h2, h2'⟩ <;> rw [h2] at hm
        · cases hm
        · rw [List.mem_singleton] at hm; subst hm; exact ⟨k, h2'⟩
        · rw [List.mem_singleton] at hm; subst hm; exact ⟨k, h2'⟩
      · cases hm

theorem inv_judge {cap : Nat} {a : Args} {s t : State} (ha : Three a) (h : Inv cap a s) (hs : judge cap a s = some t) :
    Inv cap a t := by
  have hat := h.at_
  obtain ⟨i1, i2, i3⟩ := h
  cases hp : s.phase with
  | setup n =>
    rw [hp] at hat
    have hle := hat.le
    simp only [judge, hp] at hs
    interval_cases n
    case «7» =>
      simp only [script, List.getElem?_cons_succ, List.getElem?_nil, Option.some.injEq] at hs
      subst hs
      obtain ⟨s1, s2, s3, s4, s5, s6, s7, s8, s9, s10⟩ := hat
      refine ⟨?_, ⟨i2.bytes, i2.room⟩, ?_, ?_, by simp, by simp⟩
      · obtain ⟨p1, p2, p3⟩ := i1
        constructor <;> simp only [hold] <;> grind
      · have hr : ∀ x, s.rd (.out x) .judge = true := by intro x; cases x <;> simp_all
        have hw : ∀ x, s.wr (.out x) .judge = false := by intro x; cases x <;> simp_all
        constructor
        · exact fun h0 => absurd (s2.1 h0) (by omega)
        · exact s3
        · intro x; simp only [hold]; rw [if_neg (by simp)]; exact hw x
        · simp [hold, s4]
        · intro x; rw [hr]; exact (ha.2 x).symm
        · exact s9
        · rfl
        · exact Nat.zero_le _
        · simp only [Communicate.init, ha.1, Bool.true_and, Bool.not_eq_true', List.isEmpty_eq_false_iff]
          exact List.length_pos_iff.2
        · simp only [Communicate.init, ha.1, Bool.true_and, Bool.not_eq_false', List.isEmpty_iff]
          intro h0; left; rw [h0]; rfl
        · exact s10
        · intro x; rfl
        · intro x hx; rw [show (Communicate.init a).isOpen (.chan x) = a.has x from rfl, ha.2] at hx; cases hx
      · intro x; exact Nat.zero_le _
    all_goals
      simp only [script, List.getElem?_cons_zero, List.getElem?_cons_succ, act, Option.some.injEq] at hs
      subst hs
      obtain ⟨s1, s2, s3, s4, s5, s6, s7, s8, s9, s10⟩ := hat
      obtain ⟨p1, p2, p3⟩ := i1
      refine ⟨⟨?_, ?_, ?_⟩, ⟨i2.bytes, i2.room⟩, ?_⟩
      all_goals first
        | (constructor <;> simp_all [holdAll]; done)
        | (constructor <;> simp_all [hold]; done)
        | (simp only [hold, holdAll]; grind)
        | (intro hx; constructor <;> simp_all [hold, holdAll] <;> rintro (_ | _) <;> simp_all)
  | talk c ps =>
    cases ps with
    | cons e ps =>
      obtain ⟨r, hr, hi⟩ := inv_talk ha ⟨i1, i2, i3⟩ hp
      simp only [judge, hp, hr, Option.some.injEq] at hs
      subst hs
      exact hi
    | nil =>
      rw [hp] at hat
      simp only [judge, hp] at hs
      split at hs
      · split at hs
        · cases hs
        · cases hs
          exact ⟨⟨i1.born, i1.own, i1.gone⟩, ⟨i2.bytes, i2.room⟩, ⟨hat.1.1, hat.1.2, hat.1.3, hat.1.4, hat.1.5, hat.1.6, hat.1.7, hat.1.8, hat.1.9, hat.1.10, hat.1.11, hat.1.12, hat.1.13⟩, hat.2.1, mem_poll ..⟩
      · rename_i hc
        cases hs
        simp only [Bool.or_eq_true, not_or, Bool.not_eq_true] at hc
        refine ⟨⟨i1.born, i1.own, i1.gone⟩, ⟨i2.bytes, i2.room⟩, ⟨hat.1.1, hat.1.2, hat.1.3, hat.1.4, hat.1.5, hat.1.6, hat.1.7, hat.1.8, hat.1.9, hat.1.10, hat.1.11, hat.1.12, hat.1.13⟩, hat.2.1, ?_, rfl, rfl⟩
        rintro (_ | (_ | _))
        · exact hc.1.1
        · exact hc.1.2
        · exact hc.2
  | kill c =>
    rw [hp] at hat
    simp only [judge, hp, Option.some.injEq] at hs
    subst hs
    obtain ⟨⟨p1, p2, p3, p4, p5, p6, p7, p8, p9, p10, p11, p12, p13⟩, hx⟩ := hat
    refine ⟨⟨by simp, by simp, by simp [holdAll]⟩, ⟨i2.bytes, i2.room⟩, ?_, hx, rfl⟩
    constructor <;> (try simp only [holdAll]) <;> grind
  | wait c o =>
    rw [hp] at hat
    simp only [judge, hp] at hs
    split at hs
    · rename_i hg
      cases hs
      refine ⟨⟨i1.born, i1.own, i1.gone⟩, ⟨i2.bytes, i2.room⟩, ?_⟩
      have hpp : Pipes a s c := by cases o <;> exact hat.1
      have hq : Pipes a { s with phase := .done c o } c :=
        ⟨hpp.1, hpp.2, hpp.3, hpp.4, hpp.5, hpp.6, hpp.7, hpp.8, hpp.9, hpp.10, hpp.11, hpp.12, hpp.13⟩
      cases o with
      | ok o e => exact ⟨hq, hat.2.1, hat.2.2.1, hat.2.2.2.1, hat.2.2.2.2, hg⟩
      | ole => exact ⟨hq, hat.2⟩
      | error => exact ⟨hq, hat.2.1, hat.2.2, hg⟩
    · cases hs
  | done c o => simp [judge, hp] at hs
  | failing n =>
    rw [hp] at hat
    obtain ⟨⟨hle, hle'⟩, f2, f3, f4, f5, f6⟩ := hat
    simp only [judge, hp] at hs
    interval_cases n <;>
      simp only [script, List.getElem?_cons_zero, List.getElem?_cons_succ, List.getElem?_nil, act, Option.some.injEq] at hs <;>
      subst hs <;>
      refine ⟨prog_same i1 rfl (fun p => by simp [hold]) (fun p => by simp [hold]), ⟨i2.bytes, i2.room⟩, ?_⟩ <;>
      constructor <;> simp_all [hold]
  | failed => simp [judge, hp] at hs

theorem inv_step {cap : Nat} {a : Args} {s t : State} {l : Label} (ha : Three a) (h : Inv cap a s) (hs : step cap a s l = some t) :
    Inv cap a t := by
  cases l with
  | judge => exact inv_judge ha h hs
  | prog d => exact inv_deed h hs
  | noFork =>
    simp only [step] at hs
    split at hs
    · rename_i hp
      cases hs
      obtain ⟨i1, i2, i3⟩ := h
      rw [hp] at i3
      obtain ⟨s1, s2, s3, s4, s5, s6, s7, s8, s9, s10⟩ := i3
      exact ⟨⟨i1.born, i1.own, i1.gone⟩, ⟨i2.bytes, i2.room⟩, ⟨by omega, by omega⟩, s2.2 (by omega), s3, s6, s8, s9⟩
    · cases hs

theorem inv_run {cap : Nat} {a : Args} (ha : Three a) : ∀ (ls : List Label) {s t : State}, Inv cap a s → run cap a s ls = some t → Inv cap a t
  | [], s, t, h, hr => by cases hr; exact h
  | l :: ls, s, t, h, hr => by
    rw [run, Option.bind_eq_some_iff] at hr
    obtain ⟨u, hu, hr⟩ := hr
    exact inv_run ha ls (inv_step ha h hu) hr

theorem three (input : List UInt8) (limit : Nat) : Three (args input limit) := ⟨rfl, fun _ => rfl⟩

theorem inv {cap : Nat} {input : List UInt8} {limit : Nat} {s : State} (h : Spec.Reach cap input limit s) : Inv cap (args input limit) s :=
  inv_run (three _ _) _ (inv_start _ _) h.choose_spec

end Verif.Exchange
