import Verif.Spec.Bridge
import Verif.Lemmas.Bridge

/-!
# Two programs connected by pipes (C104)
-/

namespace Verif.Bridge

open Spec

theorem inv_raise {cap : Nat} {s t : State} (h : Inv cap s) (hs : step cap s .raise = some t) : Inv cap t := by
  simp only [step] at hs
  split at hs
  · rename_i hc
    cases hs
    exact { h with raised := fun _ => hc.2 }
  · cases hs

theorem inv_run {cap : Nat} : ∀ (ls : List Label) {s t : State}, Inv cap s → run cap s ls = some t → Inv cap t
  | [], s, t, h, hr => by cases hr; exact h
  | l :: ls, s, t, h, hr => by
    rw [run, Option.bind_eq_some_iff] at hr
    obtain ⟨u, hu, hr⟩ := hr
    refine inv_run ls ?_ hr
    cases l with
    | judge => exact inv_judge h hu
    | raise => exact inv_raise h hu
    | prog g d => exact inv_prog h hu

theorem inv {cap : Nat} {s : State} (h : Reach cap s) : Inv cap s := inv_run _ (inv_start cap) h.choose_spec

/-- **C104**: when the judge waits, each pipe between the programs has its ends in their hands only, and only a program itself can
write to its errors, which the judge can read. -/
theorem C104_ends {cap : Nat} {s : State} (h : Reach cap s) (hs : Started s)
    (h1 : s.status .sub ≠ .born) (h2 : s.status .inter ≠ .born) :
    (∀ v, s.rd .toInter v = true → v = .prog .inter) ∧ (∀ v, s.wr .toInter v = true → v = .prog .sub) ∧
    (∀ v, s.rd .toSub v = true → v = .prog .sub) ∧ (∀ v, s.wr .toSub v = true → v = .prog .inter) ∧
    (∀ v, s.wr .subErr v = true → v = .prog .sub) ∧ (∀ v, s.rd .subErr v = true ↔ v = .judge) ∧
    (∀ v, s.wr .interErr v = true → v = .prog .inter) ∧ (∀ v, s.rd .interErr v = true ↔ v = .judge) := by
  obtain ⟨le, raised, r1, w1, r2, w2, r3, w3, r4, w4, sub, inter, none_, own, bornSub, bornInter, bytes, room, waited, read⟩ := inv h
  unfold Started at hs
  have key : ∀ g, s.status g = .running ∨ s.status g = .unborn ∨ s.status g = .gone := by
    intro g
    cases hg : s.status g <;> cases g <;> simp_all
  have own' : ∀ g p, (s.rd p (.prog g) = true → p = input g) ∧ (s.wr p (.prog g) = true → p = output g ∨ p = errors g) := by
    intro g p
    rcases key g with hg | hg
    · exact own g p hg
    · have := none_ g p hg
      simp [this]
  refine ⟨?_, ?_, ?_, ?_, ?_, ?_, ?_, ?_⟩ <;> intro v <;> rcases v with _ | (_ | _) <;> grind [input, output, errors]

/-- **C104**: a program has to wait for input only if nothing is there and the other one is alive and can still write. -/
theorem C104_waits {cap : Nat} {s : State} (h : Reach cap s) (hs : Started s) {g : Prog} {n : Nat}
    (ho : s.rd (input g) (.prog g) = true) (hb : Blocked cap s g (.read n)) :
    s.buf (input g) = [] ∧ Alive s (other g) ∧ s.wr (input g) (.prog (other g)) = true := by
  obtain ⟨le, raised, r1, w1, r2, w2, r3, w3, r4, w4, sub, inter, none_, own, bornSub, bornInter, bytes, room, waited, read⟩ := inv h
  obtain ⟨hb1, hb2⟩ := hb
  simp only [step, deed, hb1, ho, true_and] at hb2
  unfold Started at hs
  split at hb2
  · cases hb2
  · rename_i hc
    simp only [not_or, noWriter] at hc
    unfold Alive
    cases g <;> cases hi : s.status .inter <;> cases hj : s.status .sub <;> grind [input, output, errors, other]

/-- **C104**: once the other program has ended, neither reading nor writing blocks: what is there is read, then the end of file. -/
theorem C104_over {cap : Nat} {s : State} (h : Reach cap s) (hs : Started s) {g : Prog} (hg : s.status g = .running)
    (ho : s.status (other g) = .gone) :
    (s.rd (input g) (.prog g) = true → ∀ n, ∃ t, step cap s (.prog g (.read n)) = some t ∧
      t.got (input g) = s.got (input g) ++ (s.buf (input g)).take n) ∧
    (s.wr (output g) (.prog g) = true → ∀ b, ∃ t, step cap s (.prog g (.write false b)) = some t) := by
  obtain ⟨le, raised, r1, w1, r2, w2, r3, w3, r4, w4, sub, inter, none_, own, bornSub, bornInter, bytes, room, waited, read⟩ := inv h
  unfold Started at hs
  constructor
  · intro hr n
    have hn : noWriter s (input g) = true := by
      cases g <;> simp only [noWriter, input, other] at * <;> grind [input, output, errors]
    exact ⟨_, by rw [step, deed, if_pos ⟨hg, hr, .inr hn⟩], by simp [upd]⟩
  · intro hw b
    have hn : noReader s (output g) = true := by
      cases g <;> simp only [noReader, output, other] at * <;> grind [input, output, errors]
    exact ⟨s, by simp [step, deed, target, hg, hw, hn]⟩

/-- **C104**: bytes arrive in order and none is lost: what has been written to a pipe is what has been read and what is in it, at
most its capacity; and only one program writes to each. -/
theorem C104_bytes {cap : Nat} {s : State} (h : Reach cap s) :
    (∀ p, s.put p = s.got p ++ s.buf p ∧ (s.buf p).length ≤ cap) ∧
    ∀ l t, step cap s l = some t → ∀ p, t.put p ≠ s.put p → ∃ g d b, l = .prog g d ∧ (p = output g ∨ p = errors g) ∧
      t.put p = s.put p ++ [b] := by
  refine ⟨fun p => ⟨(inv h).bytes p, (inv h).room p⟩, ?_⟩
  intro l t hs p hp
  cases l with
  | raise =>
    simp only [step] at hs
    split at hs <;> cases hs
    exact absurd rfl hp
  | judge =>
    simp only [step] at hs
    split at hs
    · cases hs
    · split at hs
      · cases hs
      · rename_i a _
        simp only [Option.map_eq_some_iff] at hs
        obtain ⟨u, hu, rfl⟩ := hs
        cases a <;> simp only [act] at hu <;> (try split at hu) <;> cases hu <;> exact absurd rfl hp
  | prog g d =>
    simp only [step] at hs
    cases d <;> simp only [deed] at hs <;> (try split at hs) <;> (try split at hs) <;> (try split at hs) <;> cases hs <;>
      first
      | exact absurd rfl hp
      | (rename_i err b _ _ _
         refine ⟨g, _, b, rfl, ?_, ?_⟩
         · simp only [upd] at hp
           split at hp
           · rename_i hq
             subst hq
             cases err <;> simp [target]
           · exact absurd rfl hp
         · simp only [upd] at hp ⊢
           split at hp
           · rename_i hq
             subst hq
             simp
           · exact absurd rfl hp)

/-- **C104**: the judge waits for nothing but a program that has not ended. -/
theorem C104_proceeds {cap : Nat} {s : State} (h : Reach cap s) (hr : s.raised = false) (hn : step cap s .judge = none) :
    s.at_ = 16 ∨ (s.at_ = 12 ∧ Alive s .sub) ∨ (s.at_ = 13 ∧ Alive s .inter) := by
  obtain ⟨le, raised, r1, w1, r2, w2, r3, w3, r4, w4, sub, inter, none_, own, bornSub, bornInter, bytes, room, waited, read⟩ := inv h
  simp only [step, hr, Bool.false_eq_true, if_false] at hn
  unfold Alive
  by_cases hl : s.at_ < 16
  · obtain ⟨n, hn'⟩ : ∃ n, n = s.at_ := ⟨_, rfl⟩
    rw [← hn'] at hn hl
    interval_cases n <;> simp only [script, List.getElem?_cons_zero, List.getElem?_cons_succ, act, Option.map_some, reduceCtorEq] at hn
    · refine .inr (.inl ⟨hn'.symm, ?_⟩)
      cases hj : s.status .sub <;> grind
    · refine .inr (.inr ⟨hn'.symm, ?_⟩)
      cases hj : s.status .inter <;> grind
    · grind
    · grind
  · exact .inl (by omega)

/-- **C104**: at the end both programs have ended, and the judge has all they have written to their errors. -/
theorem C104_result {cap : Nat} {s : State} (h : Reach cap s) (hd : s.at_ = 16) :
    s.status .sub = .gone ∧ s.status .inter = .gone ∧ s.got .subErr = s.put .subErr ∧ s.got .interErr = s.put .interErr := by
  have hi := inv h
  refine ⟨hi.waited.1 (by omega), hi.waited.2 (by omega), ?_, ?_⟩
  · rw [hi.bytes, hi.read.1 (by omega), List.append_nil]
  · rw [hi.bytes, hi.read.2 (by omega), List.append_nil]

/-- **C104 (partial)**: as long as a program has written less to its errors than a pipe holds, it does not have to wait to write
more. Missing for the full claim: beyond that (`C104_errors_fails`). -/
theorem C104_errors_partial {cap : Nat} {s : State} (h : Reach cap s) {g : Prog} (hg : s.status g = .running)
    (hw : s.wr (errors g) (.prog g) = true) (hl : (s.put (errors g)).length < cap) (b : UInt8) :
    ∃ t, step cap s (.prog g (.write true b)) = some t := by
  have hb : (s.buf (errors g)).length < cap := by
    rw [(inv h).bytes, List.length_append] at hl
    omega
  simp only [step, deed, hg, hw, target, true_and, if_true, hb]
  split <;> exact ⟨_, rfl⟩

/-! ## What goes wrong -/

/-- Both started and settled. -/
def both : List Label :=
  List.replicate 12 .judge ++ [.prog .sub .settle, .prog .inter .settle]

/-- The state then. -/
def ready : State where
  at_ := 12
  raised := false
  rd p v := match p, v with
    | .toInter, .prog .inter => true
    | .toSub, .prog .sub => true
    | .subErr, .judge => true
    | .interErr, .judge => true
    | _, _ => false
  wr p v := match p, v with
    | .toInter, .prog .sub => true
    | .toSub, .prog .inter => true
    | .subErr, .prog .sub => true
    | .interErr, .prog .inter => true
    | _, _ => false
  buf _ := []
  put _ := []
  got _ := []
  status _ := .running

theorem run_both (cap : Nat) : run cap start both = some ready := by
  simp only [both, List.replicate, List.cons_append, List.nil_append, run, step, script, List.getElem?_cons_zero,
    List.getElem?_cons_succ, act, start, Option.map_some, Option.bind_some, Bool.false_eq_true, if_false, deed, hold, holdAll, upd,
    reduceCtorEq, if_true, ready, Option.some.injEq, State.mk.injEq, true_and, and_true]
  refine ⟨?_, ?_, ?_⟩
  · funext p v; cases p <;> rcases v with _ | (_ | _) <;> rfl
  · funext p v; cases p <;> rcases v with _ | (_ | _) <;> rfl
  · funext g; cases g <;> rfl

theorem run_append (cap : Nat) : ∀ (l m : List Label) (s : State), run cap s (l ++ m) = (run cap s l).bind fun t => run cap t m
  | [], m, s => rfl
  | a :: l, m, s => by
    rw [List.cons_append, run, run]
    cases h : step cap s a with
    | none => rfl
    | some t => simp only [Option.bind_some]; exact run_append cap l m t

/-- After `k` bytes of the submission to its errors. -/
def wrote (k : Nat) : State :=
  { ready with buf := upd (fun _ => []) .subErr (List.replicate k 0), put := upd (fun _ => []) .subErr (List.replicate k 0) }

theorem run_wrote (cap : Nat) : ∀ k, k ≤ cap → run cap ready (List.replicate k (.prog .sub (.write true 0))) = some (wrote k)
  | 0, _ => by
    simp only [List.replicate, run, wrote, ready, Option.some.injEq, State.mk.injEq, true_and, and_true]
    constructor <;> (funext p; cases p <;> rfl)
  | k + 1, h => by
    rw [List.replicate_succ', run_append, run_wrote cap k (by omega), Option.bind_some]
    have hk : k < cap := by omega
    have hb : (wrote k).buf .subErr = List.replicate k 0 := by simp [wrote, upd]
    have hp : (wrote k).put .subErr = List.replicate k 0 := by simp [wrote, upd]
    have h1 : (wrote k).status .sub = .running := rfl
    have h2 : (wrote k).wr .subErr (.prog .sub) = true := rfl
    have h3 : noReader (wrote k) .subErr = false := rfl
    have ht : target .sub true = .subErr := rfl
    simp only [run, step, deed, ht, h1, h2, h3, hb, hp, List.length_replicate, hk, and_self, if_true, Bool.false_eq_true, if_false,
      Option.bind_some, Option.some.injEq]
    rw [← List.replicate_succ']
    simp only [wrote, State.mk.injEq, true_and, and_true]
    constructor <;> (funext p; cases p <;> rfl)

/-- The submission is full of errors nobody reads. -/
structure Full (cap : Nat) (s : State) : Prop where
  at_ : s.at_ = 12
  status : s.status .sub = .running
  wr : s.wr .subErr (.prog .sub) = true
  rd : s.rd .subErr .judge = true
  buf : (s.buf .subErr).length = cap

theorem full_step {cap : Nat} {s t : State} {l : Label} (h : Full cap s) (hl : ∀ d, l = .prog .sub d → ∃ b, d = .write true b)
    (hs : step cap s l = some t) : Full cap t := by
  obtain ⟨h1, h2, h3, h4, h5⟩ := h
  cases l with
  | raise =>
    simp [step, h1] at hs
  | judge =>
    simp only [step, h1, script, List.getElem?_cons_zero, List.getElem?_cons_succ, act, h2, reduceCtorEq, if_false, Option.map_none,
      ite_self] at hs
  | prog g d =>
    cases g with
    | sub =>
      obtain ⟨b, rfl⟩ := hl d rfl
      have hn : noReader s .subErr = false := by simp [noReader, h4]
      have ht : target .sub true = .subErr := rfl
      simp only [step, deed, ht, h2, h3, hn, h5, and_self, if_true, Bool.false_eq_true, if_false, lt_irrefl, reduceCtorEq] at hs
    | inter =>
      simp only [step] at hs
      cases d <;> simp only [deed] at hs <;> (try split at hs) <;> (try split at hs) <;> (try split at hs) <;> cases hs <;>
        constructor <;> grind [upd, hold, holdAll, input, output, errors, target]

theorem full_run {cap : Nat} : ∀ (ls : List Label) {s t : State}, Full cap s →
    (∀ l ∈ ls, ∀ d, l = .prog .sub d → ∃ b, d = .write true b) → run cap s ls = some t → Full cap t
  | [], s, t, h, _, hr => by cases hr; exact h
  | l :: ls, s, t, h, hl, hr => by
    rw [run, Option.bind_eq_some_iff] at hr
    obtain ⟨u, hu, hr⟩ := hr
    exact full_run ls (full_step h (hl l (by simp)) hu) (fun m hm => hl m (by simp [hm])) hr

/-- **C104 fails**: a submission that has written as much to its errors as a pipe holds, and wants to write one byte more, waits for
ever: whatever the interactor does, the judge waits for the submission and does not read. Only being killed ends this. -/
theorem C104_errors_fails (cap : Nat) : ∃ s, Reach cap s ∧ Blocked cap s .sub (.write true 0) ∧
    ∀ ls t, (∀ l ∈ ls, ∀ d, l = .prog .sub d → ∃ b, d = .write true b) → run cap s ls = some t →
      t.at_ = 12 ∧ Blocked cap t .sub (.write true 0) := by
  have hf : ∀ t, Full cap t → t.at_ = 12 ∧ Blocked cap t .sub (.write true 0) := by
    rintro t ⟨h1, h2, h3, h4, h5⟩
    have hn : noReader t .subErr = false := by simp [noReader, h4]
    have ht : target .sub true = .subErr := rfl
    refine ⟨h1, h2, ?_⟩
    simp only [step, deed, ht, h2, h3, hn, h5, and_self, if_true, Bool.false_eq_true, if_false, lt_irrefl]
  have h0 : Full cap (wrote cap) := ⟨rfl, rfl, rfl, rfl, by simp [wrote, upd]⟩
  exact ⟨wrote cap, ⟨both ++ List.replicate cap (.prog .sub (.write true 0)), by
    rw [run_append, run_both, Option.bind_some, run_wrote cap cap le_rfl]⟩, (hf _ h0).2,
    fun ls t hl hr => hf _ (full_run ls h0 hl hr)⟩

/-- The judge has given up, and keeps the pipe open to which it will never write. -/
structure Left (s : State) : Prop where
  raised : s.raised = true
  status : s.status .sub = .running
  inter : s.status .inter = .unborn
  wr : s.wr .toSub .judge = true
  rd : s.rd .toSub (.prog .sub) = true
  buf : s.buf .toSub = []

theorem left_step {cap : Nat} {s t : State} {l : Label} (h : Left s) (hl : ∀ d, l = .prog .sub d → ∃ n, d = .read n)
    (hs : step cap s l = some t) : Left t := by
  obtain ⟨h1, h2, h3, h4, h5, h6⟩ := h
  cases l with
  | raise => simp [step, h1] at hs
  | judge => simp [step, h1] at hs
  | prog g d =>
    cases g with
    | sub =>
      obtain ⟨b, rfl⟩ := hl d rfl
      simp [step, deed, input, h6, noWriter, h4] at hs
    | inter =>
      simp only [step] at hs
      cases d <;> simp [deed, h3] at hs

theorem left_run {cap : Nat} : ∀ (ls : List Label) {s t : State}, Left s →
    (∀ l ∈ ls, ∀ d, l = .prog .sub d → ∃ n, d = .read n) → run cap s ls = some t → Left t
  | [], s, t, h, _, hr => by cases hr; exact h
  | l :: ls, s, t, h, hl, hr => by
    rw [run, Option.bind_eq_some_iff] at hr
    obtain ⟨u, hu, hr⟩ := hr
    exact left_run ls (left_step h (hl l (by simp)) hu) (fun m hm => hl m (by simp [hm])) hr

/-- **C104 fails**: if the interactor cannot be started (no expected output, a bad format of arguments), the submission is left waiting
for input that never comes: the judge does not close its end. Only being killed ends this. -/
theorem C104_left_fails (cap : Nat) : ∃ s, Reach cap s ∧ s.raised = true ∧ Blocked cap s .sub (.read 1) ∧
    ∀ ls t, (∀ l ∈ ls, ∀ d, l = .prog .sub d → ∃ n, d = .read n) → run cap s ls = some t →
      Blocked cap t .sub (.read 1) := by
  have hf : ∀ t, Left t → Blocked cap t .sub (.read 1) := by
    rintro t ⟨h1, h2, h3, h4, h5, h6⟩
    exact ⟨h2, by simp [step, deed, input, h6, noWriter, h4]⟩
  obtain ⟨s, hs, hl⟩ : ∃ s, run cap start (List.replicate 7 .judge ++ [.prog .sub .settle, .raise]) = some s ∧ Left s := by
    refine ⟨_, by
      simp only [List.replicate, List.cons_append, List.nil_append, run, step, script, List.getElem?_cons_zero,
        List.getElem?_cons_succ, act, start, Option.map_some, Option.bind_some, Bool.false_eq_true, if_false, deed, upd,
        if_true, true_and]
      rfl, ?_⟩
    constructor <;> rfl
  exact ⟨s, ⟨_, hs⟩, hl.raised, hf s hl, fun ls t h hr => hf _ (left_run ls hl h hr)⟩

/-! ## Examples -/

/-- A whole run: a question, an answer, something for the errors, and the end. -/
def session : List Label :=
  both ++ [.prog .inter (.write false 49), .prog .sub (.read 10), .prog .sub (.write false 50), .prog .sub (.write true 33),
    .prog .inter (.read 10), .prog .sub .die, .judge, .prog .inter (.read 10), .prog .inter .die, .judge, .judge, .judge]

example : ((run 65536 start session).map fun s => (s.at_, s.got .toSub, s.got .toInter, s.got .subErr, s.status .sub)) =
    some (16, [49], [50], [33], .gone) := by decide +kernel

/-- The hypotheses of `C104_ends`, `C104_waits` and `C104_errors_partial` are met. -/
example : Reach 65536 ready ∧ Started ready ∧ ready.status .sub ≠ .born ∧ ready.status .inter ≠ .born ∧
    Blocked 65536 ready .sub (.read 1) ∧ ready.rd .toSub (.prog .sub) = true ∧ (ready.put (errors .sub)).length < 65536 :=
  ⟨⟨both, run_both _⟩, (by unfold Started; decide), by decide, by decide, ⟨rfl, rfl⟩, rfl, by decide⟩

/-- And those of `C104_over`: the interactor has ended. -/
example : ∃ s, run 65536 start (both ++ [.prog .inter .die]) = some s ∧ s.status .sub = .running ∧ s.status .inter = .gone ∧
    s.rd .toSub (.prog .sub) = true :=
  ⟨_, by rw [run_append, run_both]; rfl, rfl, rfl, rfl⟩

end Verif.Bridge
