import Verif.Model.Session

/-! # C68: interactive sessions -/

namespace Verif.Props

open Verif.Session

namespace Sess

structure Inv (cap : Nat) (s : St) : Prop where
  open_ : s.pc = .interacting ∨ s.pc = .closing → s.stdin = true
  out : s.out = none ↔ s.pc = .interacting
  clos : s.pc = .closing → ∃ c, s.out = some (.returned c)
  ret : ∀ c, s.out = some (.returned c) → s.pc = .closing ∨ s.stdin = false
  bad : s.out = some .wrong ∨ s.out = some .ioerror → s.stdin = true
  end_ : s.pc = .reading ∨ s.pc = .done → ∃ t, s.sub = .gone t
  no : s.sub ≠ .no

theorem inv_init (cap : Nat) : Inv cap {} := by
  constructor <;> simp

theorem inv_step {cap : Nat} {s t : St} {a : Act} (h : Inv cap s) (hs : step cap s a = some t) : Inv cap t := by
  obtain ⟨h1, h2, h3, h4, h5, h6, h7⟩ := h
  cases a with
  | jend o => cases o <;> simp only [step] at hs <;> constructor <;> grind
  | kill => simp only [step, Prog.running] at hs; constructor <;> grind
  | jwrite => simp only [step, Prog.running] at hs; constructor <;> grind
  | _ => simp only [step] at hs; constructor <;> grind

theorem inv_run {cap : Nat} : ∀ (l : List Act) {s t : St}, Inv cap s → run cap s l = some t → Inv cap t
  | [], _, _, h, hr => by cases hr; exact h
  | a :: l, s, t, h, hr => by
    simp only [run] at hr
    cases hs : step cap s a with
    | none => rw [hs] at hr; exact nomatch hr
    | some u => rw [hs] at hr; exact inv_run l (inv_step h hs) hr

end Sess

open Sess

/-- C68.  After `interact` returned and its end of the pipe is closed, a program that waits for input is not kept waiting: it gets
what is left, then end of file. -/
theorem C68_input_ends (cap : Nat) (l : List Act) (s : St) (h : run cap {} l = some s) (c : Bool)
    (ho : s.out = some (.returned c)) (hp : s.pc ≠ .closing) (hr : s.sub = .run .read) : (step cap s .sub).isSome = true := by
  have hi := inv_run l (inv_init cap) h
  have := hi.ret c ho
  simp only [step, hr]
  grind

/-- C68.  Then only what it writes itself, a whole pipe of it that nobody reads, can keep it from going on. -/
theorem C68_kept_only_by_output (cap : Nat) (l : List Act) (s : St) (h : run cap {} l = some s) (c : Bool)
    (ho : s.out = some (.returned c)) (hp : s.pc ≠ .closing) (w : Want) (hr : s.sub = .run w) (hw : w ≠ .compute)
    (hb : step cap s .sub = none) : (w = .write ∧ cap ≤ s.outBuf) ∨ (w = .err ∧ cap ≤ s.errBuf) := by
  have hi := inv_run l (inv_init cap) h
  have := hi.ret c ho
  cases w <;> simp only [step, hr] at hb <;> grind

/-- C68.  A program that was judged, ended by itself and is done with gets exactly the verdict of the interactor. -/
theorem C68_verdict (cap : Nat) (l : List Act) (s : St) (h : run cap {} l = some s) (hd : s.pc = .done)
    (hk : .kill ∉ l) : (verdict s = .ac ↔ s.out = some (.returned true)) ∧ (verdict s = .wa ↔ s.out ≠ some (.returned true)) := by
  have hi := inv_run l (inv_init cap) h
  obtain ⟨t, ht⟩ := hi.end_ (.inr hd)
  have key : ∀ (l : List Act) (s t : St), .kill ∉ l → s.sub ≠ .gone true → run cap s l = some t → t.sub ≠ .gone true := by
    intro l
    induction l with
    | nil => intro s t _ hs hr; cases hr; exact hs
    | cons a l ih =>
      intro s t hk hs hr
      simp only [run] at hr
      cases hu : step cap s a with
      | none => rw [hu] at hr; exact nomatch hr
      | some u =>
        rw [hu] at hr
        refine ih u t (fun h => hk (.tail _ h)) ?_ hr
        cases a with
        | kill => exact absurd (List.mem_cons_self) hk
        | jend o => cases o <;> simp only [step] at hu <;> grind
        | _ => simp only [step] at hu; grind
  have hn := key l {} s hk (by simp) h
  unfold verdict
  rw [ht] at hn ⊢
  cases t with
  | true => exact absurd rfl hn
  | false =>
    dsimp only
    cases ho : s.out with
    | none => simp
    | some o => cases o with
      | returned c => cases c <;> simp
      | _ => simp

/-- C68.  A program that waits for an answer when the interactor has found it wrong is not told: whatever happens, it waits until
the time limit kills it, and the verdict is that of the time limit. -/
theorem C68_wrong_fails (cap : Nat) (l : List Act) (s : St) (h : run cap {} l = some s)
    (ho : s.out = some .wrong ∨ s.out = some .ioerror) (hr : s.sub = .run .read) (hb : s.inBuf = 0)
    (m : List Act) (t : St) (hm : run cap s m = some t) (hd : t.pc = .done) : verdict t = .tle := by
  have hi := inv_run l (inv_init cap) h
  have hw : s.pc = .waiting ∧ s.stdin = true := by
    obtain ⟨h1, h2, h3, h4, h5, h6, h7⟩ := hi
    cases hp : s.pc <;> grind
  have key : ∀ (m : List Act) (s t : St), run cap s m = some t →
      (s.sub = .run .read ∧ s.inBuf = 0 ∧ s.pc = .waiting ∧ s.stdin = true) ∨ s.sub = .gone true →
      (t.sub = .run .read ∧ t.inBuf = 0 ∧ t.pc = .waiting ∧ t.stdin = true) ∨ t.sub = .gone true := by
    intro m
    induction m with
    | nil => intro s t hr h; cases hr; exact h
    | cons a m ih =>
      intro s t hr h
      simp only [run] at hr
      cases hu : step cap s a with
      | none => rw [hu] at hr; exact nomatch hr
      | some u =>
        rw [hu] at hr
        refine ih u t hr ?_
        cases a with
        | jend o => cases o <;> simp only [step] at hu <;> grind
        | kill => simp only [step, Prog.running] at hu; grind
        | jwrite => simp only [step, Prog.running] at hu; grind
        | _ => simp only [step] at hu; grind
  rcases key m s t hm (.inl ⟨hr, hb, hw⟩) with h | h
  · rw [hd] at h; exact nomatch h.2.2.1
  · simp [verdict, h]

/-- C68.  The same happens to a program found right that goes on to write more than a pipe holds. -/
theorem C68_output_fails (cap : Nat) (s : St) (hp : s.pc = .waiting)
    (hr : s.sub = .run .write) (hb : s.outBuf = cap)
    (m : List Act) (t : St) (hm : run cap s m = some t) (hd : t.pc = .done) : verdict t = .tle := by
  have key : ∀ (m : List Act) (s t : St), run cap s m = some t →
      (s.sub = .run .write ∧ s.outBuf = cap ∧ s.pc = .waiting) ∨ s.sub = .gone true →
      (t.sub = .run .write ∧ t.outBuf = cap ∧ t.pc = .waiting) ∨ t.sub = .gone true := by
    intro m
    induction m with
    | nil => intro s t hr h; cases hr; exact h
    | cons a m ih =>
      intro s t hr h
      simp only [run] at hr
      cases hu : step cap s a with
      | none => rw [hu] at hr; exact nomatch hr
      | some u =>
        rw [hu] at hr
        refine ih u t hr ?_
        cases a with
        | jend o => cases o <;> simp only [step] at hu <;> grind
        | kill => simp only [step, Prog.running] at hu; grind
        | jwrite => simp only [step, Prog.running] at hu; grind
        | _ => simp only [step] at hu; grind
  rcases key m s t hm (.inl ⟨hr, hb, hp⟩) with h | h
  · rw [hd] at h; exact nomatch h.2.2
  · simp [verdict, h]

/-! Such states are reached: a right answer; a wrong one while the program waits for the next question; a chatty program. -/

example : (run 2 {} [.jwrite, .choose .read, .sub, .choose .write, .sub, .jread, .jend (.returned true), .judge, .choose .read, .sub,
    .exit, .judge, .judge]).map (fun s => (s.pc, verdict s)) = some (.done, .ac) := by decide
example : (run 2 {} [.choose .write, .sub, .jread, .choose .read, .jend .wrong, .kill, .judge, .judge]).map
    (fun s => (s.pc, verdict s)) = some (.done, .tle) := by decide
example : (run 1 {} [.jend (.returned true), .judge, .choose .write, .sub, .choose .write]).map
    (fun s => (s.pc, s.sub, s.outBuf)) = some (.waiting, .run .write, 1) := by decide

/-! ## Bridged -/

namespace Sess

structure BInv (s : Br) : Prop where
  sub_no : s.pc = .launchSub ↔ s.sub = .no
  subIn : s.subIn = true → s.pc = .launchSub ∨ s.pc = .closeSubIn
  subOut : s.subOut = true → s.pc = .launchSub ∨ s.pc = .closeSubIn ∨ s.pc = .closeSubOut
  inter_no : s.pc = .launchSub ∨ s.pc = .closeSubIn ∨ s.pc = .closeSubOut ∨ s.pc = .launchInter ↔ s.inter = .no
  interIn : s.interIn = true → s.inter = .no ∨ s.pc = .closeInterIn
  interOut : s.interOut = true → s.inter = .no ∨ s.pc = .closeInterIn ∨ s.pc = .closeInterOut
  subEnd : s.pc = .waitInter ∨ s.pc = .readSub ∨ s.pc = .readInter ∨ s.pc = .done → s.sub.running = false
  interEnd : s.pc = .readSub ∨ s.pc = .readInter ∨ s.pc = .done → s.inter.running = false

theorem binv_init : BInv {} := by
  constructor <;> simp [Prog.running]

theorem binv_step {cap : Nat} {s t : Br} {a : BAct} (h : BInv s) (hs : bstep cap s a = some t) : BInv t := by
  obtain ⟨h1, h2, h3, h4, h5, h6, h7, h8⟩ := h
  cases a with
  | judge =>
    simp only [bstep, jstep] at hs
    cases hp : s.pc <;> rw [hp] at hs <;> dsimp only at hs <;> constructor <;> grind [Prog.running]
  | choose b w => cases b <;> simp only [bstep] at hs <;> constructor <;> grind [Prog.running]
  | prog b =>
    cases b
    · simp only [bstep, interStep] at hs
      constructor <;> grind [Prog.running]
    · simp only [bstep, subStep] at hs
      constructor <;> grind [Prog.running]
  | exit b => cases b <;> simp only [bstep] at hs <;> constructor <;> grind [Prog.running]
  | kill b => cases b <;> simp only [bstep] at hs <;> constructor <;> grind [Prog.running]

theorem binv_run {cap : Nat} : ∀ (l : List BAct) {s t : Br}, BInv s → brun cap s l = some t → BInv t
  | [], _, _, h, hr => by cases hr; exact h
  | a :: l, s, t, h, hr => by
    simp only [brun] at hr
    cases hs : bstep cap s a with
    | none => rw [hs] at hr; exact nomatch hr
    | some u => rw [hs] at hr; exact binv_run l (binv_step h hs) hr

theorem unlaunched {cap : Nat} (l : List BAct) : ∀ {s t : Br}, BInv s → (s.inter = .no → s.interOut = true ∧ s.interIn = true) →
    brun cap s l = some t → (t.inter = .no → t.interOut = true ∧ t.interIn = true) := by
  induction l with
  | nil => intro s t _ h hr; simp only [brun, Option.some.injEq] at hr; exact hr ▸ h
  | cons a l ih =>
    intro s t hi h hr
    simp only [brun] at hr
    cases hs : bstep cap s a with
    | none => rw [hs] at hr; exact nomatch hr
    | some u =>
      rw [hs] at hr
      refine ih (binv_step hi hs) ?_ hr
      have h4 := hi.inter_no
      cases a with
      | judge =>
        simp only [bstep, jstep] at hs
        cases hp : s.pc <;> rw [hp] at hs <;> dsimp only at hs <;> grind [Prog.running]
      | choose b w => cases b <;> simp only [bstep] at hs <;> grind
      | prog b =>
        cases b
        · simp only [bstep, interStep] at hs; grind
        · simp only [bstep, subStep] at hs; grind
      | exit b => cases b <;> simp only [bstep] at hs <;> grind
      | kill b => cases b <;> simp only [bstep] at hs <;> grind

end Sess

/-- C68.  Nobody is told that the other side is gone while it is not: who reads from the one that is alive, or yet to be started, waits for it,
and what is written to it is kept for it. -/
theorem C68_no_early_end (cap : Nat) (l : List BAct) (s : Br) (h : brun cap {} l = some s) :
    ((∀ k, s.inter ≠ .gone k) → s.sub = .run .read → s.toSub = 0 → bstep cap s (.prog true) = none) ∧
    ((∀ k, s.inter ≠ .gone k) → s.sub = .run .write → ∀ t, bstep cap s (.prog true) = some t → t.toInter = s.toInter + 1) ∧
    ((∀ k, s.sub ≠ .gone k) → s.inter = .run .read → s.toInter = 0 → bstep cap s (.prog false) = none) ∧
    ((∀ k, s.sub ≠ .gone k) → s.inter = .run .write → ∀ t, bstep cap s (.prog false) = some t → t.toSub = s.toSub + 1) := by
  have hi := binv_run l binv_init h
  have hu := unlaunched l binv_init (fun _ => ⟨rfl, rfl⟩) h
  have h1 := hi.sub_no
  have h4 := hi.inter_no
  have key : (∀ k, s.inter ≠ .gone k) → s.inter = .no ∨ s.inter.running = true := by
    intro hk; cases hp : s.inter with
    | no => simp
    | run w => simp [Prog.running]
    | gone k => exact absurd hp (hk k)
  have key' : s.inter ≠ .no → (∀ k, s.sub ≠ .gone k) → s.sub.running = true := by
    intro hn hk; cases hp : s.sub with
    | no => grind
    | run w => simp [Prog.running]
    | gone k => exact absurd hp (hk k)
  refine ⟨?_, ?_, ?_, ?_⟩ <;> intro hk hr <;> simp only [bstep, subStep, interStep, hr]
  · have := key hk; grind
  · have := key hk; grind
  · have := key' (by rw [hr]; simp) hk; grind
  · have := key' (by rw [hr]; simp) hk; grind

/-- A submission that reads before the interactor is started, and an interactor that reads from a submission that computes. -/
example : ((brun 2 {} [.judge, .choose true .read]).map fun s => (s.inter, s.sub, s.toSub)) = some (.no, .run .read, 0) ∧
    ((brun 2 {} [.judge, .judge, .judge, .judge, .choose false .read]).map fun s => (s.sub, s.inter, s.toInter)) =
      some (.run .compute, .run .read, 0) := by decide

/-- C68.  Once the judge waits, it holds no end of the two pipes between submission and interactor. -/
theorem C68_no_ends (cap : Nat) (l : List BAct) (s : Br) (h : brun cap {} l = some s)
    (hw : s.pc = .waitSub ∨ s.pc = .waitInter ∨ s.pc = .readSub ∨ s.pc = .readInter ∨ s.pc = .done) :
    s.subOut = false ∧ s.interIn = false ∧ s.subIn = false ∧ s.interOut = false := by
  obtain ⟨h1, h2, h3, h4, h5, h6, h7, h8⟩ := binv_run l binv_init h
  cases h2' : s.subIn <;> cases h3' : s.subOut <;> cases h5' : s.interIn <;> cases h6' : s.interOut <;> grind

/-- C68.  So when the interactor is gone the submission is not kept waiting by a read or write of the conversation: it gets the
rest and then end of file, or an error. -/
theorem C68_interactor_gone (cap : Nat) (l : List BAct) (s : Br) (h : brun cap {} l = some s)
    (hw : s.pc = .waitSub) (hg : s.inter.running = false) (hr : s.sub = .run .read ∨ s.sub = .run .write) :
    (bstep cap s (.prog true)).isSome = true := by
  obtain ⟨-, h2, -, h4⟩ := C68_no_ends cap l s h (.inl hw)
  simp only [bstep, subStep]
  rcases hr with hr | hr <;> rw [hr] <;> grind

/-- C68.  And the other way round. -/
theorem C68_submission_gone (cap : Nat) (l : List BAct) (s : Br) (h : brun cap {} l = some s)
    (hw : s.pc = .waitSub ∨ s.pc = .waitInter) (hg : s.sub.running = false)
    (hr : s.inter = .run .read ∨ s.inter = .run .write) : (bstep cap s (.prog false)).isSome = true := by
  obtain ⟨h1, -, h3, -⟩ := C68_no_ends cap l s h (by rcases hw with hw | hw <;> simp [hw])
  simp only [bstep, interStep]
  rcases hr with hr | hr <;> rw [hr] <;> grind

/-- C68.  When both are stuck while the judge waits, they wait for each other's conversation, or one of them has filled its
standard error, which the judge does not read before it is gone. -/
theorem C68_stuck (cap : Nat) (hc : 0 < cap) (l : List BAct) (s : Br) (h : brun cap {} l = some s)
    (hw : s.pc = .waitSub) (w v : Want) (hs : s.sub = .run w) (hi : s.inter = .run v) (hw' : w ≠ .compute) (hv : v ≠ .compute)
    (hb : bstep cap s (.prog true) = none) (hb' : bstep cap s (.prog false) = none) :
    (w = .err ∧ cap ≤ s.subErr) ∨ (v = .err ∧ cap ≤ s.interErr) ∨
    (w = .read ∧ v = .read ∧ s.toSub = 0 ∧ s.toInter = 0) ∨
    (w = .write ∧ v = .write ∧ cap ≤ s.toInter ∧ cap ≤ s.toSub) := by
  simp only [bstep, subStep, interStep, hs, hi, Prog.running] at hb hb'
  cases w <;> cases v <;> grind

/-- C68.  A submission that has filled its standard error is stuck there, whatever the interactor does, until the time limit
kills it. -/
theorem C68_stderr_fails (cap : Nat) (s : Br) (hp : s.pc = .waitSub) (hs : s.sub = .run .err) (he : cap ≤ s.subErr)
    (m : List BAct) (t : Br) (hm : brun cap s m = some t) (hd : t.pc = .done) : t.sub = .gone true := by
  have key : ∀ (m : List BAct) (s t : Br), brun cap s m = some t →
      (s.sub = .run .err ∧ cap ≤ s.subErr ∧ s.pc = .waitSub) ∨ s.sub = .gone true ∧ s.pc ≠ .launchSub →
      (t.sub = .run .err ∧ cap ≤ t.subErr ∧ t.pc = .waitSub) ∨ t.sub = .gone true ∧ t.pc ≠ .launchSub := by
    intro m
    induction m with
    | nil => intro s t hr h; cases hr; exact h
    | cons a m ih =>
      intro s t hr h
      simp only [brun] at hr
      cases hu : bstep cap s a with
      | none => rw [hu] at hr; exact nomatch hr
      | some u =>
        rw [hu] at hr
        refine ih u t hr ?_
        cases a with
        | judge => simp only [bstep, jstep] at hu; cases hp : s.pc <;> grind
        | choose b w => cases b <;> simp only [bstep] at hu <;> grind
        | prog b => cases b <;> simp only [bstep, interStep, subStep] at hu <;> grind
        | exit b => cases b <;> simp only [bstep] at hu <;> grind
        | kill b => cases b <;> simp only [bstep, Prog.running] at hu <;> grind
  rcases key m s t hm (.inl ⟨hs, he, hp⟩) with h | h
  · rw [hd] at h; exact nomatch h.2.2
  · exact h.1

/-- C68.  An interactor that has filled its standard error is stuck there until its own time limit kills it, and the submission
is not judged at all. -/
theorem C68_interactor_stderr_fails (cap : Nat) (s : Br) (hp : s.pc = .waitSub ∨ s.pc = .waitInter)
    (hs : s.inter = .run .err) (he : cap ≤ s.interErr)
    (m : List BAct) (t : Br) (hm : brun cap s m = some t) (hd : t.pc = .done) : t.inter = .gone true := by
  have key : ∀ (m : List BAct) (s t : Br), brun cap s m = some t →
      (s.inter = .run .err ∧ cap ≤ s.interErr ∧ (s.pc = .waitSub ∨ s.pc = .waitInter)) ∨
        s.inter = .gone true ∧ s.pc ≠ .launchSub ∧ s.pc ≠ .closeSubIn ∧ s.pc ≠ .closeSubOut ∧ s.pc ≠ .launchInter →
      (t.inter = .run .err ∧ cap ≤ t.interErr ∧ (t.pc = .waitSub ∨ t.pc = .waitInter)) ∨
        t.inter = .gone true ∧ t.pc ≠ .launchSub ∧ t.pc ≠ .closeSubIn ∧ t.pc ≠ .closeSubOut ∧ t.pc ≠ .launchInter := by
    intro m
    induction m with
    | nil => intro s t hr h; cases hr; exact h
    | cons a m ih =>
      intro s t hr h
      simp only [brun] at hr
      cases hu : bstep cap s a with
      | none => rw [hu] at hr; exact nomatch hr
      | some u =>
        rw [hu] at hr
        refine ih u t hr ?_
        cases a with
        | judge => simp only [bstep, jstep] at hu; cases hp : s.pc <;> grind
        | choose b w => cases b <;> simp only [bstep] at hu <;> grind
        | prog b => cases b <;> simp only [bstep, interStep, subStep] at hu <;> grind
        | exit b => cases b <;> simp only [bstep] at hu <;> grind
        | kill b => cases b <;> simp only [bstep, Prog.running] at hu <;> grind
  rcases key m s t hm (.inl ⟨hs, he, hp⟩) with h | h
  · rw [hd] at h; exact absurd h.2.2 (by simp)
  · exact h.1

/-- C68.  When both programs are gone the judge finishes by itself: nothing is left to wait for. -/
theorem C68_finishes (cap : Nat) (l : List BAct) (s : Br) (h : brun cap {} l = some s) (hw : s.pc = .waitSub)
    (hs : s.sub.running = false) (hi : s.inter.running = false) :
    ∃ t, brun cap s (List.replicate (s.subErr + s.interErr + 4) .judge) = some t ∧ t.pc = .done := by
  have hinv := binv_run l binv_init h
  have hs' : ∃ b, s.sub = .gone b := by
    cases hsub : s.sub with
    | no => exact absurd (hinv.sub_no.2 hsub) (by simp [hw])
    | run w => simp [hsub, Prog.running] at hs
    | gone b => exact ⟨b, rfl⟩
  have hi' : ∃ b, s.inter = .gone b := by
    cases hint : s.inter with
    | no => exact absurd (hinv.inter_no.2 hint) (by simp [hw])
    | run w => simp [hint, Prog.running] at hi
    | gone b => exact ⟨b, rfl⟩
  have r2 : ∀ (n : Nat) (s : Br), s.pc = .readInter → s.interErr = n →
      ∃ t, brun cap s (List.replicate (n + 1) .judge) = some t ∧ t.pc = .done := by
    intro n
    induction n with
    | zero =>
      intro s hp he
      refine ⟨{ s with pc := .done }, ?_, rfl⟩
      simp [List.replicate, brun, bstep, jstep, hp, he]
    | succ n ih =>
      intro s hp he
      obtain ⟨t, ht, hd⟩ := ih { s with interErr := s.interErr - 1 } hp (by dsimp only; omega)
      refine ⟨t, ?_, hd⟩
      rw [List.replicate_succ, brun]
      simp only [bstep, jstep, hp]
      rw [if_pos (by omega), ← hp]
      exact ht
  have r1 : ∀ (n : Nat) (s : Br), s.pc = .readSub → s.subErr = n →
      ∃ t, brun cap s (List.replicate (n + s.interErr + 2) .judge) = some t ∧ t.pc = .done := by
    intro n
    induction n with
    | zero =>
      intro s hp he
      obtain ⟨t, ht, hd⟩ := r2 s.interErr { s with pc := .readInter } rfl rfl
      refine ⟨t, ?_, hd⟩
      rw [show 0 + s.interErr + 2 = (s.interErr + 1) + 1 from by omega, List.replicate_succ, brun]
      simp only [bstep, jstep, hp]
      rw [if_neg (by omega)]
      exact ht
    | succ n ih =>
      intro s hp he
      obtain ⟨t, ht, hd⟩ := ih { s with subErr := s.subErr - 1 } hp (by dsimp only; omega)
      refine ⟨t, ?_, hd⟩
      rw [show n + 1 + s.interErr + 2 = (n + s.interErr + 2) + 1 from by omega, List.replicate_succ, brun]
      simp only [bstep, jstep, hp]
      rw [if_pos (by omega), ← hp]
      exact ht
  obtain ⟨b, hb⟩ := hs'
  obtain ⟨c, hc⟩ := hi'
  obtain ⟨t, ht, hd⟩ := r1 s.subErr { s with pc := .readSub } rfl rfl
  refine ⟨t, ?_, hd⟩
  rw [show s.subErr + s.interErr + 4 = (s.subErr + s.interErr + 2) + 1 + 1 from by omega, List.replicate_succ, brun]
  simp only [bstep, jstep, hw, hb, Option.bind_some]
  rw [List.replicate_succ, brun]
  simp only [bstep, jstep, hc, Option.bind_some]
  simpa [hb, hc] using ht

/-! A session: one question, one answer, and the interactor leaves first. -/

namespace SessEx

def opening : List BAct := [.judge, .choose true .read, .judge, .judge, .judge, .judge, .judge]

example : (brun 2 {} opening).map (·.pc) = some .waitSub := by decide
example : (brun 2 {} (opening ++ [.choose false .write, .prog false, .prog true, .choose true .write, .prog true,
    .choose false .read, .prog false, .exit false, .choose true .read, .prog true, .exit true, .judge, .judge, .judge, .judge])).map
    (fun s => (s.pc, s.sub, s.inter)) = some (.done, .gone false, .gone false) := by decide
example : (brun 1 {} (opening ++ [.choose false .read, .kill true])).map (fun s => (s.sub, s.inter)) =
    some (.gone true, .run .read) := by decide
example : (brun 1 {} ([.judge, .choose true .err, .prog true, .choose true .err] ++ List.replicate 5 .judge)).map
    (fun s => (s.pc, s.sub, s.subErr)) = some (.waitSub, .run .err, 1) := by decide
example : (brun 1 {} (opening ++ [.choose false .err, .prog false, .choose false .err])).map
    (fun s => (s.pc, s.inter, s.interErr)) = some (.waitSub, .run .err, 1) := by decide
example : (brun 1 {} (opening ++ [.choose false .read])).map
    (fun s => (s.sub, s.inter, bstep 1 s (.prog true), bstep 1 s (.prog false))) =
    some (.run .read, .run .read, none, none) := by decide

end SessEx

end Verif.Props
