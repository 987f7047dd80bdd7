import Verif.Model.Compile

/-!
# C66 Running a compiler
-/

namespace Verif.Compile

/-- Steps of the shocker thread in a history. -/
def shocks (as : List Act) : Nat := as.countP fun a => match a with | .shocker _ => true | _ => false

/-- Steps of the main thread in a history. -/
def mains (as : List Act) : Nat := as.countP fun a => match a with | .main _ => true | _ => false

/-- `killpg` always found the group. -/
def Found (as : List Act) : Prop := Act.shocker false ∉ as

/-- Everything that was written to the terminal. -/
def St.all (s : St) : List UInt8 := s.got ++ s.pending

/-- `get_compile_output` is done. -/
def Over (s : St) : Prop := s.main = .finished ∨ s.main = .tooLong

private theorem fold {P : St → Prop} (c : Cfg) (hs : ∀ s a, P s → P (step c s a)) (as : List Act) :
    ∀ s, P s → P (as.foldl (step c) s) := by
  induction as with
  | nil => exact fun s h => h
  | cons a as ih => exact fun s h => ih _ (hs s a h)

private structure Inv (c : Cfg) (s : St) : Prop where
  short : s.main ≠ .tooLong → s.got.length ≤ c.outLimit
  long : s.main = .tooLong → s.got.length > c.outLimit
  ended : s.main = .waiting ∨ s.main = .finished → s.pending = [] ∧ s.held = false
  ret : s.ret.isSome = true ↔ s.main = .finished
  code : s.ret.isSome = true → s.ret = s.comp
  time : s.shock = .mark ∨ s.shock = .kill ∨ s.timedOut = true → s.clock > c.limit
  mark : s.timedOut = true ↔ s.shock = .kill ∨ s.shock = .done ∧ s.timedOut = true
  off : s.shock = .off ↔ c.limit = 0
  killed : s.killed = true → s.timedOut = true ∧ s.comp = some (-9)
  stray : s.stray = true → s.timedOut = true
  done : s.shock = .done → s.timedOut = true ∨ s.main = .finished

private theorem inv_init (c : Cfg) : Inv c (init c) := by
  by_cases h : c.limit = 0 <;> constructor <;> simp [init, h]

private theorem inv_step (c : Cfg) (s : St) (a : Act) (h : Inv c s) : Inv c (step c s a) := by
  obtain ⟨h1, h2, h3, h4, h5, h6, h7, h8, h9, h10, h11⟩ := h
  cases a with
  | tick d => simp only [step]; constructor <;> grind [St.held]
  | write d => simp only [step]; constructor <;> grind [St.held]
  | exit e => simp only [step]; constructor <;> grind [St.held]
  | fork => simp only [step]; constructor <;> grind [St.held]
  | join => simp only [step]; constructor <;> grind [St.held]
  | escape => simp only [step]; constructor <;> grind [St.held]
  | vanish => simp only [step]; constructor <;> grind [St.held]
  | main n => simp only [step, mainStep]; cases hm : s.main <;> dsimp only <;> constructor <;> grind [St.held]
  | shocker f =>
    simp only [step, shockerStep]
    cases hs : s.shock <;> dsimp only
    case kill =>
      unfold kill
      cases hr : s.ret <;> cases hc : s.comp <;> cases f <;> constructor <;> grind [St.held]
    case loop => cases hr : s.ret <;> constructor <;> grind [St.held]
    all_goals constructor <;> grind [St.held]

private theorem inv (c : Cfg) (as : List Act) : Inv c (run c as) := fold c (inv_step c) as _ (inv_init c)

private theorem report_ok (c : Cfg) (s : St) (m : Msg) : report c s = some (.ok m) ↔
    s.ret = some 0 ∧ (s.main = .finished ∧ m = .output s.got ∨ s.main = .tooLong ∧ m = .tooLong) := by
  unfold report
  cases hm : s.main <;> by_cases hr : s.ret = some 0 <;> simp [hr] <;> exact eq_comm

private theorem report_error (c : Cfg) (s : St) (m : Msg) : report c s = some (.error m) ↔
    s.ret ≠ some 0 ∧ (s.main = .finished ∨ s.main = .tooLong) ∧
      m = (if s.timedOut then .timedOut c.limit else if s.main = .finished then .output s.got else .tooLong) := by
  unfold report
  cases hm : s.main <;> by_cases hr : s.ret = some 0 <;> simp [hr] <;> exact eq_comm

/-- A compilation succeeds only if the compiler was not killed by the watchdog and ended with code 0, all of its output was
read, nobody can write more and it is within the limit; the warning reported is exactly that output. -/
theorem C66_success (c : Cfg) (as : List Act) (m : Msg) (h : report c (run c as) = some (.ok m)) :
    (run c as).comp = some 0 ∧ (run c as).killed = false ∧ m = .output (run c as).all ∧ (run c as).all.length ≤ c.outLimit ∧
    (run c as).held = false := by
  have hi := inv c as
  obtain ⟨h1, h2, h3, h4, h5, h6, h7, h8, h9, h10, h11⟩ := hi
  rw [report_ok] at h
  grind [St.all]

/-- And it does succeed whenever the output was read to its end within the limit and the compiler ended with code 0. -/
theorem C66_success_iff (c : Cfg) (as : List Act) :
    (∃ m, report c (run c as) = some (.ok m)) ↔ (run c as).main = .finished ∧ (run c as).comp = some 0 := by
  have hi := inv c as
  obtain ⟨h1, h2, h3, h4, h5, h6, h7, h8, h9, h10, h11⟩ := hi
  simp only [report_ok]
  grind

/-- A compile error is reported as a time-out only if the time limit was exceeded, as too much output only if there was more
than the limit, and otherwise with all of the output of a compiler that ended by itself with a code other than 0. -/
theorem C66_error (c : Cfg) (as : List Act) (m : Msg) (h : report c (run c as) = some (.error m)) :
    m = .timedOut c.limit ∧ (run c as).clock > c.limit ∧ c.limit ≠ 0 ∨
    m = .tooLong ∧ (run c as).all.length > c.outLimit ∨
    m = .output (run c as).all ∧ (run c as).all.length ≤ c.outLimit ∧ (run c as).killed = false ∧
      ∃ code, code ≠ 0 ∧ (run c as).comp = some code := by
  have hi := inv c as
  obtain ⟨h1, h2, h3, h4, h5, h6, h7, h8, h9, h10, h11⟩ := hi
  rw [report_error] at h
  generalize run c as = s at *
  obtain ⟨e1, e2, e3⟩ := h
  cases ht : s.timedOut with
  | true => exact .inl (by grind)
  | false =>
    rcases e2 with e2 | e2
    · have hs := h4.mpr e2
      cases hc : s.comp with
      | none => grind
      | some v => exact .inr (.inr (by grind [St.all]))
    · exact .inr (.inl (by grind [St.all]))

/-- What is written to the terminal, if someone has it open. -/
def wrote (s : St) : Act → List UInt8
  | .write d => if s.held then d else []
  | _ => []

/-- What was written to the terminal in a history from a state on. -/
def written (c : Cfg) : St → List Act → List UInt8
  | _, [] => []
  | s, a :: as => wrote s a ++ written c (step c s a) as

/-- `all` in the theorems above is what was written, in that order: nothing is lost, doubled or made up. -/
theorem C66_all (c : Cfg) (as : List Act) : (run c as).all = written c (init c) as := by
  have key : ∀ (as : List Act) (s : St), (as.foldl (step c) s).all = s.all ++ written c s as := by
    intro as
    induction as with
    | nil => intro s; simp [written]
    | cons a as ih =>
      intro s
      rw [List.foldl_cons, ih, written]
      have : (step c s a).all = s.all ++ wrote s a := by
        cases a with
        | write d => simp only [step, wrote]; split <;> simp [St.all]
        | exit e => simp only [step]; split <;> simp [St.all, wrote]
        | fork => simp only [step]; split <;> simp [St.all, wrote]
        | escape => simp only [step]; split <;> simp [St.all, wrote]
        | main n =>
          simp only [step, mainStep, wrote, List.append_nil]
          cases s.main <;> dsimp only
          · split
            · simp [St.all]
            · split <;> rfl
          · split <;> rfl
        | shocker f =>
          simp only [step, shockerStep, wrote, List.append_nil]
          cases s.shock <;> dsimp only
          · split <;> rfl
          · split <;> rfl
          · rfl
          · unfold kill; split
            · rfl
            · split <;> rfl
        | _ => simp [step, St.all, wrote]
      rw [this, List.append_assoc]
  have := key as (init c)
  simpa [run, init, St.all] using this

/-- Output in pieces, read in pieces. -/
example : (run ⟨10, 100⟩ [.write [1, 2, 3], .main 1, .write [4], .exit 0, .write [5], .main 9, .main 0, .main 0]).all = [1, 2, 3, 4] ∧
    report ⟨10, 100⟩ (run ⟨10, 100⟩ [.write [1, 2, 3], .main 1, .write [4], .exit 0, .write [5], .main 9, .main 0, .main 0]) =
      some (.ok (.output [1, 2, 3, 4])) := ⟨by decide, rfl⟩

/-- The compiler is killed only after its time, and then the compilation fails. -/
theorem C66_no_false (c : Cfg) (as : List Act) :
    ((run c as).timedOut = true → c.limit ≠ 0 ∧ (run c as).clock > c.limit) ∧
    ((run c as).killed = true → (run c as).timedOut = true ∧
      ∀ r, report c (run c as) = some r → r = .error (.timedOut c.limit)) := by
  have hi := inv c as
  obtain ⟨h1, h2, h3, h4, h5, h6, h7, h8, h9, h10, h11⟩ := hi
  refine ⟨fun h => ⟨by grind, h6 (.inr (.inr h))⟩, fun h => ⟨(h9 h).1, fun r hr => ?_⟩⟩
  cases r with
  | ok m => rw [report_ok] at hr; grind
  | error m => rw [report_error] at hr; grind

/-! ## The time limit -/

/-- How many of its steps the shocker thread is away from having killed a compiler over its time. -/
private def away : SPc → Nat
  | .loop => 4
  | .check => 3
  | .mark => 2
  | .kill => 1
  | _ => 0

/-- The compiler's group is gone. -/
def Gone (s : St) : Prop := s.comp ≠ none ∧ s.helpers = false

private theorem gone_step (c : Cfg) (s : St) (a : Act) (h : Gone s) : Gone (step c s a) := by
  unfold Gone at *
  cases a with
  | main n => simp only [step, mainStep]; grind
  | shocker f => simp only [step, shockerStep]; grind [kill]
  | _ => simp only [step]; grind

private theorem closing (c : Cfg) : ∀ (bs : List Act) (s : St), Found bs → Inv c s → s.clock > c.limit →
    s.shock ≠ .off → s.shock ≠ .done → away s.shock ≤ shocks bs → Gone (bs.foldl (step c) s) ∨ (bs.foldl (step c) s).main = .finished := by
  have stay : ∀ (bs : List Act) (s : St), Gone s ∨ s.main = .finished → Gone (bs.foldl (step c) s) ∨ (bs.foldl (step c) s).main = .finished := by
    intro bs
    refine fold (P := fun s => Gone s ∨ s.main = .finished) c ?_ bs
    intro s a h
    rcases h with h | h
    · exact .inl (gone_step c s a h)
    · refine .inr ?_
      cases a with
      | main n => simp [step, mainStep, h]
      | shocker f => simp only [step, shockerStep]; grind [kill]
      | _ => simp only [step]; grind
  intro bs
  induction bs with
  | nil =>
    intro s _ _ _ h1 h2 h
    cases hs : s.shock <;> simp_all [away, shocks]
  | cons a as ih =>
    intro s hf hi hc h1 h2 h
    have hf' : Found as := fun h => hf (List.mem_cons_of_mem _ h)
    have hx : a ≠ .shocker false := fun h => hf (h ▸ List.mem_cons_self)
    have hi' := inv_step c s a hi
    rw [List.foldl_cons]
    by_cases hm : s.main = .finished
    · exact stay (a :: as) s (.inr hm)
    have hret : s.ret = none := by
      have := hi.ret
      cases hr : s.ret with
      | none => rfl
      | some v => exact absurd (this.mp (by simp [hr])) hm
    by_cases hsh : ∃ f, a = .shocker f
    · obtain ⟨f, rfl⟩ := hsh
      have : f = true := by cases f <;> simp_all
      subst this
      have h' : away s.shock ≤ shocks as + 1 := by simpa [shocks] using h
      cases hs : s.shock with
      | off => exact absurd hs h1
      | done => exact absurd hs h2
      | loop =>
        rw [hs] at h'
        have e : step c s (.shocker true) = { s with shock := .check } := by simp [step, shockerStep, hs, hret]
        rw [e] at hi' ⊢
        refine ih _ hf' hi' hc (by simp) (by simp) ?_
        show 3 ≤ shocks as
        have : 4 ≤ shocks as + 1 := h'
        omega
      | check =>
        rw [hs] at h'
        have e : step c s (.shocker true) = { s with shock := .mark } := by simp [step, shockerStep, hs, hc]
        rw [e] at hi' ⊢
        refine ih _ hf' hi' hc (by simp) (by simp) ?_
        show 2 ≤ shocks as
        have : 3 ≤ shocks as + 1 := h'
        omega
      | mark =>
        rw [hs] at h'
        have e : step c s (.shocker true) = { s with timedOut := true, shock := .kill } := by simp [step, shockerStep, hs]
        rw [e] at hi' ⊢
        refine ih _ hf' hi' hc (by simp) (by simp) ?_
        show 1 ≤ shocks as
        have : 2 ≤ shocks as + 1 := h'
        omega
      | kill =>
        refine stay as _ (.inl ?_)
        simp [step, shockerStep, hs, kill, hret, Gone]
    · have h' : away s.shock ≤ shocks as := by
        cases a <;> first | (exact absurd ⟨_, rfl⟩ hsh) | (simpa [shocks] using h)
      have k : (step c s a).shock = s.shock ∧ s.clock ≤ (step c s a).clock := by
        cases a with
        | main n => simp only [step, mainStep]; grind
        | shocker f => exact absurd ⟨_, rfl⟩ hsh
        | _ => simp only [step]; grind
      exact ih _ hf' hi' (by omega) (k.1 ▸ h1) (k.1 ▸ h2) (k.1 ▸ h')

/-- Once the time is over, four steps of the shocker thread later either the compilation is over or the whole group of the
compiler is gone, whatever else happens, if `killpg` found it. This also holds after too much output, when nobody waits for
the compiler any more. -/
theorem C66_enforced (c : Cfg) (as bs : List Act) (hc : c.limit ≠ 0) (hf : Found (as ++ bs)) (ht : (run c as).clock > c.limit)
    (hb : 4 ≤ shocks bs) : Gone (run c (as ++ bs)) ∨ (run c (as ++ bs)).main = .finished := by
  have hi := inv c as
  have hfa : Found as := fun h => hf (List.mem_append_left _ h)
  have hfb : Found bs := fun h => hf (List.mem_append_right _ h)
  have e : run c (as ++ bs) = bs.foldl (step c) (run c as) := List.foldl_append
  have hoff : (run c as).shock ≠ .off := fun h => hc (hi.off.mp h)
  have key : (run c as).shock = .done → Gone (run c as) ∨ (run c as).main = .finished := by
    have : ∀ (as : List Act) (s : St), Found as → Inv c s → (s.shock = .done → Gone s ∨ s.main = .finished) →
        ((as.foldl (step c) s).shock = .done → Gone (as.foldl (step c) s) ∨ (as.foldl (step c) s).main = .finished) := by
      intro as
      induction as with
      | nil => exact fun s _ _ h => h
      | cons a as ih =>
        intro s hf hi hs
        refine ih _ (fun h => hf (List.mem_cons_of_mem _ h)) (inv_step c s a hi) ?_
        have hx : a ≠ .shocker false := fun h => hf (h ▸ List.mem_cons_self)
        have hret := hi.ret
        clear ih hf
        by_cases hg : Gone s
        · exact fun _ => .inl (gone_step c s a hg)
        · cases a with
          | main n => simp only [step, mainStep]; grind
          | shocker f =>
            have : f = true := by cases f <;> simp_all
            subst this
            simp only [step, shockerStep]
            cases hsh : s.shock <;> dsimp only
            case kill =>
              intro _
              cases hr : s.ret with
              | none => exact .inl (by simp [kill, hr, Gone])
              | some v => exact .inr (by simp only [kill, hr]; exact hret.mp (by simp [hr]))
            case loop =>
              cases hr : s.ret with
              | none => simp
              | some v => exact fun _ => .inr (by simpa using hret.mp (by simp [hr]))
            all_goals grind
          | _ => simp only [step]; grind
    exact this as _ hfa (inv_init c) (by simp only [init]; grind)
  rw [e]
  by_cases hd : (run c as).shock = .done
  · refine fold (P := fun s => Gone s ∨ s.main = .finished) c ?_ bs _ (key hd)
    intro s a h
    rcases h with h | h
    · exact .inl (gone_step c s a h)
    · refine .inr ?_
      cases a with
      | main n => simp [step, mainStep, h]
      | shocker f => simp only [step, shockerStep]; grind [kill]
      | _ => simp only [step]; grind
  · refine closing c bs _ hfb hi ht hoff hd (Nat.le_trans ?_ hb)
    generalize (run c as).shock = m
    cases m <;> simp [away]

/-- How many of its steps the main thread is away from its end. -/
private def need (s : St) : Nat :=
  match s.main with
  | .reading => s.pending.length + 2
  | .waiting => 1
  | _ => 0

private theorem strangers_step (c : Cfg) (s : St) (a : Act) (hg : Gone s) (h : s.strangers = false) : (step c s a).strangers = false := by
  unfold Gone at hg
  cases a with
  | main n => simp only [step, mainStep]; grind
  | shocker f => simp only [step, shockerStep]; grind [kill]
  | _ => simp only [step] <;> grind

private theorem need_main (c : Cfg) (s : St) (n k : Nat) (hg : Gone s) (hh : s.held = false) (h : need s ≤ k + 1) :
    need (step c s (.main n)) ≤ k := by
  cases hm : s.main with
  | reading =>
    have h' : s.pending.length + 2 ≤ k + 1 := by simpa [need, hm] using h
    simp only [step, mainStep, hm]
    by_cases hp : s.pending = []
    · simp only [hp, ne_eq, not_true_eq_false, if_false, hh]
      show 1 ≤ k
      omega
    · rw [if_pos hp]
      have : 0 < s.pending.length := List.length_pos_iff.mpr hp
      by_cases hl : (s.got ++ s.pending.take (min (n + 1) 4096)).length > c.outLimit
      · simp only [if_pos hl]
        exact Nat.zero_le _
      · simp only [if_neg hl, need, List.length_drop]
        omega
  | waiting =>
    cases hco : s.comp with
    | none => exact absurd hco hg.1
    | some v => simp [step, mainStep, hm, hco, need]
  | finished => simp [step, mainStep, hm, need]
  | tooLong => simp [step, mainStep, hm, need]

private theorem need_other (c : Cfg) (s : St) (a : Act) (hh : s.held = false) (ha : ∀ n, a ≠ .main n) : need (step c s a) = need s := by
  have k : (step c s a).main = s.main ∧ (step c s a).pending = s.pending := by
    cases a with
    | main n => exact absurd rfl (ha n)
    | shocker f => simp only [step, shockerStep]; grind [kill]
    | _ => simp only [step]; grind
  unfold need
  rw [k.1, k.2]

private theorem draining (c : Cfg) : ∀ (bs : List Act) (s : St), Gone s → s.strangers = false → need s ≤ mains bs →
    (bs.foldl (step c) s).main = .finished ∨ (bs.foldl (step c) s).main = .tooLong := by
  intro bs
  induction bs with
  | nil =>
    intro s _ _ h
    unfold need at h
    cases hm : s.main <;> simp_all [mains]
  | cons a as ih =>
    intro s hg hs h
    have hheld : s.held = false := by
      obtain ⟨h1, h2⟩ := hg
      cases hc : s.comp with
      | none => exact absurd hc h1
      | some v => simp [St.held, hs, h2, hc]
    rw [List.foldl_cons]
    refine ih _ (gone_step c s a hg) (strangers_step c s a hg hs) ?_
    by_cases hma : ∃ n, a = .main n
    · obtain ⟨n, rfl⟩ := hma
      exact need_main c s n _ hg hheld (by simpa [mains] using h)
    · rw [need_other c s a hheld fun n e => hma ⟨n, e⟩]
      cases a <;> first | (exact absurd ⟨_, rfl⟩ hma) | (simpa [mains] using h)

/-- When nobody has the terminal open any more the compilation ends: after as many steps of the main thread as there are bytes
left, and two more. -/
theorem C66_ends (c : Cfg) (as bs : List Act) (hg : Gone (run c as)) (hs : (run c as).strangers = false)
    (hb : (run c as).pending.length + 2 ≤ mains bs) : (report c (run c (as ++ bs))).isSome = true := by
  have e : run c (as ++ bs) = bs.foldl (step c) (run c as) := List.foldl_append
  have := draining c bs _ hg hs (Nat.le_trans (by unfold need; cases (run c as).main <;> simp <;> omega) hb)
  rw [e]
  unfold report
  rcases this with h | h <;> simp [h]

/-! ## Cases -/

/-- A compiler that prints a warning and succeeds. -/
example : report ⟨10, 5⟩ (run ⟨10, 5⟩ [.shocker true, .write [87], .main 9, .tick 3, .exit 0, .main 0, .main 0]) =
    some (.ok (.output [87])) := rfl

/-- One that fails. -/
example : report ⟨10, 5⟩ (run ⟨10, 5⟩ [.write [69, 33], .exit 1, .main 0, .main 0, .main 0, .main 0]) =
    some (.error (.output [69, 33])) := rfl

/-- One that hangs: the time is over, four steps of the shocker thread, two of the main thread. -/
def hanging : List Act := [.fork, .tick 11, .shocker true, .shocker true, .shocker true, .shocker true, .main 0, .main 0]

example : (run ⟨10, 5⟩ [.fork, .tick 11]).clock > 10 ∧ 4 ≤ shocks (hanging.drop 2) ∧ Found hanging ∧
    (run ⟨10, 5⟩ hanging).killed = true ∧ report ⟨10, 5⟩ (run ⟨10, 5⟩ hanging) = some (.error (.timedOut 10)) :=
  ⟨by decide, by decide, by unfold Found; decide, by decide, rfl⟩

/-- The hypotheses of `C66_ends`. -/
example : Gone (run ⟨10, 5⟩ [.write [69], .exit 1]) ∧ (run ⟨10, 5⟩ [.write [69], .exit 1]).strangers = false ∧
    (run ⟨10, 5⟩ [.write [69], .exit 1]).pending.length + 2 ≤ mains [.main 0, .main 0, .main 0] := by
  unfold Gone; decide

/-- After too much output the compilation is over and the executor's directory is removed, but nobody stops the compiler: it
runs on, possibly until its time is over. -/
theorem C66_runaway_fails : ∃ (c : Cfg) (as : List Act), Found as ∧ report c (run c as) = some (.error .tooLong) ∧
    (run c as).comp = none ∧ (run c as).clock = 0 ∧ c.limit > 0 :=
  ⟨⟨10, 5⟩, [.write [1, 2, 3, 4, 5, 6], .main 9], by unfold Found; decide, rfl, rfl, rfl, by decide⟩

/-- Too much output is a compile error even if the compiler succeeds: its code is never looked at. -/
theorem C66_verbose_fails : ∃ (c : Cfg) (as : List Act), (run c as).comp = some 0 ∧ (run c as).held = false ∧
    report c (run c as) = some (.error .tooLong) :=
  ⟨⟨10, 5⟩, [.write [1, 2, 3, 4, 5, 6], .exit 0, .main 9], rfl, rfl, rfl⟩

/-- A process that left the compiler's group and keeps the terminal open is not reached: whatever the judge's threads do and
however long it takes, the compilation does not end. -/
theorem C66_terminal_fails : ∃ (c : Cfg) (as : List Act), Found as ∧ c.limit ≠ 0 ∧
    ∀ bs : List Act, (∀ a ∈ bs, ∃ n f, a = .main n ∨ a = .shocker f ∨ a = .tick n) → report c (run c (as ++ bs)) = none := by
  refine ⟨⟨10, 5⟩, [.fork, .escape, .exit 0, .join], by unfold Found; decide, by decide, fun bs hb => ?_⟩
  have key : ∀ (bs : List Act) (s : St), (∀ a ∈ bs, ∃ n f, a = .main n ∨ a = .shocker f ∨ a = .tick n) → s.main = .reading →
      s.pending = [] → s.strangers = true → (bs.foldl (step ⟨10, 5⟩) s).main = .reading := by
    intro bs
    induction bs with
    | nil => exact fun s _ h _ _ => h
    | cons a as ih =>
      intro s hb h1 h2 h3
      have : (step ⟨10, 5⟩ s a).main = .reading ∧ (step ⟨10, 5⟩ s a).pending = [] ∧ (step ⟨10, 5⟩ s a).strangers = true := by
        obtain ⟨n, f, rfl | rfl | rfl⟩ := hb a List.mem_cons_self
        · simp [step, mainStep, h1, h2, St.held, h3]
        · simp only [step, shockerStep]; grind [kill]
        · simp [step, h1, h2, h3]
      exact ih _ (fun a ha => hb a (List.mem_cons_of_mem _ ha)) this.1 this.2.1 this.2.2
  have h := key bs (run ⟨10, 5⟩ [.fork, .escape, .exit 0, .join]) hb (by decide) (by decide) (by decide)
  unfold run
  rw [List.foldl_append]
  unfold report
  unfold run at h
  rw [h]
  rfl

/-- Between the test of `returncode` and `killpg` the compiler can be reaped: the signal goes to a process id that may be
someone else's. -/
theorem C66_stray_fails : ∃ (c : Cfg) (as : List Act), Found as ∧ (run c as).stray = true ∧ (run c as).killed = false :=
  ⟨⟨10, 5⟩, [.tick 11, .shocker true, .shocker true, .exit 0, .main 0, .main 0, .shocker true, .shocker true],
    by unfold Found; decide⟩

end Verif.Compile
