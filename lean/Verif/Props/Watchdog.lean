import Verif.Model.Watchdog

/-!
# C65 The time limit is enforced
-/

namespace Verif.Watchdog

/-- A limit is exceeded, as far as it has been measured. -/
def Over (c : Cfg) (s : St) : Prop := s.exec > c.time ∨ s.wall > c.wallTime

/-- The program is running under the eyes of the monitor. -/
def Running (s : St) : Prop := s.mon = .waiting ∧ s.dead = none

/-- Steps of the shocker thread in a history. -/
def shocks (as : List Act) : Nat := as.countP fun a => match a with | .shocker _ => true | _ => false

/-- Steps of the monitor thread in a history. -/
def turns (as : List Act) : Nat := as.countP fun a => match a with | .monitor => true | _ => false

/-- `killpg` always found the group. -/
def Found (as : List Act) : Prop := Act.shocker false ∉ as

/-! ## Invariants -/

private theorem fold {P : St → Prop} (c : Cfg) (hs : ∀ s a, P s → P (step c s a)) (as : List Act) :
    ∀ s, P s → P (as.foldl (step c) s) := by
  induction as with
  | nil => exact fun s h => h
  | cons a as ih => exact fun s h => ih _ (hs s a h)

private structure Inv (c : Cfg) (s : St) : Prop where
  le : s.exec ≤ s.ran
  start : s.mon = .starting → s.spawned = false ∧ s.ran = 0 ∧ s.exec = 0 ∧ s.wall = 0 ∧ s.dead = none ∧ s.ret = none
  fresh : s.spawned = false → s.mon = .starting
  wait : s.mon = .waiting → s.ret = none
  reap : (∃ code, s.mon = .reaped code) ∨ s.mon = .published ∨ s.mon = .checked → s.exec = s.ran ∧ s.dead ≠ none
  got : s.mon = .published ∨ s.mon = .checked → s.ret ≠ none
  fail : s.mon = .done → s.ret = none → s.ran = 0 ∧ s.exec = 0 ∧ s.wall = 0 ∧ (s.shock = .off ∨ s.shock = .waiting ∨ s.shock = .loop ∨ s.shock = .done)
  died : s.died = true ↔ s.mon = .done
  late : s.mon = .checked ∨ s.mon = .done → c.time ≠ 0 → s.ran > c.time → s.tle = true
  early : s.mon = .starting → s.shock = .off ∨ s.shock = .waiting
  over : s.shock = .kill ∨ s.shock = .flag → Over c s
  off : s.shock = .off ↔ c.time = 0
  killed : s.killed = true → Over c s ∧ (s.shock = .flag ∨ s.shock = .done ∧ s.tle = true) ∧ s.dead = some (-9)
  stray : s.stray = true → Over c s ∧ (s.shock = .flag ∨ s.shock = .done)

private theorem inv_init (c : Cfg) : Inv c (init c) := by
  by_cases h : c.time = 0 <;> constructor <;> simp [init, h]

private theorem inv_spawn (c : Cfg) (s : St) (ok : Bool) (h : Inv c s) : Inv c (step c s (.spawn ok)) := by
  obtain ⟨h1, h2, h3, h4, h5, h6, h7, h8, h9, h10, h11, h12, h13, h14⟩ := h
  simp only [step]
  constructor <;> grind [Over]

private theorem inv_time (c : Cfg) (s : St) (d w : Nat) (h : Inv c s) : Inv c (step c s (.time d w)) := by
  obtain ⟨h1, h2, h3, h4, h5, h6, h7, h8, h9, h10, h11, h12, h13, h14⟩ := h
  simp only [step]
  constructor <;> grind [Over]

private theorem inv_xcpu (c : Cfg) (s : St) (h : Inv c s) : Inv c (step c s .xcpu) := by
  obtain ⟨h1, h2, h3, h4, h5, h6, h7, h8, h9, h10, h11, h12, h13, h14⟩ := h
  simp only [step]
  constructor <;> grind [Over]

private theorem inv_exit (c : Cfg) (s : St) (e : Int) (h : Inv c s) : Inv c (step c s (.exit e)) := by
  obtain ⟨h1, h2, h3, h4, h5, h6, h7, h8, h9, h10, h11, h12, h13, h14⟩ := h
  simp only [step]
  constructor <;> grind [Over]

private theorem inv_stop (c : Cfg) (s : St) (h : Inv c s) : Inv c (step c s .stop) := by
  obtain ⟨h1, h2, h3, h4, h5, h6, h7, h8, h9, h10, h11, h12, h13, h14⟩ := h
  simp only [step]
  constructor <;> grind [Over]

private theorem inv_monitor (c : Cfg) (s : St) (h : Inv c s) : Inv c (step c s .monitor) := by
  obtain ⟨h1, h2, h3, h4, h5, h6, h7, h8, h9, h10, h11, h12, h13, h14⟩ := h
  simp only [step, monitorStep]
  constructor <;> grind [Over]

private theorem inv_shocker (c : Cfg) (s : St) (f : Bool) (h : Inv c s) : Inv c (step c s (.shocker f)) := by
  obtain ⟨h1, h2, h3, h4, h5, h6, h7, h8, h9, h10, h11, h12, h13, h14⟩ := h
  simp only [step, shockerStep]
  cases hs : s.shock <;> dsimp only
  case kill =>
    simp only [kill]
    cases hm : s.mon <;> constructor <;> grind [Over, St.gone]
  all_goals constructor <;> grind [Over]

private theorem inv_step (c : Cfg) (s : St) (a : Act) (h : Inv c s) : Inv c (step c s a) := by
  cases a with
  | spawn ok => exact inv_spawn c s ok h
  | monitor => exact inv_monitor c s h
  | shocker f => exact inv_shocker c s f h
  | time d w => exact inv_time c s d w h
  | xcpu => exact inv_xcpu c s h
  | exit e => exact inv_exit c s e h
  | stop => exact inv_stop c s h

private theorem inv (c : Cfg) (as : List Act) : Inv c (run c as) := fold c (inv_step c) as _ (inv_init c)

/-! ## Theorems -/

/-- A program is said to have exceeded the time limit, and is killed by the watchdog, only if the kernel said so (SIGXCPU) or
there is a limit and the measured running time or the wall clock time is over it. -/
theorem C65_no_false (c : Cfg) (as : List Act) :
    ((run c as).tle = true → Act.xcpu ∈ as ∨ c.time ≠ 0 ∧ Over c (run c as)) ∧
    ((run c as).killed = true → c.time ≠ 0 ∧ Over c (run c as)) := by
  refine ⟨fun h => ?_, fun h => ?_⟩
  · have key : ∀ (as : List Act) (s : St), Act.xcpu ∉ as → Inv c s → (s.tle = true → c.time ≠ 0 ∧ Over c s) →
        (as.foldl (step c) s).tle = true → c.time ≠ 0 ∧ Over c (as.foldl (step c) s) := by
      intro as
      induction as with
      | nil => exact fun s _ _ h => h
      | cons a as ih =>
        intro s hx hi hs
        refine ih _ (fun h => hx (List.mem_cons_of_mem _ h)) (inv_step c s a hi) ?_
        have hi' := inv_step c s a hi
        obtain ⟨h1, h2, h3, h4, h5, h6, h7, h8, h9, h10, h11, h12, h13, h14⟩ := hi
        have hx : a ≠ .xcpu := fun h => hx (h ▸ List.mem_cons_self)
        clear hi' ih h
        cases a with
        | spawn ok => simp only [step]; grind [Over]
        | time d w => simp only [step]; grind [Over]
        | xcpu => exact absurd rfl hx
        | exit e => simp only [step]; grind [Over]
        | stop => simp only [step]; grind [Over]
        | monitor => simp only [step, monitorStep]; grind [Over]
        | shocker f =>
          simp only [step, shockerStep]
          cases hsh : s.shock <;> dsimp only <;> grind [Over, kill]
    by_cases hx : Act.xcpu ∈ as
    · exact .inl hx
    · exact .inr (key as _ hx (inv_init c) (by simp [init]) h)
  · have hi := inv c as
    refine ⟨fun h0 => ?_, (hi.killed h).1⟩
    have := hi.off.mpr h0
    have := (hi.killed h).2.1
    grind

/-- When the program is reported dead, time over the limit has been noticed, however it ended. -/
theorem C65_late (c : Cfg) (as : List Act) (hc : c.time ≠ 0) (hd : (run c as).died = true) (ht : (run c as).ran > c.time) :
    (run c as).tle = true :=
  (inv c as).late (.inr ((inv c as).died.mp hd)) hc ht

/-- Once the watchdog that killed the program has finished, the verdict says so. -/
theorem C65_flagged (c : Cfg) (as : List Act) (hk : (run c as).killed = true) (hf : (run c as).shock = .done) :
    (run c as).tle = true := by
  have := ((inv c as).killed hk).2.1
  grind

/-- The watchdog stays as long as the program runs, unless `killpg` failed it. -/
theorem C65_watched (c : Cfg) (as : List Act) (hc : c.time ≠ 0) (hf : Found as) (hr : Running (run c as)) :
    (run c as).shock ≠ .off ∧ (run c as).shock ≠ .flag ∧ (run c as).shock ≠ .done := by
  refine ⟨fun h => hc ((inv c as).off.mp h), ?_⟩
  have key : ∀ (as : List Act) (s : St), Found as → Inv c s → (Running s → s.shock ≠ .flag ∧ s.shock ≠ .done) →
      s.mon ≠ .starting ∨ s.shock = .waiting ∨ s.shock = .off →
      (Running (as.foldl (step c) s) → (as.foldl (step c) s).shock ≠ .flag ∧ (as.foldl (step c) s).shock ≠ .done) := by
    intro as
    induction as with
    | nil => exact fun s _ _ h _ => h
    | cons a as ih =>
      intro s hx hi hs hst
      have hi' := inv_step c s a hi
      refine ih _ (fun h => hx (List.mem_cons_of_mem _ h)) hi' ?_ (by have := hi'.early; grind)
      obtain ⟨h1, h2, h3, h4, h5, h6, h7, h8, h9, h10, h11, h12, h13, h14⟩ := hi
      have hx : a ≠ .shocker false := fun h => hx (h ▸ List.mem_cons_self)
      clear hi' ih
      unfold Running at *
      cases a with
      | spawn ok => simp only [step]; grind
      | time d w => simp only [step]; grind
      | xcpu => simp only [step]; grind
      | exit e => simp only [step]; grind
      | stop => simp only [step]; grind
      | monitor => simp only [step, monitorStep]; grind
      | shocker f =>
        have : f = true := by cases f <;> simp_all
        subst this
        simp only [step, shockerStep]
        cases hsh : s.shock <;> dsimp only <;> grind [kill, St.gone]
  exact key as _ hf (inv_init c) (by simp [init, Running]) (by simp only [init]; grind) hr

/-- How many of its steps the shocker thread is away from having killed a program that is over its limits. -/
private def away : SPc → Nat
  | .waiting => 4
  | .wake => 4
  | .loop => 3
  | .check => 2
  | .kill => 1
  | _ => 0

private theorem still (c : Cfg) : ∀ (bs : List Act) (s : St), s.mon ≠ .starting → ¬Running s → ¬Running (bs.foldl (step c) s) := by
  intro bs
  induction bs with
  | nil => exact fun s _ h => h
  | cons a as ih =>
    intro s hm hs
    unfold Running at hs
    have : (step c s a).mon ≠ .starting ∧ ¬Running (step c s a) := by
      unfold Running
      cases a with
      | spawn ok => simp only [step]; grind
      | time d w => simp only [step]; grind
      | xcpu => simp only [step]; grind
      | exit e => simp only [step]; grind
      | stop => simp only [step]; grind
      | monitor => simp only [step, monitorStep]; grind
      | shocker f => simp only [step, shockerStep]; grind [kill]
    exact ih _ this.1 this.2

private theorem moved (c : Cfg) : ∀ (bs : List Act) (s : St), s.mon ≠ .starting → (bs.foldl (step c) s).mon ≠ .starting := by
  intro bs
  induction bs with
  | nil => exact fun s h => h
  | cons a as ih =>
    intro s hm
    refine ih _ ?_
    cases a with
    | spawn ok => simp only [step]; grind
    | time d w => simp only [step]; grind
    | xcpu => simp only [step]; grind
    | exit e => simp only [step]; grind
    | stop => simp only [step]; grind
    | monitor => simp only [step, monitorStep]; grind
    | shocker f => simp only [step, shockerStep]; grind [kill]

/-- A running program that is measured to be over its limits is dead after four more steps of the shocker thread, whatever
else happens. -/
private theorem closing (c : Cfg) : ∀ (bs : List Act) (s : St), Found bs → Inv c s → Over c s →
    s.shock ≠ .off → s.shock ≠ .flag → s.shock ≠ .done → away s.shock ≤ shocks bs → ¬Running (bs.foldl (step c) s) := by
  have stay := still c
  intro bs
  induction bs with
  | nil =>
    intro s _ _ _ h1 h2 h3 h
    cases hs : s.shock <;> simp_all [away, shocks]
  | cons a as ih =>
    intro s hf hi ho h1 h2 h3 h
    have hm : s.mon ≠ .starting := by
      intro hm
      have := hi.start hm
      unfold Over at ho
      omega
    by_cases hr : Running s
    · have hf' : Found as := fun h => hf (List.mem_cons_of_mem _ h)
      have hx : a ≠ .shocker false := fun h => hf (h ▸ List.mem_cons_self)
      have hi' := inv_step c s a hi
      obtain ⟨r1, r2⟩ := hr
      have hret := hi.wait r1
      have hspawn : s.spawned = true := by
        have := hi.fresh
        grind
      have hdied : s.died = false := by
        have := hi.died
        grind
      have go : ∀ t, t = step c s a → t.shock = s.shock → Over c t → away s.shock ≤ shocks as → ¬Running ((a :: as).foldl (step c) s) := by
        intro t ht hsh hov haw
        subst ht
        exact ih _ hf' hi' hov (hsh ▸ h1) (hsh ▸ h2) (hsh ▸ h3) (hsh ▸ haw)
      unfold Over at ho
      cases a with
      | spawn ok => exact go _ rfl (by simp [step, r1]) (by simp only [step, Over]; grind) (by simpa [shocks] using h)
      | time d w => exact go _ rfl (by simp [step, r1]) (by simp only [step, Over]; grind) (by simpa [shocks] using h)
      | xcpu => exact go _ rfl (by simp [step, r1]) (by simp only [step, Over]; grind) (by simpa [shocks] using h)
      | exit e => exact go _ rfl (by simp [step, r1, r2]) (by simp only [step, Over]; grind) (by simpa [shocks] using h)
      | stop =>
        have := hi.le
        exact go _ rfl (by simp [step, r1, r2]) (by simp only [step, Over]; grind) (by simpa [shocks] using h)
      | monitor => exact go _ rfl (by simp [step, monitorStep, r1, r2]) (by simp only [step, monitorStep, Over]; grind) (by simpa [shocks] using h)
      | shocker f =>
        have : f = true := by cases f <;> simp_all
        subst this
        have h' : away s.shock ≤ shocks as + 1 := by simpa [shocks] using h
        have fwd : ∀ t, t = step c s (.shocker true) → Over c t → t.shock ≠ .off → t.shock ≠ .flag → t.shock ≠ .done →
            away t.shock ≤ shocks as → ¬Running ((Act.shocker true :: as).foldl (step c) s) := by
          intro t ht a1 a2 a3 a4 a5
          subst ht
          exact ih _ hf' hi' a1 a2 a3 a4 a5
        cases hs : s.shock with
        | off => exact absurd hs h1
        | flag => exact absurd hs h2
        | done => exact absurd hs h3
        | waiting =>
          rw [hs] at h'
          exact fwd _ rfl (by simp [step, shockerStep, hs, hspawn, Over, ho]) (by simp [step, shockerStep, hs, hspawn])
            (by simp [step, shockerStep, hs, hspawn]) (by simp [step, shockerStep, hs, hspawn])
            (by simp only [step, shockerStep, hs, hspawn, if_true, away] at *; omega)
        | wake =>
          rw [hs] at h'
          exact fwd _ rfl (by simp [step, shockerStep, hs, Over, ho]) (by simp [step, shockerStep, hs])
            (by simp [step, shockerStep, hs]) (by simp [step, shockerStep, hs])
            (by simp only [step, shockerStep, hs, away] at *; omega)
        | loop =>
          rw [hs] at h'
          exact fwd _ rfl (by simp [step, shockerStep, hs, hdied, Over, ho]) (by simp [step, shockerStep, hs, hdied])
            (by simp [step, shockerStep, hs, hdied]) (by simp [step, shockerStep, hs, hdied])
            (by simp only [step, shockerStep, hs, hdied, away] at *; simp; omega)
        | check =>
          rw [hs] at h'
          have e : step c s (.shocker true) = { s with shock := .kill } := by
            simp only [step, shockerStep, hs]
            exact if_pos ho
          exact fwd _ rfl (by rw [e]; exact ho) (by simp [e]) (by simp [e]) (by simp [e])
            (by simp only [e, away] at *; omega)
        | kill =>
          refine stay as _ ?_ ?_
          · simp only [step, shockerStep, hs, kill]; grind
          · simp [step, shockerStep, hs, kill, hret, St.gone, r1, r2, Running]
    · exact stay (a :: as) s hm hr

/-- The limits are enforced. If a running program has used more than its limits and the monitor is woken up once, then at the
latest four steps of the shocker thread later, one turn of its loop of one second, the program is no longer running: for every
history up to then and however the other threads, the program and the clock are scheduled in between, if `killpg` finds the
group. -/
theorem C65_enforced (c : Cfg) (as bs : List Act) (hc : c.time ≠ 0) (hf : Found (as ++ bs)) (hr : Running (run c as))
    (ho : (run c as).ran > c.time ∨ (run c as).wall > c.wallTime) (hb : 4 ≤ shocks bs) :
    ¬Running (run c (as ++ .stop :: bs)) := by
  have hfa : Found as := fun h => hf (List.mem_append_left _ h)
  have hfb : Found bs := fun h => hf (List.mem_append_right _ h)
  have hw := C65_watched c as hc hfa hr
  obtain ⟨r1, r2⟩ := hr
  unfold run at *
  rw [List.foldl_append, List.foldl_cons]
  have e : step c (as.foldl (step c) (init c)) .stop =
      { as.foldl (step c) (init c) with exec := (as.foldl (step c) (init c)).ran } := by
    simp [step, r1, r2]
  refine closing c bs _ hfb (inv_step c _ _ (inv c as)) ?_ ?_ ?_ ?_ ?_
  · rw [e]; exact ho
  · rw [e]; exact hw.1
  · rw [e]; exact hw.2.1
  · rw [e]; exact hw.2.2
  · rw [e]
    refine Nat.le_trans ?_ hb
    show away (as.foldl (step c) (init c)).shock ≤ 4
    cases (as.foldl (step c) (init c)).shock <;> simp [away]

/-- Without a time limit there is no watchdog: nothing is killed and only the kernel's signal counts. -/
theorem C65_unlimited (c : Cfg) (as : List Act) (hc : c.time = 0) :
    (run c as).shock = .off ∧ (run c as).killed = false ∧ (run c as).stray = false ∧ ((run c as).tle = true → Act.xcpu ∈ as) := by
  have hi := inv c as
  have ho := hi.off.mpr hc
  refine ⟨ho, ?_, ?_, fun h => ?_⟩
  · have := hi.killed; grind
  · have := hi.stray; grind
  · rcases (C65_no_false c as).1 h with h | h
    · exact h
    · exact absurd hc h.1

/-- How many of its steps the monitor thread is away from reporting a dead program. -/
private def left : MPc → Nat
  | .starting => 4
  | .waiting => 4
  | .reaped _ => 3
  | .published => 2
  | .checked => 1
  | .done => 0

private theorem ending (c : Cfg) : ∀ (bs : List Act) (s : St), Inv c s → s.mon ≠ .starting → ¬Running s → left s.mon ≤ turns bs →
    (bs.foldl (step c) s).mon = .done := by
  intro bs
  induction bs with
  | nil =>
    intro s _ hm _ h
    cases hs : s.mon <;> simp_all [left, turns]
  | cons a as ih =>
    intro s hi hm hr h
    have hi' := inv_step c s a hi
    have keep : a ≠ .monitor → (step c s a).mon = s.mon ∧ ((step c s a).dead = none → s.dead = none) := by
      intro ha
      cases a with
      | spawn ok => simp only [step]; grind
      | time d w => simp only [step]; grind
      | xcpu => simp only [step]; grind
      | exit e => simp only [step]; grind
      | stop => simp only [step]; grind
      | monitor => exact absurd rfl ha
      | shocker f => simp only [step, shockerStep]; grind [kill]
    unfold Running at *
    rw [List.foldl_cons]
    by_cases ha : a = .monitor
    · subst ha
      have h' : left s.mon ≤ turns as + 1 := by simpa [turns] using h
      refine ih _ hi' ?_ ?_ ?_
      · simp only [step, monitorStep]; grind
      · simp only [step, monitorStep]; grind
      · cases hs : s.mon with
        | starting => exact absurd hs hm
        | waiting =>
          cases hd : s.dead with
          | none => exact absurd ⟨hs, hd⟩ hr
          | some v => simp only [step, monitorStep, hs, hd, left] at *; omega
        | reaped v => simp only [step, monitorStep, hs, left] at *; omega
        | published => simp only [step, monitorStep, hs, left] at *; omega
        | checked => simp only [step, monitorStep, hs, left] at *; omega
        | done => simp only [step, monitorStep, hs, left] at *; omega
    · obtain ⟨k1, k2⟩ := keep ha
      have h' : left s.mon ≤ turns as := by
        cases a <;> first | exact absurd rfl ha | simpa [turns] using h
      exact ih _ hi' (k1 ▸ hm) (fun e => hr ⟨k1 ▸ e.1, k2 e.2⟩) (k1 ▸ h')

/-- How many of its steps the shocker thread is away from its end after the program was reported dead. -/
private def rest : SPc → Nat
  | .waiting => 5
  | .loop => 1
  | .check => 3
  | .kill => 2
  | .flag => 1
  | .wake => 2
  | _ => 0

private theorem leaving (c : Cfg) : ∀ (bs : List Act) (s : St), Inv c s → s.mon = .done → rest s.shock ≤ shocks bs →
    (bs.foldl (step c) s).mon = .done ∧ ((bs.foldl (step c) s).shock = .off ∨ (bs.foldl (step c) s).shock = .done) := by
  intro bs
  induction bs with
  | nil =>
    intro s _ hm h
    cases hs : s.shock <;> simp_all [rest, shocks]
  | cons a as ih =>
    intro s hi hm h
    have hi' := inv_step c s a hi
    have hsp : s.spawned = true := by have := hi.fresh; grind
    have hd : s.died = true := hi.died.mpr hm
    rw [List.foldl_cons]
    have go : (step c s a).shock = s.shock → (step c s a).mon = s.mon → rest s.shock ≤ shocks as →
        (as.foldl (step c) (step c s a)).mon = .done ∧
          ((as.foldl (step c) (step c s a)).shock = .off ∨ (as.foldl (step c) (step c s a)).shock = .done) :=
      fun e1 e2 e3 => ih _ hi' (e2 ▸ hm) (e1 ▸ e3)
    cases a with
    | spawn ok => exact go (by simp [step, hm]) (by simp [step, hm]) (by simpa [shocks] using h)
    | time d w => exact go (by simp [step, hm]) (by simp [step, hm]) (by simpa [shocks] using h)
    | xcpu => exact go (by simp [step, hm]) (by simp [step, hm]) (by simpa [shocks] using h)
    | exit e => exact go (by simp [step, hm]) (by simp [step, hm]) (by simpa [shocks] using h)
    | stop => exact go (by simp [step, hm]) (by simp [step, hm]) (by simpa [shocks] using h)
    | monitor => exact go (by simp [step, monitorStep, hm]) (by simp [step, monitorStep, hm]) (by simpa [shocks] using h)
    | shocker f =>
      have h' : rest s.shock ≤ shocks as + 1 := by simpa [shocks] using h
      refine ih _ hi' ?_ ?_
      · simp only [step, shockerStep]; grind [kill]
      · cases hs : s.shock with
        | check =>
          rw [hs] at h'
          have h3 : 3 ≤ shocks as + 1 := h'
          by_cases ho : s.exec > c.time ∨ s.wall > c.wallTime
          · have e : step c s (.shocker f) = { s with shock := .kill } := by
              simp only [step, shockerStep, hs]
              exact if_pos ho
            rw [e]
            show 2 ≤ shocks as
            omega
          · have e : step c s (.shocker f) = { s with shock := .wake } := by
              simp only [step, shockerStep, hs]
              exact if_neg ho
            rw [e]
            show 2 ≤ shocks as
            omega
        | _ => simp only [step, shockerStep, hs, hd, hsp, rest, if_true] at *; omega

/-- Every dead program is reported, and no thread is left behind: after four steps of the monitor thread `wait` returns, and
after five more of the shocker thread it has ended, whatever else happens in between. -/
theorem C65_ends (c : Cfg) (as bs ds : List Act) (hm : (run c as).mon ≠ .starting) (hr : ¬Running (run c as))
    (hb : 4 ≤ turns bs) (hd : 5 ≤ shocks ds) :
    (run c (as ++ bs)).died = true ∧ (run c (as ++ bs ++ ds)).died = true ∧
    ((run c (as ++ bs ++ ds)).shock = .off ∨ (run c (as ++ bs ++ ds)).shock = .done) := by
  have h1 : (run c (as ++ bs)).mon = .done := by
    unfold run at *
    rw [List.foldl_append]
    refine ending c bs _ (inv c as) hm hr (Nat.le_trans ?_ hb)
    generalize (List.foldl (step c) (init c) as).mon = m
    cases m <;> simp [left]
  have h2 : (run c (as ++ bs ++ ds)).mon = .done ∧ ((run c (as ++ bs ++ ds)).shock = .off ∨ (run c (as ++ bs ++ ds)).shock = .done) := by
    have hi := inv c (as ++ bs)
    have e : run c (as ++ bs ++ ds) = ds.foldl (step c) (run c (as ++ bs)) := List.foldl_append
    rw [e]
    refine leaving c ds _ hi h1 (Nat.le_trans ?_ hd)
    generalize (run c (as ++ bs)).shock = m
    cases m <;> simp [rest]
  exact ⟨(inv c _).died.mpr h1, (inv c _).died.mpr h2.1, h2.2⟩

/-- When the program could not be started, no signal is sent: the process id is 0 then and `killpg(0)` would kill the judge
itself. -/
theorem C65_failed (c : Cfg) (as : List Act) (hd : (run c as).mon = .done) (hr : (run c as).ret = none) :
    (run c as).stray = false ∧ (run c as).killed = false ∧ (run c as).shock ≠ .kill ∧ (run c as).shock ≠ .wake := by
  have hi := inv c as
  obtain ⟨h1, h2, h3, h4⟩ := hi.fail hd hr
  have no : ¬Over c (run c as) := by unfold Over; omega
  refine ⟨?_, ?_, ?_, ?_⟩
  · have := hi.stray; grind
  · have := hi.killed; grind
  · grind
  · grind

/-! ### In time -/

/-- Time on the clock that passes in a history. -/
def passes : List Act → Nat
  | [] => 0
  | .time _ w :: as => w + passes as
  | _ :: as => passes as

/-- The threads of the judge are not starved: whenever more than `σ` passes, each of the two has had four turns (a round of the
shocker thread is three of them and takes a second; a turn of the monitor thread while the program runs is spent in `wait4`). -/
def Prompt (σ : Nat) (as : List Act) : Prop :=
  ∀ xs ys zs, as = xs ++ ys ++ zs → σ < passes ys → 4 ≤ shocks ys ∧ 4 ≤ turns ys

theorem passes_append (xs ys : List Act) : passes (xs ++ ys) = passes xs + passes ys := by
  induction xs with
  | nil => simp [passes]
  | cons a xs ih => cases a <;> simp [passes, ih] <;> omega

private theorem prompt_part {σ : Nat} {as : List Act} (h : Prompt σ as) (xs ys zs : List Act) (e : as = xs ++ ys ++ zs) : Prompt σ ys := by
  intro us vs ws e'
  exact h (xs ++ us) vs (ws ++ zs) (by rw [e, e']; simp)

private theorem prompt_one {σ : Nat} {a : Act} {as : List Act} (h : Prompt σ (a :: as)) : passes [a] ≤ σ := by
  refine Nat.le_of_not_lt fun hp => ?_
  have := h [] [a] as (by simp) hp
  cases a <;> simp [shocks, turns] at this

private theorem prompt_tail {σ : Nat} {a : Act} {as : List Act} (h : Prompt σ (a :: as)) : Prompt σ as :=
  prompt_part h [a] as [] (by simp)

private theorem wall_step (c : Cfg) (s : St) (a : Act) : s.wall ≤ (step c s a).wall ∧ (step c s a).wall ≤ s.wall + passes [a] := by
  cases a with
  | spawn ok => simp only [step, passes]; grind
  | time d w => simp only [step, passes]; grind
  | xcpu => simp only [step, passes]; grind
  | exit e => simp only [step, passes]; grind
  | stop => simp only [step, passes]; grind
  | monitor => simp only [step, passes, monitorStep]; grind
  | shocker f => simp only [step, passes, shockerStep]; grind [kill]

private theorem wall_run (c : Cfg) (as : List Act) (s : St) : (as.foldl (step c) s).wall ≤ s.wall + passes as := by
  induction as generalizing s with
  | nil => simp [passes]
  | cons a as ih =>
    have h1 := ih (step c s a)
    have h2 := (wall_step c s a).2
    have h3 := passes_append [a] as
    simp only [List.foldl_cons, List.cons_append, List.nil_append] at *
    omega

/-- The first moment at which the wall clock is beyond `T`. -/
private theorem wall_split (c : Cfg) (σ T : Nat) (as : List Act) (s : St) (hp : Prompt σ as) (h0 : s.wall ≤ T)
    (h : T < (as.foldl (step c) s).wall) :
    ∃ xs ys, as = xs ++ ys ∧ T < (xs.foldl (step c) s).wall ∧ (xs.foldl (step c) s).wall ≤ T + σ := by
  induction as generalizing s with
  | nil => simp at h; omega
  | cons a as ih =>
    by_cases hs : T < (step c s a).wall
    · have := (wall_step c s a).2
      have := prompt_one hp
      exact ⟨[a], as, rfl, hs, by simp only [List.foldl_cons, List.foldl_nil]; omega⟩
    · obtain ⟨xs, ys, e, h1, h2⟩ := ih (step c s a) (prompt_tail hp) (Nat.le_of_not_lt hs) h
      exact ⟨a :: xs, ys, by rw [e]; rfl, h1, h2⟩

private theorem passes_split (σ T : Nat) (as : List Act) (n : Nat) (hp : Prompt σ as) (h0 : n ≤ T) (h : T < n + passes as) :
    ∃ xs ys, as = xs ++ ys ∧ T < n + passes xs ∧ n + passes xs ≤ T + σ := by
  induction as generalizing n with
  | nil => simp [passes] at h; omega
  | cons a as ih =>
    have e := passes_append [a] as
    simp only [List.cons_append, List.nil_append] at e
    by_cases hs : T < n + passes [a]
    · have := prompt_one hp
      exact ⟨[a], as, rfl, hs, by omega⟩
    · obtain ⟨xs, ys, e', h1, h2⟩ := ih (n + passes [a]) (prompt_tail hp) (by omega) (by omega)
      have e2 := passes_append [a] xs
      simp only [List.cons_append, List.nil_append] at e2
      exact ⟨a :: xs, ys, by rw [e']; rfl, by omega, by omega⟩

private theorem done_wall (c : Cfg) (as : List Act) (s : St) (h : s.mon = .done) : (as.foldl (step c) s).wall = s.wall := by
  induction as generalizing s with
  | nil => rfl
  | cons a as ih =>
    have : (step c s a).mon = .done ∧ (step c s a).wall = s.wall := by
      cases a with
      | spawn ok => simp only [step]; grind
      | time d w => simp only [step]; grind
      | xcpu => simp only [step]; grind
      | exit e => simp only [step]; grind
      | stop => simp only [step]; grind
      | monitor => simp only [step, monitorStep]; grind
      | shocker f => simp only [step, shockerStep]; grind [kill]
    rw [List.foldl_cons, ih _ this.1, this.2]

/-- The program is gone in time. If the threads of the judge are not starved for more than `σ`, then however the program, the clock and the
threads are scheduled, its wall clock time is never more than its wall clock limit and five times `σ`; from then on it is dead and reported. -/
theorem C65_bounded (c : Cfg) (as : List Act) (σ : Nat) (hc : c.time ≠ 0) (hf : Found as) (hp : Prompt σ as) :
    (run c as).wall ≤ c.wallTime + 5 * σ := by
  refine Nat.le_of_not_lt fun hgt => ?_
  obtain ⟨xs, ys, e, h1, h2⟩ := wall_split c σ c.wallTime as (init c) hp (by simp [init]) (by unfold run at hgt; omega)
  have hw : (run c as).wall ≤ (xs.foldl (step c) (init c)).wall + passes ys := by
    rw [e, run, List.foldl_append]; exact wall_run c ys _
  have hpy : Prompt σ ys := prompt_part hp xs ys [] (by simp [e])
  obtain ⟨y1, y2, e1, h3, h4⟩ := passes_split σ σ ys 0 hpy (by omega) (by omega)
  have hs : passes ys = passes y1 + passes y2 := by rw [e1, passes_append]
  have hp1 : Prompt σ y1 := prompt_part hpy [] y1 y2 (by simp [e1])
  have hp2 : Prompt σ y2 := prompt_part hpy y1 y2 [] (by simp [e1])
  obtain ⟨z1, z2, e2, h5, h6⟩ := passes_split σ σ y2 0 hp2 (by omega) (by omega)
  have hfx : Found xs := fun h => hf (by rw [e]; exact List.mem_append_left _ h)
  have hf1 : Found y1 := fun h => hf (by rw [e, e1]; simp [h])
  have k1 := (hp1 [] y1 [] (by simp) (by omega)).1
  have k2 := (prompt_part hp2 [] z1 z2 (by simp [e2]) [] z1 [] (by simp) (by omega)).2
  have hi := inv c xs
  have ho : Over c (run c xs) := .inr h1
  have hm : (run c xs).mon ≠ .starting := fun hm => by have := hi.start hm; simp only [run] at this; omega
  have hd : ¬Running (run c (xs ++ y1)) ∧ (run c (xs ++ y1)).mon ≠ .starting := by
    rw [run, List.foldl_append]
    refine ⟨?_, moved c y1 _ hm⟩
    by_cases hr : Running (run c xs)
    · obtain ⟨w1, w2, w3⟩ := C65_watched c xs hc hfx hr
      refine closing c y1 _ hf1 hi ho w1 w2 w3 (Nat.le_trans ?_ k1)
      show away (run c xs).shock ≤ 4
      cases (run c xs).shock <;> simp [away]
    · exact still c y1 _ hm hr
  have hdone : (run c (xs ++ y1 ++ z1)).mon = .done := by
    rw [run, List.foldl_append]
    refine ending c z1 _ (inv c (xs ++ y1)) hd.2 hd.1 (Nat.le_trans ?_ k2)
    show left (run c (xs ++ y1)).mon ≤ 4
    cases (run c (xs ++ y1)).mon <;> simp [left]
  have hend : (run c as).wall = (run c (xs ++ y1 ++ z1)).wall := by
    have : as = xs ++ y1 ++ z1 ++ z2 := by rw [e, e1, e2]; simp
    rw [this, run, List.foldl_append]
    exact done_wall c z2 _ hdone
  have hlast : (run c (xs ++ y1 ++ z1)).wall ≤ (xs.foldl (step c) (init c)).wall + passes (y1 ++ z1) := by
    rw [run, List.append_assoc, List.foldl_append]; exact wall_run c _ _
  rw [passes_append] at hlast
  omega

/-- The process id of a reaped program is signalled only in the window before its return code is published, and only if
it was over its limits. -/
theorem C65_stray_partial (c : Cfg) (as : List Act) (f : Bool) (h0 : (run c as).stray = false)
    (h : (run c (as ++ [.shocker f])).stray = true) :
    (∃ code, (run c as).mon = .reaped code) ∧ Over c (run c as) := by
  have hi := inv c as
  have e : run c (as ++ [.shocker f]) = step c (run c as) (.shocker f) := by simp [run]
  rw [e] at h
  obtain ⟨h1, h2, h3, h4, h5, h6, h7, h8, h9, h10, h11, h12, h13, h14⟩ := hi
  generalize run c as = s at *
  simp only [step, shockerStep] at h
  cases hs : s.shock <;> simp only [hs] at h
  case kill =>
    refine ⟨?_, h11 (.inl hs)⟩
    unfold kill St.gone at h
    cases hm : s.mon <;> grind
  all_goals grind

/-! ## Cases -/

/-- A busy program: limit 2, wall 6. It is woken, found over the limit, killed and reported with the verdict. -/
def busy : List Act :=
  [.spawn true, .shocker true, .time 3 3, .shocker true, .shocker true, .shocker true, .stop, .shocker true, .shocker true,
   .shocker true, .shocker true, .monitor, .monitor, .monitor, .monitor]

example : (run ⟨2, 6⟩ busy).killed = true ∧ (run ⟨2, 6⟩ busy).tle = true ∧ (run ⟨2, 6⟩ busy).died = true ∧
    (run ⟨2, 6⟩ busy).shock = .done ∧ (run ⟨2, 6⟩ busy).ret = some (-9) ∧ Found busy := by
  unfold Found; decide

/-- The hypotheses of `C65_enforced`: running over the limit, not yet measured. -/
example : Running (run ⟨2, 6⟩ [.spawn true, .time 3 3]) ∧ (run ⟨2, 6⟩ [.spawn true, .time 3 3]).ran > 2 ∧
    ¬Over ⟨2, 6⟩ (run ⟨2, 6⟩ [.spawn true, .time 3 3]) ∧
    4 ≤ shocks [.shocker true, .time 1 1, .shocker true, .stop, .shocker true, .shocker true] := by
  unfold Running Over; decide

private theorem prompt_of {σ : Nat} {as : List Act} (h : ∀ i ∈ List.range (as.length + 1), ∀ j ∈ List.range (as.length + 1),
    σ < passes ((as.drop i).take j) → 4 ≤ shocks ((as.drop i).take j) ∧ 4 ≤ turns ((as.drop i).take j)) : Prompt σ as := by
  intro xs ys zs e hp
  have := h xs.length (by rw [e]; simp; omega) ys.length (by rw [e]; simp; omega)
  rw [show (as.drop xs.length).take ys.length = ys by rw [e]; simp] at this
  exact this hp

/-- The threads keep up with a program that sleeps: it is over its wall clock limit of 6 after 7, seen, killed and reported. -/
private def asleep : List Act :=
  [.spawn true] ++ (List.replicate 8 [.time 0 1, .shocker true, .shocker true, .shocker true, .shocker true, .monitor, .monitor, .monitor,
    .monitor]).flatten

example : Prompt 1 asleep ∧ Found asleep ∧ (run ⟨2, 6⟩ asleep).wall = 7 ∧ (run ⟨2, 6⟩ asleep).killed = true ∧
    (run ⟨2, 6⟩ asleep).mon = .done := by
  refine ⟨prompt_of (by decide +kernel), ?_, ?_⟩
  · unfold Found; decide +kernel
  · decide +kernel

/-- A program that ends in time. -/
example : (run ⟨2, 6⟩ [.spawn true, .time 1 1, .exit 0, .shocker true, .monitor, .monitor, .monitor, .monitor]).tle = false ∧
    (run ⟨2, 6⟩ [.spawn true, .time 1 1, .exit 0, .shocker true, .monitor, .monitor, .monitor, .monitor]).ret = some 0 := by
  decide

/-- A program that ends by itself, over the limit, before the watchdog looks. -/
example : (run ⟨2, 6⟩ [.spawn true, .time 3 3, .exit 0, .monitor, .monitor, .monitor, .monitor]).tle = true ∧
    (run ⟨2, 6⟩ [.spawn true, .time 3 3, .exit 0, .monitor, .monitor, .monitor, .monitor]).killed = false := by
  decide

example : (run ⟨2, 6⟩ [.spawn false]).mon = .done ∧ (run ⟨2, 6⟩ [.spawn false]).ret = none := by decide

example : (run ⟨0, 0⟩ [.spawn true, .time 9 9, .stop, .shocker true, .xcpu]).tle = true := by decide

/-- The hypothesis that the watchdog has finished is needed in `C65_flagged`: `kill` comes before `_is_tle = True`, so for a
program killed for its wall clock time `wait` can return before the flag is set. The verdict is then a runtime error, killed by
signal 9, instead of a time limit exceeded. -/
theorem C65_race_fails : ∃ (c : Cfg) (as : List Act), Found as ∧ (run c as).killed = true ∧ (run c as).died = true ∧
    (run c as).ret = some (-9) ∧ (run c as).tle = false ∧ (run c as).wall > c.wallTime :=
  ⟨⟨2, 6⟩, [.spawn true, .shocker true, .time 1 7, .stop, .shocker true, .shocker true, .shocker true, .monitor, .monitor,
    .monitor, .monitor], by unfold Found; decide⟩

/-- `Found` is needed: when `killpg` fails the watchdog takes its task for done. The program keeps running and from then on
nobody watches it, whatever happens. -/
theorem C65_group_fails : ∃ (c : Cfg) (as : List Act), c.time ≠ 0 ∧ Running (run c as) ∧ (run c as).ran > c.time ∧
    (run c as).shock = .done ∧ ∀ n, Running (run c (as ++ List.replicate n (.shocker true))) := by
  refine ⟨⟨2, 6⟩, [.spawn true, .shocker true, .time 3 3, .stop, .shocker true, .shocker true, .shocker false, .shocker true],
    by decide, by unfold Running; decide, by decide, by decide, fun n => ?_⟩
  have key : ∀ (n : Nat) (s : St), s.shock = .done → Running s → Running ((List.replicate n (Act.shocker true)).foldl (step ⟨2, 6⟩) s) := by
    intro n
    induction n with
    | zero => exact fun s _ h => h
    | succ n ih =>
      intro s h1 h2
      have e : step ⟨2, 6⟩ s (.shocker true) = s := by simp [step, shockerStep, h1]
      rw [List.replicate_succ, List.foldl_cons, e]
      exact ih s h1 h2
  unfold run
  rw [List.foldl_append]
  exact key n _ (by decide) (by unfold Running; decide)

/-- The window of `C65_stray_partial` exists: the watchdog can kill the process id of a program that `wait4` has already
reaped, which may be someone else's by then. -/
theorem C65_stray_fails : ∃ (c : Cfg) (as : List Act), Found as ∧ (run c as).stray = true ∧ (run c as).killed = false :=
  ⟨⟨2, 6⟩, [.spawn true, .shocker true, .time 3 3, .stop, .shocker true, .shocker true, .exit 0, .monitor, .shocker true],
    by unfold Found; decide⟩

end Verif.Watchdog
