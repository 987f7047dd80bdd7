import Verif.Spec.Ending
import Verif.Props.Feedback
import Verif.Props.Syscalls
import Verif.Props.Monitor

/-!
# C105: the user is told what ended the program
-/

namespace Verif.Props
open Verif.Monitor Verif.Monitor.Spec Verif.Ending Verif.Ending.Spec Verif.Syscalls

namespace Ending
variable {C : Type}

theorem finish_acts (cfg : Cfg C) (s : State) (pid : Nat) (v : View C) (en : Bool) (n : Option Int) (sig : Nat) :
    Act.signalEvent sig ∉ (finish cfg s pid v en n).2 := by
  unfold finish
  simp only
  split_ifs <;> simp [faultActs]

theorem sys_acts (cfg : Cfg C) (s : State) (pid : Nat) (v : View C) (sig : Nat) : Act.signalEvent sig ∉ (sysStep cfg s pid v).2 := by
  intro h
  unfold sysStep at h
  simp only at h
  repeat' split at h
  all_goals first
    | exact finish_acts _ _ _ _ _ _ _ h
    | (simp [faultActs] at h; done)
    | (rcases List.mem_append.mp h with h | h
       · simp [faultActs] at h
       · exact finish_acts _ _ _ _ _ _ _ h)

theorem note_quiet (abi : Nat) (acts : List Act) (n : Seen) (h : ∀ sig, Act.signalEvent sig ∉ acts) :
    (acts.foldl (note abi) n).signal = n.signal ∧ (acts.foldl (note abi) n).xcpu = n.xcpu := by
  induction acts generalizing n with
  | nil => exact ⟨rfl, rfl⟩
  | cons a acts ih =>
    have h1 := ih (note abi n a) (fun sig hm => h sig (List.mem_cons_of_mem _ hm))
    have h2 : ∀ sig, a ≠ .signalEvent sig := fun sig e => h sig (e ▸ List.mem_cons_self)
    rw [List.foldl_cons, h1.1, h1.2]
    cases a <;> first | exact ⟨rfl, rfl⟩ | exact absurd rfl (h2 _)

theorem note_fault (abi : Nat) (acts : List Act) (n : Seen) (h : ∀ nr, Act.report nr ∉ acts) :
    (acts.foldl (note abi) n).fault = n.fault := by
  induction acts generalizing n with
  | nil => rfl
  | cons a acts ih =>
    have h1 := ih (note abi n a) (fun sig hm => h sig (List.mem_cons_of_mem _ hm))
    have h2 : ∀ sig, a ≠ .report sig := fun sig e => h sig (e ▸ List.mem_cons_self)
    rw [List.foldl_cons, h1]
    cases a with
    | report => exact absurd rfl (h2 _)
    | signalEvent sig => simp only [note]; split_ifs <;> rfl
    | _ => rfl

theorem finish_first (cfg : Cfg C) (s : State) (pid : Nat) (v : View C) (en : Bool) (n : Option Int) (h : s.first = false) :
    (finish cfg s pid v en n).1.first = false := by
  unfold finish State.faultAt
  simp only
  split_ifs <;> simp [h]

theorem step_first (cfg : Cfg C) (s : State) (e : Stop C) (h : s.first = false) : (step cfg s e).1.first = false := by
  unfold step
  split_ifs
  · exact h
  · cases e with
    | gone pid => dsimp only; split_ifs <;> exact h
    | continued pid => rfl
    | trap => rfl
    | signal => rfl
    | sys pid v =>
      exact sysStep_ind (fun s => s.first = false) cfg s pid v (by split_ifs <;> exact h) (fun _ _ _ _ => rfl) (fun _ _ h => h) (fun _ _ h => h)
        fun s en n h => finish_first cfg s pid v en n h

theorem step_goes (cfg : Cfg C) (s : State) (e : Stop C) (h : s.first = false) (hf : s.finished = false) (he : e ≠ .gone cfg.main) :
    (step cfg s e).1.finished = false := by
  unfold step
  rw [if_neg (by simp [hf])]
  cases e with
  | gone pid => dsimp only; rw [if_neg (by rintro (h' | h') <;> simp_all)]; exact hf
  | continued pid => exact hf
  | trap pid t => cases t <;> exact hf
  | signal => exact hf
  | sys pid v => exact (sysStep_finished cfg s pid v).trans hf

/-- The signal noted after a stop. -/
def after (main : Nat) (a : Nat) : Stop C → Nat
  | .signal p n => if p = main ∧ n ≠ 5 then n else a
  | _ => a

/-- A `SIGXCPU` for the main thread. -/
def isX (main : Nat) : Stop C → Bool
  | .signal p n => decide (p = main ∧ n = 24)
  | _ => false

theorem step_note (cfg : Cfg C) (s : State) (e : Stop C) (n : Seen) (h : s.first = false) (hf : s.finished = false) :
    ((step cfg s e).2.foldl (note (abiAt e)) n).signal = after cfg.main n.signal e ∧
      ((step cfg s e).2.foldl (note (abiAt e)) n).xcpu = (n.xcpu || isX cfg.main e) := by
  unfold step
  rw [if_neg (by simp [hf])]
  cases e with
  | gone pid =>
    simp only [after, isX, Bool.or_false]
    apply note_quiet
    intro sig
    split_ifs <;> simp
  | continued pid => simp [after, isX, note]
  | trap pid t =>
    have : ∀ x : State, x.first = false → (((if x.first = false ∧ pid = cfg.main then [Act.signalEvent SIGTRAP] else []) ++
        [Act.resume pid none none 0]).foldl (note (abiAt (Stop.trap pid t : Stop C))) n) = n := by
      intro x hx
      by_cases hp : pid = cfg.main <;> simp [hx, hp, note, SIGXCPU, SIGTRAP]
    simp only [after, isX, Bool.or_false]
    cases t <;> exact ⟨congrArg Seen.signal (this _ h), congrArg Seen.xcpu (this _ h)⟩
  | signal pid sig =>
    by_cases hp : pid = cfg.main <;> simp [h, hp, note, SIGXCPU, SIGTRAP, after, isX]
    by_cases h5 : sig = 5 <;> by_cases h24 : sig = 24 <;> simp [h5, h24]
  | sys pid v => simpa [after, isX] using note_quiet _ _ n (sys_acts cfg s pid v)

theorem watch_signal (cfg : Cfg C) : ∀ (rest : List (Stop C)) (s : State) (n : Seen), s.first = false → s.finished = false → Stop.gone cfg.main ∉ rest →
    (watch cfg s n rest).2.signal = rest.foldl (after cfg.main) n.signal ∧
      (watch cfg s n rest).2.xcpu = (n.xcpu || rest.any (isX cfg.main))
  | [], s, n, _, _, _ => by simp [watch]
  | e :: rest, s, n, h, hf, hg => by
    obtain ⟨h1, h2⟩ := step_note cfg s e n h hf
    obtain ⟨h3, h4⟩ := watch_signal cfg rest (step cfg s e).1 ((step cfg s e).2.foldl (note (abiAt e)) n) (step_first cfg s e h)
      (step_goes cfg s e h hf (fun he => hg (he ▸ List.mem_cons_self))) (fun hm => hg (List.mem_cons_of_mem _ hm))
    constructor
    · rw [watch, h3, h1]; rfl
    · rw [watch, h4, h2]; simp [Bool.or_assoc]

theorem watch_append (cfg : Cfg C) : ∀ (a b : List (Stop C)) (s : State) (n : Seen),
    watch cfg s n (a ++ b) = watch cfg (watch cfg s n a).1 (watch cfg s n a).2 b
  | [], _, _, _ => rfl
  | e :: a, b, s, n => by rw [List.cons_append, watch, watch_append cfg a b]; rfl

theorem watch_first (cfg : Cfg C) : ∀ (rest : List (Stop C)) (s : State) (n : Seen), s.first = false → s.finished = false → Stop.gone cfg.main ∉ rest →
    (watch cfg s n rest).1.first = false ∧ (watch cfg s n rest).1.finished = false
  | [], _, _, h, hf, _ => ⟨h, hf⟩
  | e :: rest, s, n, h, hf, hg => watch_first cfg rest _ _ (step_first cfg s e h)
      (step_goes cfg s e h hf (fun he => hg (he ▸ List.mem_cons_self))) (fun hm => hg (List.mem_cons_of_mem _ hm))

theorem after_quiet (main a : Nat) : ∀ (rest : List (Stop C)), (∀ m, Stop.signal main m ∈ rest → m = 5) → rest.foldl (after main) a = a
  | [], _ => rfl
  | e :: rest, h => by
    rw [List.foldl_cons, show after main a e = a from ?_]
    · exact after_quiet main a rest fun m hm => h m (List.mem_cons_of_mem _ hm)
    · cases e with
      | signal p n =>
        simp only [after, ite_eq_right_iff]
        rintro ⟨rfl, h5⟩
        exact absurd (h n List.mem_cons_self) h5
      | _ => rfl

theorem start_state (cfg : Cfg C) (rest : List (Stop C)) : ∃ s : State, s.first = false ∧ s.finished = false ∧ s.faulted = false ∧ s.spawned = false ∧
    watch cfg {} {} (.signal cfg.main 19 :: rest) = watch cfg s {} rest := by
  refine ⟨(step cfg {} (.signal cfg.main 19)).1, ?_, ?_, ?_, ?_, ?_⟩ <;> simp [step, watch, note]

/-! ## Faults -/

theorem finish_reports (cfg : Cfg C) (s : State) (pid : Nat) (v : View C) (en : Bool) (n : Option Int) (nr : Int)
    (h : Act.report nr ∈ (finish cfg s pid v en n).2) : nr = v.nr := by
  unfold finish at h
  simp only at h
  split_ifs at h <;> simp_all [faultActs]

theorem finish_fault (cfg : Cfg C) (s : State) (pid : Nat) (v : View C) (en : Bool) (n : Option Int) :
    (finish cfg s pid v en n).1.faulted = true ↔ s.faulted = true ∨ ∃ nr, Act.report nr ∈ (finish cfg s pid v en n).2 := by
  unfold finish
  simp only
  split_ifs <;> simp [faultActs, State.faultAt]

theorem sys_reports (cfg : Cfg C) (s : State) (pid : Nat) (v : View C) (hp : v.pre = .ok) (nr : Int) (h : Act.report nr ∈ (sysStep cfg s pid v).2) : nr = v.nr := by
  unfold sysStep at h
  simp only [hp] at h
  repeat' split at h
  all_goals first
    | exact finish_reports _ _ _ _ _ _ _ h
    | (simp [faultActs] at h; done)
    | (simpa [faultActs] using h)
    | (rcases List.mem_append.mp h with h | h
       · simpa [faultActs] using h
       · exact finish_reports _ _ _ _ _ _ _ h)

theorem sys_fault (cfg : Cfg C) (s : State) (pid : Nat) (v : View C) :
    (sysStep cfg s pid v).1.faulted = true ↔ s.faulted = true ∨ ∃ nr, Act.report nr ∈ (sysStep cfg s pid v).2 := by
  have h0 : (if cfg.seccomp then s else { s with toggle := upd s.toggle pid (!s.toggle pid) }).faulted = s.faulted := by split_ifs <;> rfl
  unfold sysStep
  generalize (if cfg.seccomp then s else { s with toggle := upd s.toggle pid (!s.toggle pid) }) = s0 at h0
  rw [← h0]
  simp only
  repeat' split
  all_goals first
    | exact finish_fault _ _ _ _ _ _
    | (simp [faultActs, State.faultAt]; done)
    | (rw [finish_fault]; simp [faultActs, State.faultAt])

theorem step_fault (cfg : Cfg C) (s : State) (e : Stop C) :
    (step cfg s e).1.faulted = true ↔ s.faulted = true ∨ ∃ nr, Act.report nr ∈ (step cfg s e).2 := by
  unfold step
  split_ifs
  · simp
  · cases e with
    | gone pid => dsimp only; split_ifs <;> simp
    | continued pid => simp
    | trap pid t => cases t <;> (dsimp only; split_ifs <;> simp)
    | signal pid sig => dsimp only; split_ifs <;> simp
    | sys pid v => exact sys_fault cfg s pid v

theorem note_some (abi : Nat) (acts : List Act) (n : Seen) :
    (acts.foldl (note abi) n).fault ≠ none ↔ n.fault ≠ none ∨ ∃ nr, Act.report nr ∈ acts := by
  induction acts generalizing n with
  | nil => simp
  | cons a acts ih =>
    rw [List.foldl_cons, ih]
    cases a with
    | report nr => simp [note]
    | signalEvent sig =>
      have : (note abi n (.signalEvent sig)).fault = n.fault := by simp only [note]; split_ifs <;> rfl
      simp [this]
    | _ => simp [note]

theorem watch_fault (cfg : Cfg C) : ∀ (es : List (Stop C)) (s : State) (n : Seen), (n.fault ≠ none ↔ s.faulted = true) →
    ((watch cfg s n es).2.fault ≠ none ↔ (watch cfg s n es).1.faulted = true)
  | [], _, _, h => h
  | e :: es, s, n, h => watch_fault cfg es _ _ (by rw [note_some, step_fault, h])

theorem note_last (abi : Nat) (nr : Int) (acts : List Act) (n : Seen) (h : ∀ k, Act.report k ∈ acts → k = nr) (hn : n.fault = some (faultName abi nr) ∨ Act.report nr ∈ acts) :
    (acts.foldl (note abi) n).fault = some (faultName abi nr) := by
  induction acts generalizing n with
  | nil => simpa using hn
  | cons a acts ih =>
    rw [List.foldl_cons]
    refine ih _ (fun k hk => h k (List.mem_cons_of_mem _ hk)) ?_
    by_cases ha : ∃ k, a = .report k
    · obtain ⟨k, rfl⟩ := ha
      left
      rw [h k List.mem_cons_self]; rfl
    · have hfa : (note abi n a).fault = n.fault := by
        cases a with
        | report k => exact absurd ⟨k, rfl⟩ ha
        | signalEvent sig => simp only [note]; split_ifs <;> rfl
        | _ => rfl
      rw [hfa]
      rcases hn with hn | hn
      · exact .inl hn
      · rcases List.mem_cons.1 hn with rfl | hn
        · exact absurd ⟨_, rfl⟩ ha
        · exact .inr hn

theorem watch_keeps (cfg : Cfg C) : ∀ (es : List (Stop C)) (s : State) (n : Seen), (∀ e ∈ es, ∀ pid v, e = .sys pid v → v.pre = .esrch) →
    (watch cfg s n es).2.fault = n.fault
  | [], _, _, _ => rfl
  | e :: es, s, n, h => by
    rw [watch, watch_keeps cfg es _ _ fun x hx => h x (List.mem_cons_of_mem _ hx)]
    apply note_fault
    intro nr
    unfold step
    split_ifs
    · simp
    · cases e with
      | gone pid => dsimp only; split_ifs <;> simp
      | continued pid => simp
      | trap pid t => cases t <;> (dsimp only; split_ifs <;> simp)
      | signal pid sig => dsimp only; split_ifs <;> simp
      | sys pid v => simp [sysStep, h _ List.mem_cons_self pid v rfl]

/-! ## Names -/

theorem no_twice : aliasFile.flatten.Nodup := by decide +kernel

theorem class_of (i : Nat) (l : List String) (h : aliasFile[i]? = some l) (x : String) (hx : x ∈ l) : InClass aliasFile i x := by
  refine ⟨⟨l, h, hx⟩, ?_⟩
  intro j l' hij hj hx'
  have h2 := List.pairwise_iff_getElem.1 (List.pairwise_flatten.1 no_twice).2 i j (List.getElem?_eq_some_iff.1 h).1
    (List.getElem?_eq_some_iff.1 hj).1 hij
  rw [(List.getElem?_eq_some_iff.1 h).2, (List.getElem?_eq_some_iff.1 hj).2] at h2
  exact h2 x hx x hx' rfl

theorem call_known (aliases : List (List String)) (tables : List (List (Nat × String))) (hne : aliases ≠ []) (hl : ∀ l ∈ aliases, l ≠ [])
    (hcl : ∀ i l, aliases[i]? = some l → ∀ x ∈ l, InClass aliases i x) (hun : ∀ rows ∈ tables, Unambiguous rows)
    (abi i : Nat) (hi : index abi = some i) (rows : List (Nat × String)) (ht : tables[i]? = some rows) (nr : Nat) (name : String)
    (hm : (nr, name) ∈ rows) : ∃ shown : String, callName (create aliases tables).1 ((create aliases tables).2 + 1) abi nr = ("sys_" ++ shown).toList ∧
      SameCall aliases shown name := by
  obtain ⟨id, hid, hlt, hc⟩ := C51_listed aliases tables hne hl i rows ht nr name hm
  have inv := create_inv aliases tables hne hl
  have key := fun k hk => C51_only aliases tables hne hl k i nr hk
  have hby := C51_by_id_alias aliases tables hne hl
  generalize create aliases tables = m at *
  unfold callName
  rw [hi]
  simp only [Int.natCast_nonneg, decide_true, Bool.true_and, Int.toNat_natCast]
  cases hfd : (List.range (m.2 + 1)).find? fun id => (m.1.calls id i).contains nr with
  | none =>
    have := List.find?_eq_none.1 hfd id (List.mem_range.2 hlt)
    simp [hc] at this
  | some k =>
    have hk : nr ∈ m.1.calls k i := by simpa using List.find?_some hfd
    obtain ⟨rows', name', ht', hm', hf'⟩ := key k hk
    rw [ht] at ht'; cases ht'
    obtain rfl := hun rows (List.mem_of_getElem? ht) nr name name' hm hm'
    dsimp only
    rcases Nat.lt_or_ge k aliases.length with hlk | hlk
    · have hc2 := (inv.aliased name k hlk).1 hf'
      have hc3 := hc2
      obtain ⟨⟨l, hl1, hl2⟩, -⟩ := hc3
      cases l with
      | nil => cases hl2
      | cons x xs =>
        refine ⟨x, ?_, .inr ⟨k, hcl k _ hl1 x List.mem_cons_self, hc2⟩⟩
        rw [hby k x xs hl1]; rfl
    · refine ⟨name, ?_, .inl rfl⟩
      rw [(inv.origin name k hlk hf').2]; rfl

theorem name_known (abi i : Nat) (hi : index abi = some i) (rows : List (Nat × String)) (ht : allTables[i]? = some rows) (nr : Nat) (name : String)
    (hm : (nr, name) ∈ rows) : ∃ shown : String, faultName abi nr = "sys_".toList ++ shown.toList ∧ SameCall aliasFile shown name := by
  unfold faultName
  rw [if_neg (by omega)]
  obtain ⟨x, hx, h⟩ := call_known aliasFile allTables aliasFile_ok.1 aliasFile_ok.2 class_of (fun r hr => (C51_tables r hr).1) abi i hi rows ht nr name hm
  exact ⟨x, by rw [hx, String.toList_append], h⟩

theorem call_unknown (aliases : List (List String)) (tables : List (List (Nat × String))) (hne : aliases ≠ []) (hl : ∀ l ∈ aliases, l ≠ [])
    (abi i : Nat) (hi : index abi = some i) (rows : List (Nat × String)) (ht : tables[i]? = some rows) (nr : Nat)
    (hm : ∀ name, (nr, name) ∉ rows) : callName (create aliases tables).1 ((create aliases tables).2 + 1) abi nr = "unknown".toList := by
  have key := fun k hk => C51_only aliases tables hne hl k i nr hk
  generalize create aliases tables = m at *
  unfold callName
  rw [hi]
  simp only [Int.natCast_nonneg, decide_true, Bool.true_and, Int.toNat_natCast]
  cases hfd : (List.range (m.2 + 1)).find? fun id => (m.1.calls id i).contains nr with
  | none => rfl
  | some k =>
    obtain ⟨rows', name', ht', hm', -⟩ := key k (by simpa using List.find?_some hfd)
    rw [ht] at ht'; cases ht'
    exact absurd hm' (hm name')

theorem name_unknown (abi i : Nat) (hi : index abi = some i) (rows : List (Nat × String)) (ht : allTables[i]? = some rows) (nr : Nat)
    (hm : ∀ name, (nr, name) ∉ rows) : faultName abi nr = "unknown".toList := by
  unfold faultName
  rw [if_neg (by omega)]
  exact call_unknown aliasFile allTables aliasFile_ok.1 aliasFile_ok.2 abi i hi rows ht nr hm

theorem table_index (abi : Nat) (rows : List (Nat × String)) (h : tableOf abi = some rows) : ∃ i, index abi = some i ∧ allTables[i]? = some rows := by
  unfold tableOf at h
  split at h
  all_goals first
    | (injection h with h; subst h; exact ⟨_, rfl, rfl⟩)
    | (injection h)

/-- `C37_stdouterr` and the report is the only one. -/
theorem forbidden_fault (cfg : Cfg C) (hm : cfg.seccomp = true) (s : State) (hs : s.spawned = true) (hf : s.finished = false) (n : Seen) (pid : Nat)
    (v : View C) (hp : v.pre = .ok) (h : Forbids cfg v) (post : List (Stop C)) (hpost : NoCalls post) :
    (watch cfg s n (.sys pid v :: post)).2.fault = some (faultName v.abi v.nr) := by
  rw [watch, watch_keeps cfg post _ _ (fun e he pid v hev => hpost pid v (hev ▸ he))]
  apply note_last
  · intro k hk
    rw [show step cfg s (.sys pid v) = sysStep cfg s pid v by simp [step, hf]] at hk
    exact sys_reports cfg s pid v hp k hk
  · obtain ⟨rest, hr⟩ := C37_stdouterr cfg hm s hs hf pid v hp h
    rw [hr]
    exact .inr List.mem_cons_self

/-- A run up to a forbidden call, and what follows it. -/
theorem told_fault (cfg : Cfg C) (hm : cfg.seccomp = true) (a post : List (Stop C)) (pid : Nat) (v : View C)
    (hrun : Run cfg.main (.signal cfg.main 19 :: (a ++ .sys pid v :: post)) (a ++ .sys pid v :: post))
    (hsp : (watch cfg {} {} (.signal cfg.main 19 :: a)).1.spawned = true) (hp : v.pre = .ok) (h : Forbids cfg v) (hpost : NoCalls post) (e : Ended) (l : Limits) :
    (proc (watch cfg {} {} (.signal cfg.main 19 :: (a ++ .sys pid v :: post))) e l).fault = some (faultName v.abi v.nr) := by
  obtain ⟨s, h1, h2, -, -, hw⟩ := start_state cfg (a ++ .sys pid v :: post)
  obtain ⟨s', h1', h2', -, -, hw'⟩ := start_state cfg a
  show (watch cfg {} {} _).2.fault = _
  rw [← List.cons_append, watch_append]
  have hg : Stop.gone cfg.main ∉ a := fun hx => hrun.2 (List.mem_append_left _ hx)
  have hfin : (watch cfg {} {} (.signal cfg.main 19 :: a)).1.finished = false := by
    rw [hw']; exact (watch_first cfg a s' {} h1' h2' hg).2
  exact forbidden_fault cfg hm _ hsp hfin _ pid v hp h post hpost

end Ending

open Ending
variable {C : Type}

/-- **C105**: the signal noted when the program ends is the last its main thread was sent. -/
theorem C105_signal (cfg : Cfg C) (stops rest : List (Stop C)) (h : Run cfg.main stops rest) (n : Nat) (hn : Latest cfg.main n rest) :
    (watch cfg {} {} stops).2.signal = n := by
  obtain ⟨rfl, hg⟩ := h
  obtain ⟨h5, pre, post, rfl, hp⟩ := hn
  obtain ⟨s, h1, h2, -, -, hw⟩ := start_state cfg (pre ++ .signal cfg.main n :: post)
  rw [hw, (watch_signal cfg _ s {} h1 h2 hg).1, List.foldl_append, List.foldl_cons, after_quiet _ _ _ hp]
  simp [after, h5]

/-- **C105**: none is noted when it was sent none. -/
theorem C105_unsignalled (cfg : Cfg C) (stops rest : List (Stop C)) (h : Run cfg.main stops rest) (hn : Unsignalled cfg.main rest) :
    (watch cfg {} {} stops).2.signal = 0 := by
  obtain ⟨rfl, hg⟩ := h
  obtain ⟨s, h1, h2, -, -, hw⟩ := start_state cfg rest
  rw [hw, (watch_signal cfg _ s {} h1 h2 hg).1, after_quiet _ _ _ hn]

namespace Ending

theorem within_xcpu (cfg : Cfg C) (stops rest : List (Stop C)) (h : Run cfg.main stops rest) (hx : Stop.signal cfg.main 24 ∉ rest) :
    (watch cfg {} {} stops).2.xcpu = false := by
  obtain ⟨rfl, hg⟩ := h
  obtain ⟨s, h1, h2, -, -, hw⟩ := start_state cfg rest
  rw [hw, (watch_signal cfg _ s {} h1 h2 hg).2]
  simp only [Bool.false_or, List.any_eq_false]
  intro e he hxe
  cases e with
  | signal p n =>
    simp only [isX, decide_eq_true_eq] at hxe
    obtain ⟨rfl, rfl⟩ := hxe
    exact hx he
  | _ => simp [isX] at hxe

theorem feedback_quiet (strsignal : Nat → Str) (parse : Str → Feedback.Proc → Option Str) (err : Str) (p : Feedback.Proc) (h1 : parse err p = some [])
    (h2 : p.initialized = true) (h3 : Feedback.contains "error while loading shared libraries".toList err = false) (h4 : p.signal = 0) (h5 : p.fault = none) :
    Feedback.feedback strsignal parse err p = some [] := by
  unfold Feedback.feedback
  dsimp only
  generalize ((p.ir || p.rte) && !(p.tle || p.mle || p.ole)) = b
  rw [h1, h2, h3, h4, h5]
  cases b <;> rfl

theorem feedback_fault (strsignal : Nat → Str) (parse : Str → Feedback.Proc → Option Str) (err : Str) (p : Feedback.Proc) (call f : Str) (hc : p.fault = some call)
    (h : Feedback.feedback strsignal parse err p = some f) : f = Feedback.dropSys call ++ " syscall disallowed".toList := by
  unfold Feedback.feedback at h
  dsimp only at h
  split at h
  · exact nomatch h
  · rw [hc] at h
    exact (Option.some.inj h).symm

theorem unfaulted (cfg : Cfg C) (stops : List (Stop C)) (h : (watch cfg {} {} stops).1.faulted = false) : (watch cfg {} {} stops).2.fault = none := by
  have := watch_fault cfg stops {} {} (by simp)
  rw [h] at this
  simpa using this

theorem contains_infix (a : Str) : ∀ s : Str, Feedback.contains a s = true → a <:+: s
  | [], h => (List.isPrefixOf_iff_prefix.1 h).isInfix
  | c :: s, h => by
    rw [Feedback.contains, Bool.or_eq_true] at h
    rcases h with h | h
    · exact (List.isPrefixOf_iff_prefix.1 h).isInfix
    · exact (contains_infix a s h).trans (List.suffix_cons c s).isInfix

theorem mute_contains {parse : Str → Feedback.Proc → Option Str} {err : Str} (h : Mute parse err) :
    Feedback.contains "error while loading shared libraries".toList err = false := by
  rw [Bool.eq_false_iff]
  intro hc
  exact h.2 (contains_infix _ _ hc)

theorem told_signal (strsignal : Nat → Str) (parse : Str → Feedback.Proc → Option Str) (cfg : Cfg C) (stops rest : List (Stop C)) (h : Run cfg.main stops rest)
    (e : Ended) (l : Limits) (err : Str) (n : Nat) (h0 : n ≠ 0) (hl : Within cfg.main l rest) (hm : Mute parse err)
    (hs : (watch cfg {} {} stops).1.spawned = true) (hf : (watch cfg {} {} stops).1.faulted = false) (hsig : (watch cfg {} {} stops).2.signal = n)
    (he : returncode e ≠ 0) : told strsignal parse cfg stops e l err = some (strsignal n) := by
  have := (C69_failed strsignal parse err (proc (watch cfg {} {} stops) e l) (unfaulted cfg stops hf)
    (by simp only [proc, decide_eq_true_eq]; omega)
    ⟨by simp [proc, hl.1, within_xcpu cfg stops _ h hl.2.2.2], hl.2.1, hl.2.2.1⟩ [] (hm.1 _)).2.2 rfl hs (mute_contains hm) (by simp [proc, hs, hsig, h0])
  rw [told, this]
  simp [proc, hs, hsig]

end Ending

/-- **C105 (partial)**: when the main thread is killed by a signal, the name of the signal is told. Missing: signals acting in other threads, `SIGTRAP`, and
`SIGKILL`, which stops no thread (`C105_thread_fails`, `C105_trap_fails`, `C105_kill_fails`). -/
theorem C105_killed_partial (strsignal : Nat → Str) (parse : Str → Feedback.Proc → Option Str) (cfg : Cfg C) (stops rest : List (Stop C)) (h : Run cfg.main stops rest)
    (e : Ended) (l : Limits) (err : Str) (n : Nat) (h0 : n ≠ 0) (h5 : n ≠ 5) (hk : KilledBy cfg.main n rest e) (hl : Within cfg.main l rest) (hm : Mute parse err)
    (hs : (watch cfg {} {} stops).1.spawned = true) (hf : (watch cfg {} {} stops).1.faulted = false) :
    told strsignal parse cfg stops e l err = some (strsignal n) := by
  obtain ⟨rfl, pre, post, rfl, hp⟩ := hk
  exact told_signal strsignal parse cfg stops _ h _ l err n h0 hl hm hs hf (C105_signal cfg stops _ h n ⟨h5, pre, post, rfl, fun m hm => nomatch hp _ hm rfl⟩)
    (by simp only [returncode]; omega)

/-- **C105** (the end): a run is taken as an invalid return exactly if the program exited with a code other than zero, and as a runtime error exactly if a
signal ended it. -/
theorem C105_end (r : State × Seen) (e : Ended) (l : Limits) :
    ((proc r e l).ir = true ↔ ∃ c, e = .exited c ∧ c ≠ 0) ∧ ((proc r e l).rte = true ↔ ∃ n, e = .killed n ∧ n ≠ 0) := by
  cases e with
  | exited c =>
    refine ⟨⟨fun h => ⟨c, rfl, ?_⟩, ?_⟩, ⟨fun h => ?_, ?_⟩⟩
    · have : (c : Int) > 0 := of_decide_eq_true h
      omega
    · rintro ⟨_, ⟨⟩, h⟩
      exact decide_eq_true (show (c : Int) > 0 by omega)
    · have : (c : Int) < 0 := of_decide_eq_true h
      omega
    · rintro ⟨_, ⟨⟩, _⟩
  | killed n =>
    refine ⟨⟨fun h => ?_, ?_⟩, ⟨fun h => ⟨n, rfl, ?_⟩, ?_⟩⟩
    · have : -(n : Int) > 0 := of_decide_eq_true h
      omega
    · rintro ⟨_, ⟨⟩, _⟩
    · have : -(n : Int) < 0 := of_decide_eq_true h
      omega
    · rintro ⟨_, ⟨⟩, h⟩
      exact decide_eq_true (show -(n : Int) < 0 by omega)

/-- **C105**: a program that ends by itself with a code other than 0, and was sent no signal, has nothing told about signals. -/
theorem C105_quiet (strsignal : Nat → Str) (parse : Str → Feedback.Proc → Option Str) (cfg : Cfg C) (stops rest : List (Stop C)) (h : Run cfg.main stops rest)
    (e : Ended) (l : Limits) (err : Str) (hn : Unsignalled cfg.main rest) (hm : Mute parse err)
    (hs : (watch cfg {} {} stops).1.spawned = true) (hf : (watch cfg {} {} stops).1.faulted = false) :
    told strsignal parse cfg stops e l err = some [] := by
  have hsig := C105_unsignalled cfg stops rest h hn
  exact feedback_quiet strsignal parse err _ (hm.1 _) hs (mute_contains hm) (by simp [proc, hsig]) (unfaulted cfg stops hf)

/-- **C105**: a program killed for a call it may not make has the name of the call told, or another name of the same call. -/
theorem C105_disallowed (strsignal : Nat → Str) (parse : Str → Feedback.Proc → Option Str) (cfg : Cfg C) (hm : cfg.seccomp = true) (a post : List (Stop C)) (pid : Nat)
    (v : View C) (hrun : Run cfg.main (.signal cfg.main 19 :: (a ++ .sys pid v :: post)) (a ++ .sys pid v :: post))
    (hsp : (watch cfg {} {} (.signal cfg.main 19 :: a)).1.spawned = true) (hp : v.pre = .ok) (h : Forbids cfg v) (hpost : NoCalls post) (e : Ended) (l : Limits)
    (err : Str) (rows : List (Nat × String)) (ht : tableOf v.abi = some rows) (nr : Nat) (hnr : v.nr = nr) (name : String) (hrow : (nr, name) ∈ rows) (f : Str)
    (hf : told strsignal parse cfg (.signal cfg.main 19 :: (a ++ .sys pid v :: post)) e l err = some f) :
    ∃ shown : String, f = shown.toList ++ " syscall disallowed".toList ∧ SameCall aliasFile shown name := by
  obtain ⟨i, hi, hti⟩ := table_index v.abi rows ht
  obtain ⟨shown, hsh, hsame⟩ := name_known v.abi i hi rows hti nr name hrow
  have hfa := told_fault cfg hm a post pid v hrun hsp hp h hpost e l
  rw [hnr, hsh] at hfa
  exact ⟨shown, C69_fault strsignal parse err _ _ hfa f hf, hsame⟩

/-- The program of the examples: thread 7, calls of its own allowed as in the tables, number 41 not. -/
def Ending.cfg7 : Cfg Unit := { seccomp := true, tables := fun _ => ⟨fun n => if n = 0 then 1 else 0, fun _ => none⟩, noop := fun _ => 39, main := 7 }

theorem Ending.cfg7_forbids (v : View Unit) (h : v.nr = 41 ∨ v.nr = 567 ∨ v.nr = -1) : Forbids cfg7 v := by
  have hd : decideCall cfg7.isArm (cfg7.tables v.abi) v.nr = .deny := by rcases h with h | h | h <;> rw [h] <;> rfl
  constructor
  · rintro (h | ⟨h, _⟩ | ⟨c, h, _⟩) <;> exact nomatch hd.symm.trans h
  · rintro e ⟨c, h, _⟩
    exact nomatch hd.symm.trans h

/-- The program starts and is sent signal `n`. -/
def Ending.sent (n : Nat) : List (Stop Unit) := [.sys 7 { nr := 59 }, .trap 7 .plain, .sys 7 { nr := 0 }, .signal 7 n]

example : Mute (fun _ _ => some []) [] := ⟨fun _ => rfl, by decide⟩

example : Run 7 (.signal 7 19 :: sent 11) (sent 11) ∧ Latest 7 11 (sent 11) ∧ KilledBy 7 11 (sent 11) (.killed 11) ∧ Within 7 {} (sent 11) ∧
    (watch cfg7 {} {} (.signal 7 19 :: sent 11)).1.spawned = true ∧ (watch cfg7 {} {} (.signal 7 19 :: sent 11)).1.faulted = false :=
  ⟨⟨rfl, by simp [sent]⟩, ⟨by decide, [.sys 7 { nr := 59 }, .trap 7 .plain, .sys 7 { nr := 0 }], [], rfl, nofun⟩,
    ⟨rfl, [.sys 7 { nr := 59 }, .trap 7 .plain, .sys 7 { nr := 0 }], [], rfl, nofun⟩, ⟨rfl, rfl, rfl, by simp [sent]⟩, rfl, rfl⟩

/-- **C105**: a call the tables do not have is told as unknown. -/
theorem C105_unknown (strsignal : Nat → Str) (parse : Str → Feedback.Proc → Option Str) (cfg : Cfg C) (hm : cfg.seccomp = true) (a post : List (Stop C)) (pid : Nat)
    (v : View C) (hrun : Run cfg.main (.signal cfg.main 19 :: (a ++ .sys pid v :: post)) (a ++ .sys pid v :: post))
    (hsp : (watch cfg {} {} (.signal cfg.main 19 :: a)).1.spawned = true) (hp : v.pre = .ok) (h : Forbids cfg v) (hpost : NoCalls post) (e : Ended) (l : Limits)
    (err : Str) (rows : List (Nat × String)) (ht : tableOf v.abi = some rows) (nr : Nat) (hnr : v.nr = nr) (hrow : ∀ name, (nr, name) ∉ rows) (f : Str)
    (hf : told strsignal parse cfg (.signal cfg.main 19 :: (a ++ .sys pid v :: post)) e l err = some f) :
    f = "unknown syscall disallowed".toList := by
  obtain ⟨i, hi, hti⟩ := table_index v.abi rows ht
  have hfa := told_fault cfg hm a post pid v hrun hsp hp h hpost e l
  rw [hnr, name_unknown v.abi i hi rows hti nr hrow] at hfa
  rw [feedback_fault strsignal parse err _ _ f hfa hf]
  decide +kernel

/-- A call made after the start; numbers of x86-64. -/
def Ending.made (nr : Int) : List (Stop Unit) := [.sys 7 { nr := 59 }, .trap 7 .plain] ++ .sys 7 { nr := nr } :: [.trap 7 .exit]

example : Run cfg7.main (.signal 7 19 :: made 41) (made 41) ∧ (watch cfg7 {} {} [.signal 7 19, .sys 7 { nr := 59 }, .trap 7 .plain]).1.spawned = true ∧
    NoCalls ([.trap 7 .exit] : List (Stop Unit)) ∧ tableOf ({ nr := 41 } : View Unit).abi = some x64Table ∧ (41, "socket") ∈ x64Table ∧ ∀ name, (567, name) ∉ x64Table :=
  ⟨⟨rfl, by simp [made]⟩, rfl, nofun, rfl, by decide +kernel, by
    have : (567 : Nat) ∉ x64Table.map Prod.fst := by decide +kernel
    exact fun name h => this (List.mem_map.2 ⟨_, h, rfl⟩)⟩

/-! ## Where something else is told -/

/-- **C105 fails**: the judge itself sends signal 28 (`SIGWINCH`) each second to a running program (tracer.py:332-351); one that runs longer and then ends by
itself with code 1 is said to have ended by that signal ("window changed"). -/
theorem C105_window_fails (strsignal : Nat → Str) (parse : Str → Feedback.Proc → Option Str) (err : Str) (hm : Mute parse err) :
    ∃ (cfg : Cfg Unit) (stops rest : List (Stop Unit)), Run cfg.main stops rest ∧ (∀ p m, Stop.signal p m ∈ rest → m = 28) ∧
      told strsignal parse cfg stops (.exited 1) {} err = some (strsignal 28) := by
  have hr : Run cfg7.main (.signal 7 19 :: sent 28) (sent 28) := ⟨rfl, by simp [sent, cfg7]⟩
  refine ⟨cfg7, _, sent 28, hr, ?_, told_signal strsignal parse cfg7 _ _ hr _ {} err 28 (by decide) ⟨rfl, rfl, rfl, by simp [sent, cfg7]⟩ hm rfl rfl rfl (by decide)⟩
  intro p m h
  simp [sent] at h
  exact h.2

/-- **C105 fails**: `SIGKILL` stops no thread: a program killed by it, for example for want of memory, after a second has signal 28 told instead. -/
theorem C105_kill_fails (strsignal : Nat → Str) (parse : Str → Feedback.Proc → Option Str) (err : Str) (hm : Mute parse err) :
    ∃ (cfg : Cfg Unit) (stops rest : List (Stop Unit)), Run cfg.main stops rest ∧
      told strsignal parse cfg stops (.killed 9) {} err = some (strsignal 28) := by
  have hr : Run cfg7.main (.signal 7 19 :: sent 28) (sent 28) := ⟨rfl, by simp [sent, cfg7]⟩
  exact ⟨cfg7, _, sent 28, hr, told_signal strsignal parse cfg7 _ _ hr _ {} err 28 (by decide) ⟨rfl, rfl, rfl, by simp [sent, cfg7]⟩ hm rfl rfl rfl (by decide)⟩

/-- **C105 fails**: a program killed by signal 11 sent to a thread other than the main one has nothing told. -/
theorem C105_thread_fails (strsignal : Nat → Str) (parse : Str → Feedback.Proc → Option Str) (err : Str) (hm : Mute parse err) :
    ∃ (cfg : Cfg Unit) (stops rest : List (Stop Unit)) (p : Nat), Run cfg.main stops rest ∧ rest.getLast? = some (.signal p 11) ∧
      told strsignal parse cfg stops (.killed 11) {} err = some [] := by
  have hr : Run (C := Unit) cfg7.main (.signal 7 19 :: [.sys 7 { nr := 59 }, .trap 7 .plain, .trap 7 .clone, .signal 8 11])
    [.sys 7 { nr := 59 }, .trap 7 .plain, .trap 7 .clone, .signal 8 11] := ⟨rfl, by simp [cfg7]⟩
  refine ⟨cfg7, _, _, 8, hr, rfl, C105_quiet strsignal parse cfg7 _ _ hr _ {} err ?_ hm rfl rfl⟩
  intro m h
  simp [cfg7] at h

/-- **C105 fails**: one killed by `SIGTRAP`, of which the tracer thinks it is its own, has nothing told. -/
theorem C105_trap_fails (strsignal : Nat → Str) (parse : Str → Feedback.Proc → Option Str) (err : Str) (hm : Mute parse err) :
    ∃ (cfg : Cfg Unit) (stops rest : List (Stop Unit)), Run cfg.main stops rest ∧ KilledBy cfg.main 5 rest (.killed 5) ∧
      told strsignal parse cfg stops (.killed 5) {} err = some [] := by
  have hr : Run cfg7.main (.signal 7 19 :: sent 5) (sent 5) := ⟨rfl, by simp [sent, cfg7]⟩
  refine ⟨cfg7, _, _, hr, ⟨rfl, [.sys 7 { nr := 59 }, .trap 7 .plain, .sys 7 { nr := 0 }], [], rfl, nofun⟩, C105_quiet strsignal parse cfg7 _ _ hr _ {} err ?_ hm rfl rfl⟩
  intro m h
  simp [sent] at h
  exact h.2

/-- **C105 fails**: call number −1, which a program can make, is told as a failure of `ptrace`. -/
theorem C105_number_fails (strsignal : Nat → Str) (parse : Str → Feedback.Proc → Option Str) (err : Str) (f : Str)
    (h : told strsignal parse cfg7 (.signal 7 19 :: made (-1)) (.killed 9) {} err = some f) : f = "ptrace fail syscall disallowed".toList := by
  have hfa := told_fault cfg7 rfl [.sys 7 { nr := 59 }, .trap 7 .plain] [.trap 7 .exit] 7 { nr := -1 } ⟨rfl, by simp [cfg7]⟩ rfl rfl
    (cfg7_forbids _ (.inr (.inr rfl))) nofun (.killed 9) {}
  rw [feedback_fault strsignal parse err _ _ f hfa h]
  decide +kernel

end Verif.Props
