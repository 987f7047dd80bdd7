import Verif.Model.Settings
import Verif.Spec.Settings

/-!
# Settings take effect
-/

namespace Verif.Settings
open Verif.Spec.Settings

/-! ## The import system -/

theorem mem_allMods (m : Mod) : m ∈ allMods := by
  cases m <;> decide +kernel

/-- One step of a body. -/
def step (n : Nat) (m : Mod) (w : World) (s : Step) : Option World :=
  match s with
  | .imp m' => exec n w m'
  | .bind x => some { w with copies := (m, x, w.vars.look x) :: w.copies }
  | .read k => some { w with reads := (m, k, w.settings.get k) :: w.reads }

theorem exec_succ (n : Nat) (w : World) (m : Mod) :
    exec (n + 1) w m = if m ∈ w.begun then some w
      else (body m).foldlM (step n m) { w with begun := m :: w.begun } := by
  rw [exec]
  rfl

/-- Whatever holds before an import and is kept by beginning a body and by the reads and copies of modules not begun before holds
after it. -/
theorem exec_ind (B : List Mod) (P : World → Prop)
    (hb : ∀ w m, P w → m ∉ w.begun → P { w with begun := m :: w.begun })
    (hr : ∀ w m k, P w → m ∉ B → m ∈ w.begun → Step.read k ∈ body m →
      P { w with reads := (m, k, w.settings.get k) :: w.reads })
    (hc : ∀ w m x, P w → m ∉ B → Step.bind x ∈ body m → P { w with copies := (m, x, w.vars.look x) :: w.copies }) :
    ∀ n w m w', (∀ b ∈ B, b ∈ w.begun) → P w → exec n w m = some w' →
      P w' ∧ (∀ b ∈ w.begun, b ∈ w'.begun) ∧ m ∈ w'.begun := by
  intro n
  induction n with
  | zero => intro w m w' _ _ h; simp [exec] at h
  | succ n ih =>
    intro w m w' hB hP h
    rw [exec_succ] at h
    split at h
    · rename_i hm
      cases h
      exact ⟨hP, fun b hb => hb, hm⟩
    · rename_i hm
      have key : ∀ (l : List Step) (w1 : World), (∀ s ∈ l, s ∈ body m) → (∀ b ∈ w.begun, b ∈ w1.begun) → m ∈ w1.begun → P w1 →
          ∀ w', l.foldlM (step n m) w1 = some w' → P w' ∧ (∀ b ∈ w1.begun, b ∈ w'.begun) := by
        intro l
        induction l with
        | nil => intro w1 _ _ _ h1 w' h; cases h; exact ⟨h1, fun _ h => h⟩
        | cons s l il =>
          intro w1 hl hg hm1 h1 w' h
          rw [List.foldlM_cons] at h
          have hB1 : ∀ b ∈ B, b ∈ w1.begun := fun b hb => hg b (hB b hb)
          have hmB : m ∉ B := fun hc => hm (hB m hc)
          cases hs : step n m w1 s with
          | none => rw [hs] at h; cases h
          | some w2 =>
            rw [hs] at h
            have h2 : P w2 ∧ (∀ b ∈ w1.begun, b ∈ w2.begun) := by
              cases s with
              | imp m' =>
                have := ih w1 m' w2 hB1 h1 hs
                exact ⟨this.1, this.2.1⟩
              | bind x =>
                cases hs
                exact ⟨hc w1 m x h1 hmB (hl _ (by simp)), fun _ h => h⟩
              | read k =>
                cases hs
                exact ⟨hr w1 m k h1 hmB hm1 (hl _ (by simp)), fun _ h => h⟩
            have := il w2 (fun s hs => hl s (by simp [hs])) (fun b hb => h2.2 b (hg b hb)) (h2.2 m hm1) h2.1 w' h
            exact ⟨this.1, fun b hb => this.2 b (h2.2 b hb)⟩
      have := key (body m) _ (fun s h => h) (fun b hb => by simp [hb]) (by simp) (hb w m hP hm) w' h
      exact ⟨this.1, fun b hb => this.2 b (by simp [hb]), this.2 m (by simp)⟩

/-- The same for a list of imports. -/
theorem loads_ind (B : List Mod) (P : World → Prop)
    (hb : ∀ w m, P w → m ∉ w.begun → P { w with begun := m :: w.begun })
    (hr : ∀ w m k, P w → m ∉ B → m ∈ w.begun → Step.read k ∈ body m →
      P { w with reads := (m, k, w.settings.get k) :: w.reads })
    (hc : ∀ w m x, P w → m ∉ B → Step.bind x ∈ body m → P { w with copies := (m, x, w.vars.look x) :: w.copies }) :
    ∀ (l : List Mod) w w', (∀ b ∈ B, b ∈ w.begun) → P w → l.foldlM load w = some w' →
      P w' ∧ (∀ b ∈ w.begun, b ∈ w'.begun) ∧ ∀ m ∈ l, m ∈ w'.begun := by
  intro l
  induction l with
  | nil => intro w w' _ hP h; cases h; exact ⟨hP, fun _ h => h, by simp⟩
  | cons m l ih =>
    intro w w' hB hP h
    rw [List.foldlM_cons] at h
    cases hm : load w m with
    | none => rw [hm] at h; cases h
    | some w1 =>
      rw [hm] at h
      have h1 := exec_ind B P hb hr hc _ w m w1 hB hP hm
      have h2 := ih w1 w' (fun b hb => h1.2.1 b (hB b hb)) h1.1 h
      refine ⟨h2.1, fun b hb => h2.2.1 b (h1.2.1 b hb), ?_⟩
      intro x hx
      rcases List.mem_cons.1 hx with rfl | hx
      · exact h2.2.1 _ h1.2.2
      · exact h2.2.2 x hx

theorem filter_le {l : List Mod} {a b : List Mod} (h : ∀ x ∈ a, x ∈ b) :
    (l.filter fun x => x ∉ b).length ≤ (l.filter fun x => x ∉ a).length := by
  induction l with
  | nil => simp
  | cons x l ih =>
    by_cases hb : x ∈ b <;> by_cases ha : x ∈ a
    · simpa [hb, ha] using ih
    · simp [hb, ha]; simp at ih; omega
    · exact absurd (h x ha) hb
    · simpa [hb, ha] using ih

theorem filter_lt {l : List Mod} {a : List Mod} {m : Mod} (hm : m ∉ a) (h : m ∈ l) :
    (l.filter fun x => x ∉ m :: a).length < (l.filter fun x => x ∉ a).length := by
  induction l with
  | nil => simp at h
  | cons x l ih =>
    by_cases hx : x = m
    · subst hx
      have := filter_le (l := l) (a := a) (b := x :: a) (fun y hy => by simp [hy])
      simp [hm]; simp at this; omega
    · have := ih (by simpa [Ne.symm hx] using h)
      by_cases ha : x ∈ a
      · simpa [ha, hx] using this
      · simp [ha, hx]; simp at this; omega

/-- With as many nested imports as there are modules left the import comes to an end. -/
theorem exec_total : ∀ n w m, (allMods.filter fun x => x ∉ w.begun).length < n → ∃ w', exec n w m = some w' := by
  intro n
  induction n with
  | zero => intro w m h; omega
  | succ n ih =>
    intro w m h
    rw [exec_succ]
    split
    · exact ⟨_, rfl⟩
    · rename_i hm
      have hlt := filter_lt hm (mem_allMods m)
      have key : ∀ (l : List Step) (w1 : World), (allMods.filter fun x => x ∉ w1.begun).length < n →
          ∃ w', l.foldlM (step n m) w1 = some w' := by
        intro l
        induction l with
        | nil => intro w1 _; exact ⟨_, rfl⟩
        | cons s l il =>
          intro w1 h1
          rw [List.foldlM_cons]
          cases s with
          | imp m' =>
            obtain ⟨w2, h2⟩ := ih w1 m' h1
            have hg := exec_ind [] (fun _ => True) (by simp) (by simp) (by simp) n w1 m' w2 (by simp) trivial h2
            have := filter_le (l := allMods) hg.2.1
            obtain ⟨w', h'⟩ := il w2 (by omega)
            refine ⟨w', ?_⟩
            have : step n m w1 (.imp m') = some w2 := h2
            rw [this]
            exact h'
          | bind x => exact il _ h1
          | read k => exact il _ h1
      exact key (body m) _ (by
        show (allMods.filter fun x => x ∉ m :: w.begun).length < n
        omega)

theorem load_total (w : World) (m : Mod) : ∃ w', load w m = some w' := by
  have h : ∀ k, k = allMods.length → (allMods.filter fun x => x ∉ w.begun).length < k + 1 := by
    intro k hk
    have := List.length_filter_le (fun x => decide (x ∉ w.begun)) allMods
    omega
  unfold load
  generalize hk : allMods.length = k
  exact exec_total _ w m (h k hk.symm)

theorem loads_total (l : List Mod) : ∀ w, ∃ w', l.foldlM load w = some w' := by
  induction l with
  | nil => intro w; exact ⟨_, rfl⟩
  | cons m l ih =>
    intro w
    obtain ⟨w1, h1⟩ := load_total w m
    obtain ⟨w', h'⟩ := ih w1
    exact ⟨w', by rw [List.foldlM_cons, h1]; exact h'⟩

/-- All reads of the body of the module were made. -/
def Done (w : World) (m : Mod) : Prop :=
  ∀ k, Step.read k ∈ body m → ∃ v, (m, k, v) ∈ w.reads

theorem exec_done : ∀ n w m w', exec n w m = some w' →
    (∀ r ∈ w.reads, r ∈ w'.reads) ∧ (∀ x ∈ w'.begun, x ∈ w.begun ∨ Done w' x) := by
  intro n
  induction n with
  | zero => intro w m w' h; simp [exec] at h
  | succ n ih =>
    intro w m w' h
    rw [exec_succ] at h
    split at h
    · cases h
      exact ⟨fun _ h => h, fun _ h => .inl h⟩
    · have key : ∀ (l : List Step) (w1 w' : World), l.foldlM (step n m) w1 = some w' →
          (∀ r ∈ w1.reads, r ∈ w'.reads) ∧ (∀ x ∈ w'.begun, x ∈ w1.begun ∨ Done w' x) ∧
          (∀ k, Step.read k ∈ l → ∃ v, (m, k, v) ∈ w'.reads) := by
        intro l
        induction l with
        | nil => intro w1 w' h; cases h; exact ⟨fun _ h => h, fun _ h => .inl h, by simp⟩
        | cons s l il =>
          intro w1 w' h
          rw [List.foldlM_cons] at h
          cases hs : step n m w1 s with
          | none => rw [hs] at h; cases h
          | some w2 =>
            rw [hs] at h
            obtain ⟨g1, g2, g3⟩ := il w2 w' h
            have h2 : (∀ r ∈ w1.reads, r ∈ w2.reads) ∧ (∀ x ∈ w2.begun, x ∈ w1.begun ∨ Done w2 x) ∧
                (∀ k, s = .read k → ∃ v, (m, k, v) ∈ w2.reads) := by
              cases s with
              | imp m' =>
                have := ih w1 m' w2 hs
                exact ⟨this.1, this.2, by simp⟩
              | bind x => cases hs; exact ⟨fun _ h => h, fun _ h => .inl h, by simp⟩
              | read k =>
                cases hs
                refine ⟨fun _ h => List.mem_cons_of_mem _ h, fun _ h => .inl h, ?_⟩
                intro k' hk
                cases hk
                exact ⟨_, List.mem_cons_self⟩
            refine ⟨fun r hr => g1 r (h2.1 r hr), ?_, ?_⟩
            · intro x hx
              rcases g2 x hx with hx | hx
              · rcases h2.2.1 x hx with hx | hx
                · exact .inl hx
                · refine .inr fun k hk => ?_
                  obtain ⟨v, hv⟩ := hx k hk
                  exact ⟨v, g1 _ hv⟩
              · exact .inr hx
            · intro k hk
              rcases List.mem_cons.1 hk with hk | hk
              · obtain ⟨v, hv⟩ := h2.2.2 k hk.symm
                exact ⟨v, g1 _ hv⟩
              · exact g3 k hk
      obtain ⟨g1, g2, g3⟩ := key (body m) _ w' h
      refine ⟨g1, fun x hx => ?_⟩
      rcases g2 x hx with hx | hx
      · rcases List.mem_cons.1 hx with rfl | hx
        · exact .inr g3
        · exact .inl hx
      · exact .inr hx

theorem loads_done (l : List Mod) : ∀ w w', l.foldlM load w = some w' → (∀ x ∈ w.begun, Done w x) →
    ∀ x ∈ w'.begun, Done w' x := by
  induction l with
  | nil => intro w w' h hd; cases h; exact hd
  | cons m l ih =>
    intro w w' h hd
    rw [List.foldlM_cons] at h
    cases hm : load w m with
    | none => rw [hm] at h; cases h
    | some w1 =>
      rw [hm] at h
      have := exec_done _ w m w1 hm
      refine ih w1 w' h fun x hx => ?_
      rcases this.2 x hx with hx | hx
      · intro k hk
        obtain ⟨v, hv⟩ := hd x hx k hk
        exact ⟨v, this.1 _ hv⟩
      · exact hx

/-! ## Entry -/

/-- What the entry of every program reads: the three defaults of the bridged checker. -/
def early : List (Mod × String × Option Value) :=
  [(.checkers_bridged, "generator_compiler_limit", none), (.checkers_bridged, "generator_memory_limit", some (.int 524288)),
   (.checkers_bridged, "generator_time_limit", some (.int 20))]

theorem entry_world (p : Program) : ∃ w, (entry p).foldlM load fresh = some w ∧ w.settings = defaults ∧ w.vars = vars0 ∧
    w.reads = early ∧ .checkers_bridged ∈ w.begun ∧ ∀ c ∈ w.copies, c.2.1 ∉ assigned ∧ c.2.2 = vars0.look c.2.1 := by
  have h : ((entry p).foldlM load fresh).any (fun w => decide (w.settings = defaults ∧ w.vars = vars0 ∧
      w.reads = early ∧ .checkers_bridged ∈ w.begun ∧ ∀ c ∈ w.copies, c.2.1 ∉ assigned ∧ c.2.2 = vars0.look c.2.1)) = true := by
    cases p <;> decide +kernel
  cases hw : (entry p).foldlM load fresh with
  | none => rw [hw] at h; simp at h
  | some w => rw [hw] at h; exact ⟨w, rfl, by simpa using h⟩

/-- Everything the theorems need to know of a finished run. -/
theorem run_facts {p : Program} {docs : List Map} {vars : Map} {later : List Mod} {w : World}
    (h : run p docs vars later = some w) :
    w.settings = docs.foldl Map.update defaults ∧
    w.vars = vars0.update (vars.filter fun e => e.1 ∈ assigned) ∧
    (∀ r ∈ w.reads, r ∈ early ∨ (r.1 ≠ .checkers_bridged ∧ r.2.2 = w.settings.get r.2.1)) ∧
    (∀ c ∈ w.copies, (c.2.1 ∉ assigned ∧ c.2.2 = vars0.look c.2.1) ∨ c.2.2 = w.vars.look c.2.1) ∧
    (∀ m ∈ w.begun, Done w m) ∧ (∀ m ∈ later, m ∈ w.begun) ∧ (∀ m ∈ entry p, m ∈ w.begun) ∧
    (∀ r ∈ early, r ∈ w.reads) ∧ .checkers_bridged ∈ w.begun := by
  obtain ⟨w0, h0, hs, hv, hr, hb, hc⟩ := entry_world p
  unfold run at h
  rw [h0] at h
  change later.foldlM load (loadEnv docs vars w0) = some w at h
  have hd0 := loads_done (entry p) fresh w0 h0 (by simp [fresh])
  have he := (loads_ind [] (fun _ => True) (by simp) (by simp) (by simp) (entry p) fresh w0 (by simp) trivial h0).2.2
  have hd := loads_done later _ w h (by
    intro x hx k hk
    exact hd0 x hx k hk)
  have key := loads_ind [.checkers_bridged] (fun w =>
      w.settings = docs.foldl Map.update defaults ∧
      w.vars = vars0.update (vars.filter fun e => e.1 ∈ assigned) ∧
      (∀ r ∈ w.reads, r ∈ early ∨ (r.1 ≠ .checkers_bridged ∧ r.2.2 = w.settings.get r.2.1)) ∧
      (∀ c ∈ w.copies, (c.2.1 ∉ assigned ∧ c.2.2 = vars0.look c.2.1) ∨ c.2.2 = w.vars.look c.2.1) ∧
      (∀ r ∈ early, r ∈ w.reads))
    (fun w m hP _ => hP)
    (fun w m k hP hm _ _ => ⟨hP.1, hP.2.1, fun r hr => by
      rcases List.mem_cons.1 hr with rfl | hr
      · exact .inr ⟨by simpa using hm, rfl⟩
      · exact hP.2.2.1 r hr, hP.2.2.2.1, fun r hr => List.mem_cons_of_mem _ (hP.2.2.2.2 r hr)⟩)
    (fun w m x hP _ _ => ⟨hP.1, hP.2.1, hP.2.2.1, fun c hc => by
      rcases List.mem_cons.1 hc with rfl | hc
      · exact .inr rfl
      · exact hP.2.2.2.1 c hc, hP.2.2.2.2⟩)
    later (loadEnv docs vars w0) w (by simpa [loadEnv] using hb)
    ⟨by simp [loadEnv, hs], by simp [loadEnv, hv], fun r h => .inl (by simpa [loadEnv, hr] using h),
      fun c h => .inl (hc c h), fun r h => by simpa [loadEnv, hr] using h⟩ h
  exact ⟨key.1.1, key.1.2.1, key.1.2.2.1, key.1.2.2.2.1, hd, key.2.2, fun m hm => key.2.1 m (he m hm), key.1.2.2.2.2,
    key.2.1 _ hb⟩

/-! ## The mapping -/

theorem look_eq (d : Map) (k : String) : d.look k = List.lookup k d := by
  induction d with
  | nil => rfl
  | cons e d ih =>
    obtain ⟨a, v⟩ := e
    rw [List.lookup_cons]
    by_cases h : a = k
    · subst h; simp [Map.look]
    · have : (k == a) = false := by simpa using fun hc => h hc.symm
      rw [this, ← ih]
      simp [Map.look, h]

theorem lookup_append (k : String) (a b : Map) : List.lookup k (a ++ b) = (List.lookup k a).or (List.lookup k b) := by
  induction a with
  | nil => simp
  | cons e a ih =>
    obtain ⟨x, v⟩ := e
    rw [List.cons_append, List.lookup_cons, List.lookup_cons, ih]
    cases k == x <;> rfl

theorem look_update (d e : Map) (k : String) : (d.update e).look k = (e.look k).or (d.look k) := by
  rw [look_eq, look_eq, look_eq, Map.update, lookup_append]

theorem look_foldl (docs : List Map) (d : Map) (k : String) :
    (docs.foldl Map.update d).look k = meant d docs k := by
  induction docs generalizing d with
  | nil => simp [meant, look_eq]
  | cons e docs ih =>
    rw [List.foldl_cons, ih, meant, meant, List.reverse_cons, List.filterMap_append]
    have : List.lookup k (d.update e) = (List.lookup k e).or (List.lookup k d) := lookup_append k e d
    rw [this]
    cases (docs.reverse.filterMap (List.lookup k)) with
    | nil => cases h : List.lookup k e <;> simp [h]
    | cons x l => simp

/-- The value meant, null being none. -/
def wish (docs : List Map) (k : String) : Option Value :=
  (meant defaults docs k).filter (· ≠ .null)

theorem get_eq (d : Map) (k : String) : d.get k = (d.look k).filter (· ≠ .null) := by
  unfold Map.get
  split
  · rename_i h; simp [h, Option.filter]
  · rename_i h
    cases hv : d.look k with
    | none => rfl
    | some v =>
      have : v ≠ .null := fun hc => h (by rw [hv, hc])
      simp [this, Option.filter]

theorem settings_get {p : Program} {docs : List Map} {vars : Map} {later : List Mod} {w : World}
    (h : run p docs vars later = some w) (k : String) : w.settings.get k = wish docs k := by
  rw [get_eq, (run_facts h).1, look_foldl, wish]

theorem found_of {w : World} {m : Mod} {k : String} {v : Option Value} (hex : ∃ u, (m, k, u) ∈ w.reads)
    (hall : ∀ r ∈ w.reads, r.1 = m → r.2.1 = k → r.2.2 = v) : w.found m k = v := by
  unfold World.found
  cases hf : w.reads.find? fun r => r.1 = m ∧ r.2.1 = k with
  | none =>
    obtain ⟨u, hu⟩ := hex
    have := List.find?_eq_none.1 hf _ hu
    simp at this
  | some r =>
    have h1 := List.mem_of_find?_eq_some hf
    have h2 := List.find?_some hf
    simp at h2
    simp [hall r h1 h2.1 h2.2]

/-- The number a value is. -/
def num : Option Value → Option Int
  | some (.int n) => some n
  | _ => none

theorem limit_orElse (a b : Option Value) (h : ∀ n, a ≠ some (.other n)) :
    limit (orElse a b) = wanted (num a) (num b) := by
  have hl : ∀ b, limit b = (num b).filter (· ≠ 0) := by
    intro b
    unfold limit num
    split
    · rename_i n
      by_cases hn : n = 0 <;> simp [hn, Option.filter]
    · rename_i hb
      split
      · rename_i n; exact absurd rfl (hb n)
      · rfl
  rw [wanted, ← hl, ← hl]
  match a, h with
  | none, _ => rfl
  | some .null, _ => rfl
  | some (.int n), _ =>
    by_cases hn : n = 0 <;> simp [orElse, limit, hn]
  | some (.other n), h => exact absurd rfl (h n)

theorem get_other {d : Map} {k : String} (h : ∀ n, d.look k ≠ some (.other n)) : ∀ n, d.get k ≠ some (.other n) := by
  intro n hc
  unfold Map.get at hc
  split at hc
  · cases hc
  · exact h n hc

theorem num_get (d : Map) (k : String) : num (d.get k) = num (d.look k) := by
  unfold Map.get
  split
  · rename_i h; rw [h]; rfl
  · rfl

theorem num_wish (docs : List Map) (k : String) : num (wish docs k) = num (meant defaults docs k) := by
  unfold wish
  match meant defaults docs k with
  | none => rfl
  | some .null => rfl
  | some (.int _) => rfl
  | some (.other _) => rfl

/-! ## The property -/

/-- Every program comes to its end of importing, whatever is imported later and in whatever order, and everything asked for was
imported. -/
theorem C106_imports (p : Program) (docs : List Map) (vars : Map) (later : List Mod) :
    ∃ w, run p docs vars later = some w ∧ (∀ m ∈ entry p, m ∈ w.begun) ∧ ∀ m ∈ later, m ∈ w.begun := by
  obtain ⟨w0, h0, _⟩ := entry_world p
  obtain ⟨w, h⟩ := loads_total later (loadEnv docs vars w0)
  have hr : run p docs vars later = some w := by
    unfold run
    rw [h0]
    exact h
  exact ⟨w, hr, (run_facts hr).2.2.2.2.2.2.1, (run_facts hr).2.2.2.2.2.1⟩

/-- Whatever is configured, in whatever documents, and whichever executors and other modules are imported in whatever order: a setting
read by the body of a module other than the bridged checker is the one configured last, or else the default.
Missing: the bridged checker, see `C106_checker_fails`. -/
theorem C106_settings_partial (p : Program) (docs : List Map) (vars : Map) (later : List Mod) (w : World)
    (h : run p docs vars later = some w) (m : Mod) (hm : m ∈ w.begun) (hb : m ≠ .checkers_bridged)
    (k : String) (hk : Step.read k ∈ body m) :
    w.found m k = (meant defaults docs k).filter (· ≠ .null) := by
  have hf := run_facts h
  refine found_of (hf.2.2.2.2.1 m hm k hk) fun r hr h1 h2 => ?_
  rcases hf.2.2.1 r hr with he | ⟨_, he⟩
  · have : ∀ r ∈ early, r.1 = .checkers_bridged := by decide
    exact absurd (h1.symm.trans (this r he)) hb
  · rw [he, h2]
    exact settings_get h k

/-- A setting read inside a function is the one configured last, or else the default, whenever the function is called after
`load_env`. -/
theorem C106_late (p : Program) (docs : List Map) (vars : Map) (later : List Mod) (w : World)
    (h : run p docs vars later = some w) (k : String) :
    w.settings.get k = (meant defaults docs k).filter (· ≠ .null) :=
  settings_get h k

theorem vars_look {p : Program} {docs : List Map} {vars : Map} {later : List Mod} {w : World} (h : run p docs vars later = some w) (x : String) :
    w.vars.look x = if x ∈ assigned then (List.lookup x vars).or (List.lookup x vars0) else List.lookup x vars0 := by
  have hf := run_facts h
  have hfl : List.lookup x (vars.filter fun e => e.1 ∈ assigned) = if x ∈ assigned then List.lookup x vars else none := by
    clear hf h
    induction vars with
    | nil => simp
    | cons e l ih =>
      obtain ⟨a, u⟩ := e
      by_cases ha : a ∈ assigned
      · rw [List.filter_cons_of_pos (by simpa using ha), List.lookup_cons, List.lookup_cons, ih]
        by_cases hx : x = a
        · subst hx; simp [ha]
        · have : (x == a) = false := by simpa using hx
          rw [this]
      · rw [List.filter_cons_of_neg (by simpa using ha), ih, List.lookup_cons]
        by_cases hx : x = a
        · subst hx; simp [ha]
        · have : (x == a) = false := by simpa using hx
          rw [this]
  rw [hf.2.1, look_update, look_eq, look_eq, hfl]
  by_cases hx : x ∈ assigned <;> simp [hx]

/-- The options of TLS are what the command line says; where it cannot say anything (a Python without `ssl`, the interactive judge, the testsuite), the
connection is plain and certificates, if any, are checked: both are `False`. -/
theorem C106_tls (p : Program) (docs : List Map) (vars : Map) (later : List Mod) (w : World) (h : run p docs vars later = some w) (x : String)
    (hx : x = "secure" ∨ x = "no_cert_check") :
    (∀ v, List.lookup x vars = some v → w.vars.look x = some v) ∧ (List.lookup x vars = none → w.vars.look x = some (.other 2)) := by
  have ha : x ∈ assigned := by rcases hx with rfl | rfl <;> decide
  have h0 : List.lookup x vars0 = some (.other 2) := by rcases hx with rfl | rfl <;> decide +kernel
  rw [vars_look h x, if_pos ha, h0]
  constructor
  · intro v hv; rw [hv]; rfl
  · intro hv; rw [hv]; rfl

example : (run .judge [] [("secure", .other 20)] []).any (fun w => w.vars.look "secure" = some (.other 20) ∧ w.vars.look "no_cert_check" = some (.other 2)) := by
  decide +kernel

/-- The copy of a variable of judgeenv.py in any module, whenever made, is the variable as the command line left it: those copied
before the command line was looked at are never assigned again. -/
theorem C106_options (p : Program) (docs : List Map) (vars : Map) (later : List Mod) (w : World)
    (h : run p docs vars later = some w) (m : Mod) (x : String) (v : Option Value) (hc : (m, x, v) ∈ w.copies) :
    v = w.vars.look x ∧
    w.vars.look x = if x ∈ assigned then (List.lookup x vars).or (List.lookup x vars0) else List.lookup x vars0 := by
  have hf := run_facts h
  have hl := vars_look h x
  refine ⟨?_, hl⟩
  rcases hf.2.2.2.1 _ hc with ⟨h1, h2⟩ | h1
  · rw [hl, if_neg h1]
    exact h2.trans (look_eq _ _)
  · exact h1

/-- Submissions are compiled within the configured time. -/
theorem C106_submission (p : Program) (docs : List Map) (vars : Map) (later : List Mod) (w : World)
    (h : run p docs vars later = some w) (hm : .executors_compiled_executor ∈ w.begun) (n : Int) (hn : n ≠ 0)
    (hc : meant defaults docs "compiler_time_limit" = some (.int n)) :
    submissionCompileLimit w = some n := by
  unfold submissionCompileLimit
  rw [C106_settings_partial p docs vars later w h _ hm (by decide) _ (by decide), hc]
  simp [Option.filter, limit, hn]

/-- A generator runs and is compiled within what the problem asks for, else within what is configured. -/
theorem C106_generator (p : Program) (docs : List Map) (vars : Map) (later : List Mod) (w : World)
    (h : run p docs vars later = some w) (gen : Map)
    (hg : ∀ k ∈ ["time_limit", "memory_limit", "compiler_time_limit"], ∀ n, gen.look k ≠ some (.other n)) :
    generatorLimits w gen =
      ⟨wanted (num (gen.look "time_limit")) (num (meant defaults docs "generator_time_limit")),
       wanted (num (gen.look "memory_limit")) (num (meant defaults docs "generator_memory_limit")),
       wanted (num (gen.look "compiler_time_limit")) (num (meant defaults docs "generator_compiler_time_limit"))⟩ := by
  unfold generatorLimits
  rw [limit_orElse _ _ (get_other (hg _ (by simp))), limit_orElse _ _ (get_other (hg _ (by simp))),
    limit_orElse _ _ (get_other (hg _ (by simp))), settings_get h, settings_get h, settings_get h,
    num_get, num_get, num_get, num_wish, num_wish, num_wish]

/-- An empty list or mapping in the problem asks for nothing: what is configured is in force. -/
theorem C106_generator_empty (p : Program) (docs : List Map) (vars : Map) (later : List Mod) (w : World)
    (h : run p docs vars later = some w) (gen : Map) (n : Nat) (hn : n ≤ 1) (hg : gen.look "time_limit" = some (.other n)) :
    (generatorLimits w gen).time = wanted none (num (meant defaults docs "generator_time_limit")) := by
  have hl : ∀ b, limit b = wanted none (num b) := by
    intro b
    have := limit_orElse none b (fun _ h => nomatch h)
    simpa [orElse, num] using this
  have hget : gen.get "time_limit" = some (.other n) := by simp [Map.get, hg]
  have ho : orElse (gen.get "time_limit") (w.settings.get "generator_time_limit") = w.settings.get "generator_time_limit" := by
    rw [hget]
    exact if_pos (by omega)
  unfold generatorLimits
  simp only [ho]
  rw [settings_get h, hl, num_wish]

/-- An interactor has the memory the problem asks for, else what is configured. -/
theorem C106_interactor (p : Program) (docs : List Map) (vars : Map) (later : List Mod) (w : World)
    (h : run p docs vars later = some w) (data : Map) (time : Int)
    (hd : ∀ n, data.look "memory_limit" ≠ some (.other n)) :
    (interactorLimits w data time).memory =
      wanted (num (data.look "memory_limit")) (num (meant defaults docs "generator_memory_limit")) := by
  unfold interactorLimits
  rw [limit_orElse _ _ (get_other hd), settings_get h, num_get, num_wish]

/-- An interactor has the time of the submission and the time the problem asks for on top, two seconds if it asks for none: more than the
submission in any case. -/
theorem C106_interactor_time (w : World) (data : Map) (time : Int) (ht : 0 < time)
    (hd : ∀ n, data.look "preprocessing_time" ≠ some (.other n)) (hn : ∀ n, num (data.look "preprocessing_time") = some n → 0 ≤ n) :
    ∃ more, wanted (num (data.look "preprocessing_time")) (some 2) = some more ∧ 0 < more ∧
      (interactorLimits w data time).time = some (time + more) := by
  have hg := get_other hd
  rw [← num_get] at hn ⊢
  unfold interactorLimits
  generalize data.get "preprocessing_time" = v at *
  have two : ((2 : Int) + time) ≠ 0 := by omega
  rcases v with _ | _ | n | n
  · exact ⟨2, rfl, by decide, by simp [orElse, limit, two]; omega⟩
  · exact ⟨2, rfl, by decide, by simp [orElse, limit, two]; omega⟩
  · have h0 : 0 ≤ n := hn n rfl
    by_cases hz : n = 0
    · subst hz
      exact ⟨2, rfl, by decide, by simp [orElse, limit, two]; omega⟩
    · have hs : n + time ≠ 0 := by omega
      refine ⟨n, by simp [wanted, num, hz], by omega, ?_⟩
      simp [orElse, limit, hz, hs]; omega
  · exact absurd rfl (hg n)

/-- An interactor for which the problem gives no time to compile within is compiled without any limit, whatever is configured. -/
theorem C106_interactor_compile_fails (w : World) (data : Map) (time : Int)
    (hd : data.look "compiler_time_limit" = none) :
    (interactorLimits w data time).compile = none := by
  simp [interactorLimits, Map.get, hd, limit]

theorem checker_found {p : Program} {docs : List Map} {vars : Map} {later : List Mod} {w : World}
    (h : run p docs vars later = some w) (k : String) (hk : Step.read k ∈ body .checkers_bridged) :
    w.found .checkers_bridged k = defaults.get k := by
  have hf := run_facts h
  refine found_of (hf.2.2.2.2.1 _ hf.2.2.2.2.2.2.2.2 k hk) fun r hr h1 h2 => ?_
  rcases hf.2.2.1 r hr with he | ⟨hne, _⟩
  · have : ∀ r ∈ early, r.2.2 = defaults.get r.2.1 := by decide +kernel
    rw [this r he, h2]
  · exact absurd h1 hne

/-- A bridged checker for which the problem gives no limits runs within 20 seconds and 512 megabytes and is compiled without any limit
of time: whatever is configured, in whichever program. -/
theorem C106_checker_fails (p : Program) (docs : List Map) (vars : Map) (later : List Mod) (w : World)
    (h : run p docs vars later = some w) :
    checkerLimits w [] = ⟨some 20, some 524288, none⟩ := by
  have h1 := checker_found h "generator_time_limit" (by decide)
  have h2 := checker_found h "generator_memory_limit" (by decide)
  have h3 := checker_found h "generator_compiler_limit" (by decide)
  simp only [checkerLimits, Map.look, List.find?_nil, Option.map_none, h1, h2, h3]
  decide +kernel

/-- A limit the problem gives is used for the checker; and one of time or memory that is not configured is the default. Missing: what
is configured otherwise, and the time to compile within, see `C106_checker_fails`. -/
theorem C106_checker_partial (p : Program) (docs : List Map) (vars : Map) (later : List Mod) (w : World)
    (h : run p docs vars later = some w) (args : Map) :
    (∀ v, args.look "time_limit" = some v → (checkerLimits w args).time = limit (some v)) ∧
    (∀ v, args.look "memory_limit" = some v → (checkerLimits w args).memory = limit (some v)) ∧
    (∀ v, args.look "compiler_time_limit" = some v → (checkerLimits w args).compile = limit (some v)) ∧
    (args.look "time_limit" = none → (∀ d ∈ docs, List.lookup "generator_time_limit" d = none) →
      (checkerLimits w args).time = wanted none (num (meant defaults docs "generator_time_limit"))) ∧
    (args.look "memory_limit" = none → (∀ d ∈ docs, List.lookup "generator_memory_limit" d = none) →
      (checkerLimits w args).memory = wanted none (num (meant defaults docs "generator_memory_limit"))) := by
  have hm : ∀ k, (∀ d ∈ docs, List.lookup k d = none) → meant defaults docs k = List.lookup k defaults := by
    intro k hk
    have : docs.reverse.filterMap (List.lookup k) = [] := by
      rw [List.filterMap_eq_nil_iff]
      intro d hd
      exact hk d (by simpa using hd)
    simp [meant, this]
  refine ⟨fun v hv => by simp [checkerLimits, hv], fun v hv => by simp [checkerLimits, hv],
    fun v hv => by simp [checkerLimits, hv], fun ha hd => ?_, fun ha hd => ?_⟩
  · rw [hm _ hd]
    simp only [checkerLimits, ha, checker_found h "generator_time_limit" (by decide)]
    decide +kernel
  · rw [hm _ hd]
    simp only [checkerLimits, ha, checker_found h "generator_memory_limit" (by decide)]
    decide +kernel

/-! ## Cases -/

/-- A configuration that gives helpers a minute, a gigabyte, and a minute to compile within, and submissions 15 seconds. -/
def roomy : Map :=
  [("generator_time_limit", .int 60), ("generator_memory_limit", .int 1048576), ("generator_compiler_time_limit", .int 60),
   ("compiler_time_limit", .int 15)]

/-- With it, in the judge with three executors: the checker is left with its defaults, the generator is given what is configured, and
so is the compiler of submissions. -/
example : (run .judge [[("generator_time_limit", .int 5)], roomy] [("skip_self_test", .other 20)]
    [.executors_CPP17, .executors_PY3, .executors_GAS64, .graders]).map (fun w =>
      (checkerLimits w [], generatorLimits w [], submissionCompileLimit w, (interactorLimits w [] 2))) =
    some (⟨some 20, some 524288, none⟩, ⟨some 60, some 1048576, some 60⟩, some 15, ⟨some 4, some 1048576, none⟩) := by
  decide +kernel

/-- The hypotheses of `C106_settings_partial` and `C106_options` are met by it. -/
example : (run .cli [roomy] [("skip_self_test", .other 20)] [.executors_JAVA8]).any (fun w =>
    .executors_compiled_executor ∈ w.begun ∧ .executors_GAS64 ∉ w.begun ∧
    (.executors_java_executor, "skip_self_test", some (.other 20)) ∈ w.copies ∧
    (.executors, "only_executors", some (.other 12)) ∈ w.copies) := by
  decide +kernel

/-- And those of `C106_generator` and `C106_checker_partial` by a problem asking for more time. -/
example : (run .testsuite [roomy] [] [.executors_C]).map (fun w =>
    (generatorLimits w [("time_limit", .int 90), ("memory_limit", .null)], checkerLimits w [("time_limit", .int 90), ("memory_limit", .null)])) =
    some (⟨some 90, some 1048576, some 60⟩, ⟨some 90, none, none⟩) := by
  decide +kernel

end Verif.Settings
