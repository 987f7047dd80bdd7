import Verif.Spec.Startup
import Verif.Props.Roots

/-! # C76: what the judge starts with -/

namespace Verif.Props

open Verif.Roots Verif.Startup Roots

namespace Startup

theorem says_unique {k : String} {fs : List (String → Option V)} {v w : V} (h : Says k fs v) (h' : Says k fs w) : v = w := by
  induction h with
  | nowhere => cases h'; rfl
  | here h => cases h' with
    | here h2 => rw [h] at h2; exact Option.some.inj h2
    | later h2 _ => rw [h] at h2; exact nomatch h2
  | later h hs ih => cases h' with
    | here h2 => rw [h] at h2; exact nomatch h2
    | later h2 hs2 => exact ih hs2

theorem files_unique {m : Machine} {a b : List (String → Option V)} (h : Files m a) (h' : Files m b) : a = b := by
  cases h <;> cases h' <;> simp_all

/-- The files joined. -/
def joined : List (String → Option V) → String → Option V
  | [] => env0
  | f :: fs => fun k => (f k).or (joined fs k)

theorem joined_says (k : String) : ∀ fs, Says k fs (Startup.get (joined fs) k)
  | [] => .nowhere
  | f :: fs => by
    have ih := joined_says k fs
    cases hf : f k with
    | some v =>
      have : Startup.get (joined (f :: fs)) k = v := by simp [Startup.get, joined, hf]
      rw [this]
      exact .here hf
    | none =>
      have : Startup.get (joined (f :: fs)) k = Startup.get (joined fs) k := by simp [Startup.get, joined, hf]
      rw [this]
      exact .later hf ih

/-- `env` with the name and the key of the command line. -/
def over (mode : Mode) (a : Args) (env : String → Option V) : String → Option V :=
  let env := match mode, given a.name with
    | .judge, some n => setKey env "id" (.text n)
    | _, _ => env
  match mode, given a.key with
    | .judge, some n => setKey env "key" (.text n)
    | _, _ => env

theorem over_other (mode : Mode) (a : Args) (env : String → Option V) (k : String) (h1 : k ≠ "id") (h2 : k ≠ "key") :
    over mode a env k = env k := by
  unfold over
  cases mode <;> cases given a.name <;> cases given a.key <;> simp [setKey, h1, h2]

theorem storage_over (mode : Mode) (a : Args) (env : String → Option V) : storage (over mode a env) = storage env := by
  unfold storage Startup.get
  rw [over_other _ _ _ _ (by decide) (by decide), over_other _ _ _ _ (by decide) (by decide)]

/-- What `load_env` does after reading the files. -/
def rest (mode : Mode) (a : Args) (m : Machine) (env : String → Option V) (dirs : Dirs) : Except Fail Conf :=
  match getRoots dirs m.fs true {} with
  | (_, .error e) => .error (.roots e)
  | (s, .ok _) =>
    let conf : Conf :=
      { env := env, dirs := dirs, watches := watchesOf dirs, state := s, api := apiOf mode m.docker a
        secure := mode = .judge && a.secure, noCert := mode = .judge && a.noCert
        certs := if mode = .judge then a.certs else none
        noWatchdog := if mode = .judge then a.noWatchdog else true }
    if mode = .testsuite then
      if isDir m.fs a.testsDir then .ok { conf with dirs := .list [a.testsDir], state := { s with dirs := none } }
      else .error .exit
    else .ok conf

/-- The environment a start ends up with. -/
def finalEnv (mode : Mode) (a : Args) (m : Machine) (fs : List (String → Option V)) : String → Option V :=
  if m.config = none then joined fs else over mode a (joined fs)

theorem storage_names (m : Machine) (fs : List (String → Option V)) (hc : m.config ≠ none) (d : Dirs) :
    Meant m fs d ↔ Names m (storage (joined fs)) d := by
  have h1 := joined_says "problem_storage_root" fs
  have h2 := joined_says "problem-storage-root" fs
  constructor
  · intro h
    cases h with
    | under _ h hn =>
      have := says_unique h h1
      unfold storage
      rw [← this]
      cases hn <;> constructor
    | hyphen _ h h' hn =>
      unfold storage
      rw [← says_unique h h1]
      dsimp only
      rw [← says_unique h' h2]
      exact hn
    | bare h => exact absurd h hc
  · intro h
    unfold storage at h
    cases hg : Startup.get (joined fs) "problem_storage_root" with
    | null =>
      rw [hg] at h h1
      exact .hyphen hc h1 h2 h
    | text s => rw [hg] at h h1; exact .under hc h1 h
    | roots s => rw [hg] at h h1; exact .under hc h1 h
    | other s => rw [hg] at h h1; exact .under hc h1 h

theorem configured_ok (mode : Mode) (a : Args) (m : Machine) (r c : String → Option V) (d₀ : Option Dirs) (fs)
    (hc : m.config = some (.map c)) (hj : (fun k => (c k).or (r k)) = joined fs) (env) (d : Dirs) :
    configured mode a m r d₀ = .ok (env, some d) ↔ env = finalEnv mode a m fs ∧ Meant m fs d := by
  have hne : m.config ≠ none := by rw [hc]; nofun
  rw [storage_names m fs hne]
  unfold configured finalEnv
  rw [if_neg hne, hc]
  simp only [Startup.update, hj]
  change (match storage (over mode a (joined fs)) with
      | .null => _
      | .roots l => _
      | .text s => _
      | .other _ => _) = _ ↔ _
  rw [storage_over]
  cases storage (joined fs) with
  | null =>
    dsimp only
    constructor
    · intro h; split at h <;> cases h
    · rintro ⟨-, h⟩; cases h
  | text s =>
    dsimp only
    constructor
    · intro h; cases h; exact ⟨rfl, .text s⟩
    · rintro ⟨rfl, h⟩; cases h; rfl
  | roots l =>
    dsimp only
    constructor
    · intro h; cases h; exact ⟨rfl, .roots l⟩
    · rintro ⟨rfl, h⟩; cases h; rfl
  | other n =>
    dsimp only
    constructor
    · intro h; cases h
    · rintro ⟨-, h⟩; cases h

theorem load_iff (mode : Mode) (a : Args) (m : Machine) (conf : Conf) :
    loadEnv mode a m = .ok conf ↔
      ∃ fs d, Files m fs ∧ Meant m fs d ∧ rest mode a m (finalEnv mode a m fs) d = .ok conf := by
  have key : ∀ env d₀, inDocker m = .ok (env, d₀) → (loadEnv mode a m = .ok conf ↔
      ∃ env' d, configured mode a m env d₀ = .ok (env', some d) ∧ rest mode a m env' d = .ok conf) := by
    intro env d₀ h
    unfold loadEnv
    rw [h]
    dsimp only
    rcases configured mode a m env d₀ with e | ⟨env', _ | d⟩
    · exact ⟨nofun, fun ⟨_, _, h, _⟩ => nomatch h⟩
    · exact ⟨nofun, fun ⟨_, _, h, _⟩ => nomatch h⟩
    · refine ⟨fun h => ⟨env', d, rfl, h⟩, ?_⟩
      rintro ⟨e, d', h, h'⟩
      cases h
      exact h'
  have joined2 : ∀ (c r : String → Option V), (fun k => (c k).or ((joined [r]) k)) = joined [c, r] := fun _ _ => rfl
  by_cases hd : m.docker = true
  · cases hr : m.runtimes with
    | none =>
      have : inDocker m = .error .io := by unfold inDocker; rw [if_pos hd, hr]
      unfold loadEnv
      rw [this]
      refine ⟨nofun, ?_⟩
      rintro ⟨fs, d, hf, -⟩
      cases hf <;> simp_all
    | some doc =>
      cases doc with
      | map r =>
        have : inDocker m = .ok (joined [r], some (.list [["problems"]])) := by
          unfold inDocker; rw [if_pos hd, hr]; rfl
        rw [key _ _ this]
        cases hc : m.config with
        | none =>
          have hconf : configured mode a m (joined [r]) (some (.list [["problems"]])) =
              .ok (joined [r], some (.list [["problems"]])) := by
            unfold configured; rw [hc]; dsimp only; rw [if_pos hd]
          rw [hconf]
          constructor
          · rintro ⟨env', d, h, h'⟩
            cases h
            refine ⟨[r], _, .bare hd hr hc, .bare hc, ?_⟩
            unfold finalEnv
            rw [if_pos hc]
            exact h'
          · rintro ⟨fs, d, hf, hm, h⟩
            have := files_unique hf (.bare hd hr hc)
            subst this
            cases hm with
            | under h => exact absurd hc h
            | hyphen h => exact absurd hc h
            | bare _ =>
              unfold finalEnv at h
              rw [if_pos hc] at h
              exact ⟨_, _, rfl, h⟩
        | some doc' =>
          cases doc' with
          | map c =>
            have hcf := fun env d => configured_ok mode a m (joined [r]) c (some (.list [["problems"]])) [c, r] hc (joined2 c r) env d
            constructor
            · rintro ⟨env', d, h, h'⟩
              obtain ⟨rfl, hm⟩ := (hcf env' d).1 h
              exact ⟨_, d, .docker hd hr hc, hm, h'⟩
            · rintro ⟨fs, d, hf, hm, h⟩
              have := files_unique hf (.docker hd hr hc)
              subst this
              exact ⟨_, d, (hcf _ d).2 ⟨rfl, hm⟩, h⟩
          | empty =>
            constructor
            · rintro ⟨env', d, h, h'⟩
              unfold configured at h; rw [hc] at h; cases h
            · rintro ⟨fs, d, hf, -⟩; cases hf <;> simp_all
          | other =>
            constructor
            · rintro ⟨env', d, h, h'⟩
              unfold configured at h; rw [hc] at h; cases h
            · rintro ⟨fs, d, hf, -⟩; cases hf <;> simp_all
      | empty =>
        have : inDocker m = .error .update := by unfold inDocker; rw [if_pos hd, hr]; rfl
        unfold loadEnv
        rw [this]
        refine ⟨nofun, ?_⟩
        rintro ⟨fs, d, hf, -⟩
        cases hf <;> simp_all
      | other =>
        have : inDocker m = .error .update := by unfold inDocker; rw [if_pos hd, hr]; rfl
        unfold loadEnv
        rw [this]
        refine ⟨nofun, ?_⟩
        rintro ⟨fs, d, hf, -⟩
        cases hf <;> simp_all
  · have hd : m.docker = false := by simpa using hd
    have : inDocker m = .ok (joined [], none) := by unfold inDocker; rw [if_neg (by rw [hd]; nofun)]; rfl
    rw [key _ _ this]
    cases hc : m.config with
    | none =>
      constructor
      · rintro ⟨env', d, h, h'⟩
        unfold configured at h; rw [hc] at h; dsimp only at h; rw [if_neg (by rw [hd]; nofun)] at h; cases h
      · rintro ⟨fs, d, hf, -⟩; cases hf <;> simp_all
    | some doc' =>
      cases doc' with
      | map c =>
        have hcf := fun env d => configured_ok mode a m (joined []) c none [c] hc rfl env d
        constructor
        · rintro ⟨env', d, h, h'⟩
          obtain ⟨rfl, hm⟩ := (hcf env' d).1 h
          exact ⟨_, d, .plain hd hc, hm, h'⟩
        · rintro ⟨fs, d, hf, hm, h⟩
          have := files_unique hf (.plain hd hc)
          subst this
          exact ⟨_, d, (hcf _ d).2 ⟨rfl, hm⟩, h⟩
      | empty =>
        constructor
        · rintro ⟨env', d, h, h'⟩
          unfold configured at h; rw [hc] at h; cases h
        · rintro ⟨fs, d, hf, -⟩; cases hf <;> simp_all
      | other =>
        constructor
        · rintro ⟨env', d, h, h'⟩
          unfold configured at h; rw [hc] at h; cases h
        · rintro ⟨fs, d, hf, -⟩; cases hf <;> simp_all

theorem start_ok (fs : Node) (d : Dirs) : (∃ l, (getRoots d fs true {}).2 = .ok l) ↔ SearchesFine fs d := by
  rw [← collect_ok]
  unfold getRoots
  cases d with
  | list l => exact ⟨fun _ => ⟨_, rfl⟩, fun _ => ⟨_, rfl⟩⟩
  | node l =>
    dsimp only
    cases collect fs (.node l) with
    | error e => exact ⟨(fun ⟨_, h⟩ => nomatch h), (fun ⟨_, h⟩ => nomatch h)⟩
    | ok k => exact ⟨fun _ => ⟨_, rfl⟩, fun _ => ⟨_, rfl⟩⟩
  | str l =>
    dsimp only
    cases collect fs (.str l) with
    | error e => exact ⟨(fun ⟨_, h⟩ => nomatch h), (fun ⟨_, h⟩ => nomatch h)⟩
    | ok k => exact ⟨fun _ => ⟨_, rfl⟩, fun _ => ⟨_, rfl⟩⟩

theorem rest_ok {mode : Mode} {a : Args} {m : Machine} {env : String → Option V} {d : Dirs} {c : Conf}
    (h : rest mode a m env d = .ok c) :
    c.env = env ∧ c.watches = watchesOf d ∧ c.api = apiOf mode m.docker a ∧ SearchesFine m.fs d ∧
    (mode = .testsuite → isDir m.fs a.testsDir = true ∧ c.dirs = .list [a.testsDir] ∧ c.state.dirs = none) ∧
    (mode ≠ .testsuite → c.dirs = d ∧ c.state = (start d m.fs).1 ∧ (∃ l, (start d m.fs).2 = .ok l)) := by
  unfold rest at h
  have hs := start_ok m.fs d
  unfold start
  rcases hg : getRoots d m.fs true {} with ⟨s, e | l⟩
  · rw [hg] at h; exact nomatch h
  · rw [hg] at h hs
    have hs := hs.1 ⟨_, rfl⟩
    dsimp only at h
    by_cases ht : mode = .testsuite
    · rw [if_pos ht] at h
      by_cases hi : isDir m.fs a.testsDir = true
      · rw [if_pos hi] at h
        cases h
        exact ⟨rfl, rfl, rfl, hs, fun _ => ⟨hi, rfl, rfl⟩, fun h => absurd ht h⟩
      · rw [if_neg hi] at h; exact nomatch h
    · rw [if_neg ht] at h
      cases h
      exact ⟨rfl, rfl, rfl, hs, fun h => absurd h ht, fun _ => ⟨rfl, rfl, _, rfl⟩⟩

theorem root_watched (fs : Node) (d : Dirs) (r : Path) (h : IsRoot fs d r ∨ IsRoot fs (settled d) r) :
    ∃ w ∈ watchesOf d, Under w r := by
  cases d with
  | list l => exact ⟨r, by simpa [IsRoot, settled, watchesOf] using h, List.prefix_refl _⟩
  | str p =>
    refine ⟨p, List.mem_singleton.2 rfl, ?_⟩
    rcases h with ⟨q, hq, -⟩ | h
    · exact ⟨q, hq.symm⟩
    · have : r = p := by simpa [IsRoot, settled] using h
      rw [this]; exact List.prefix_refl _
  | node l =>
    have h : IsRoot fs (.node l) r := h.elim id id
    rcases h with h | ⟨m, hm, d, p, hp, q, hq, -⟩
    · exact ⟨r, List.mem_flatMap.2 ⟨_, h, List.mem_singleton.2 rfl⟩, List.prefix_refl _⟩
    · exact ⟨p, List.mem_flatMap.2 ⟨_, hm, List.mem_map.2 ⟨_, hp, rfl⟩⟩, q, hq.symm⟩

/-- The roots of a state are watched. -/
def Inv (ws : List Path) (s : State) : Prop := ∀ l, s.dirs = some l → ∀ r ∈ l, ∃ w ∈ ws, Under w r

theorem getRoots_err (d : Dirs) (fs : Node) (w : Bool) (s : State) (e : Err) (h : (getRoots d fs w s).2 = .error e) :
    (getRoots d fs w s).1 = s := by
  unfold getRoots at h ⊢
  cases hs : s.dirs with
  | some l => rfl
  | none =>
    rw [hs] at h
    cases d with
    | list l => exact nomatch h
    | node l =>
      dsimp only at h ⊢
      cases hc : collect fs (.node l) with
      | error e => rfl
      | ok k => rw [hc] at h; grind
    | str l =>
      dsimp only at h ⊢
      cases hc : collect fs (.str l) with
      | error e => rfl
      | ok k => rw [hc] at h; grind

theorem getRoots_new (d : Dirs) (fs : Node) (w : Bool) (s : State) (hs : s.dirs = none) (l : List Path)
    (h : (getRoots d fs w s).2 = .ok l) : ∀ r ∈ l, IsRoot fs d r := by
  unfold getRoots at h
  rw [hs] at h
  cases d with
  | list l' =>
    dsimp only at h
    cases h
    exact fun r hr => hr
  | node l' =>
    dsimp only at h
    cases hc : collect fs (.node l') with
    | error e => rw [hc] at h; exact nomatch h
    | ok k =>
      rw [hc] at h
      dsimp only at h
      intro r hr
      rw [← collect_mem fs _ k hc r]
      grind [List.mem_filter]
  | str l' =>
    dsimp only at h
    cases hc : collect fs (.str l') with
    | error e => rw [hc] at h; exact nomatch h
    | ok k =>
      rw [hc] at h
      dsimp only at h
      intro r hr
      rw [← collect_mem fs _ k hc r]
      grind [List.mem_filter]

theorem getRoots_inv (d : Dirs) (ws : List Path) (fs : Node) (w : Bool) (s : State) (h : Inv ws s)
    (hd : ∀ r, IsRoot fs d r → ∃ w ∈ ws, Under w r) :
    Inv ws (getRoots d fs w s).1 ∧ ∀ l, (getRoots d fs w s).2 = .ok l → ∀ r ∈ l, ∃ w ∈ ws, Under w r := by
  have h2 : ∀ l, (getRoots d fs w s).2 = .ok l → ∀ r ∈ l, ∃ w ∈ ws, Under w r := by
    intro l hl r hr
    cases hs : s.dirs with
    | none => exact hd r (getRoots_new d fs w s hs l hl r hr)
    | some l' =>
      rw [getRoots_some hs] at hl
      cases hl
      exact h l hs r hr
  refine ⟨?_, h2⟩
  cases he : (getRoots d fs w s).2 with
  | error e => rw [getRoots_err d fs w s e he]; exact h
  | ok l =>
    intro l' hl'
    rw [getRoots_dirs d fs w s l he] at hl'
    cases hl'
    exact h2 l he

theorem op_inv (d : Dirs) (s : State) (h : Inv (watchesOf d) s) (x : Node × Op) : Inv (watchesOf d) (op d s x) := by
  have hg := fun fs s h => (getRoots_inv (settled d) (watchesOf d) fs false s h fun r hr => root_watched fs d r (.inr hr)).1
  obtain ⟨fs, o⟩ := x
  cases o with
  | update =>
    simp only [op, Roots.update, supported_eq]
    exact hg fs _ nofun
  | list =>
    simp only [op, supported_eq]
    exact hg fs s h
  | root id =>
    simp only [op, problemRoot]
    have hg := hg fs s h
    have asked : Inv (watchesOf d) (match getRoots (settled d) fs false s with
        | (s, .error e) => (s, Except.error e)
        | (s, .ok roots) =>
          ({ dirs := s.dirs,
             cache := (Problem.getProblemRoot (fun r id => isFile fs (r ++ [id, "init.yml"])) roots s.cache id).1,
             warns := s.warns, gone := s.gone },
            Except.ok (Problem.getProblemRoot (fun r id => isFile fs (r ++ [id, "init.yml"])) roots s.cache id).2)).1 := by
      rcases hr : getRoots (settled d) fs false s with ⟨s', e | l⟩
      · rw [hr] at hg; exact hg
      · rw [hr] at hg; exact hg
    split
    · exact asked
    · split
      · exact asked
      · exact h

theorem ops_inv (d : Dirs) : ∀ (ops : List (Node × Op)) (s : State), Inv (watchesOf d) s → Inv (watchesOf d) (ops.foldl (op d) s)
  | [], _, h => h
  | x :: ops, s, h => ops_inv d ops _ (op_inv d s h x)

end Startup

open Startup

/-- C76.  The judge (or the shell, or the test suite) starts exactly if the files can be read and are mappings, they name problem roots,
all directories searched for roots can be listed, and the directory of the tests exists. -/
theorem C76_starts (mode : Mode) (a : Args) (m : Machine) :
    (∃ c, loadEnv mode a m = .ok c) ↔ ∃ fs d, Files m fs ∧ Meant m fs d ∧ SearchesFine m.fs d ∧
      (mode = .testsuite → Roots.Dir m.fs a.testsDir) := by
  simp only [dir_iff]
  constructor
  · rintro ⟨c, h⟩
    obtain ⟨fs, d, hf, hm, h⟩ := (load_iff mode a m c).1 h
    obtain ⟨-, -, -, hs, ht, -⟩ := rest_ok h
    exact ⟨fs, d, hf, hm, hs, fun h => (ht h).1⟩
  · rintro ⟨fs, d, hf, hm, hs, ht⟩
    obtain ⟨l, hl⟩ := (start_ok m.fs d).2 hs
    have : ∃ c, rest mode a m (finalEnv mode a m fs) d = .ok c := by
      unfold rest
      rcases hg : getRoots d m.fs true {} with ⟨s, e | k⟩
      · rw [hg] at hl; exact nomatch hl
      · dsimp only
        split
        · rename_i h; rw [if_pos (ht h)]; exact ⟨_, rfl⟩
        · exact ⟨_, rfl⟩
    obtain ⟨c, hc⟩ := this
    exact ⟨c, (load_iff mode a m c).2 ⟨fs, d, hf, hm, hc⟩⟩

/-- C76.  The name and the key under which the judge connects are those of the command line, if given and not empty, else those of the
files. Partial: there is a configuration file, see `C76_identity_fails`. -/
theorem C76_identity_partial (a : Args) (m : Machine) (hc : m.config ≠ none) (c : Conf) (h : loadEnv .judge a m = .ok c) :
    (∀ s, Counts a.name s → get c.env "id" = .text s) ∧ (∀ s, Counts a.key s → get c.env "key" = .text s) ∧
    ((¬ ∃ s, Counts a.name s) → ∃ fs, Files m fs ∧ Says "id" fs (get c.env "id")) ∧
    ((¬ ∃ s, Counts a.key s) → ∃ fs, Files m fs ∧ Says "key" fs (get c.env "key")) := by
  obtain ⟨fs, d, hf, hm, h⟩ := (load_iff .judge a m c).1 h
  obtain ⟨he, -⟩ := rest_ok h
  have gv : ∀ x : Option String, (∀ s, Counts x s → given x = some s) ∧ ((¬ ∃ s, Counts x s) → given x = none) := by
    intro x
    cases x with
    | none => exact ⟨(fun s h => nomatch h.1), fun _ => rfl⟩
    | some s =>
      by_cases hs : s = ""
      · subst hs
        exact ⟨fun s h => absurd (Option.some.inj h.1).symm h.2, fun _ => rfl⟩
      · have : given (some s) = some s := by
          unfold given
          split
          · rename_i h; exact absurd (Option.some.inj h) hs
          · rfl
        rw [this]
        exact ⟨fun s h => h.1, fun h => absurd ⟨s, rfl, hs⟩ h⟩
  unfold finalEnv at he
  rw [if_neg hc] at he
  rw [he]
  refine ⟨?_, ?_, ?_, ?_⟩
  · intro s hs
    rw [show over .judge a (joined fs) = _ from rfl]
    unfold over Startup.get
    rw [(gv a.name).1 s hs]
    cases given a.key <;> simp [setKey]
  · intro s hs
    unfold over Startup.get
    rw [(gv a.key).1 s hs]
    simp [setKey]
  · intro hs
    refine ⟨fs, hf, ?_⟩
    have : get (over .judge a (joined fs)) "id" = get (joined fs) "id" := by
      unfold over Startup.get
      rw [(gv a.name).2 hs]
      cases given a.key <;> simp [setKey]
    rw [this]
    exact joined_says _ _
  · intro hs
    refine ⟨fs, hf, ?_⟩
    have : get (over .judge a (joined fs)) "key" = get (joined fs) "key" := by
      unfold over Startup.get
      rw [(gv a.key).2 hs]
      cases given a.name <;> simp [setKey]
    rw [this]
    exact joined_says _ _

/-- C76.  In docker the configuration file may be missing, but then the name and the key of the command line are not used. -/
theorem C76_identity_fails (a : Args) (m : Machine) (hc : m.config = none) (c : Conf) (h : loadEnv .judge a m = .ok c) :
    ∃ r, m.runtimes = some (.map r) ∧ Says "id" [r] (get c.env "id") ∧ Says "key" [r] (get c.env "key") := by
  obtain ⟨fs, d, hf, hm, h⟩ := (load_iff .judge a m c).1 h
  obtain ⟨he, -⟩ := rest_ok h
  unfold finalEnv at he
  rw [if_pos hc] at he
  rw [he]
  cases hf with
  | plain _ h' => rw [hc] at h'; exact nomatch h'
  | docker _ _ h' => rw [hc] at h'; exact nomatch h'
  | bare _ hr _ => exact ⟨_, hr, joined_says _ _, joined_says _ _⟩

/-- C76.  The judge and the shell use the problem roots that the files name; the test suite uses its directory of tests alone. -/
theorem C76_roots (mode : Mode) (a : Args) (m : Machine) (c : Conf) (h : loadEnv mode a m = .ok c) :
    (mode ≠ .testsuite → ∃ fs, Files m fs ∧ Meant m fs c.dirs ∧ c.state = (start c.dirs m.fs).1) ∧
    (mode = .testsuite → ∀ fs l, (supported c.dirs fs c.state).2 = .ok l →
      ∀ id t, (id, t) ∈ l ↔ Roots.Offers fs a.testsDir id t) := by
  simp only [offers_iff]
  obtain ⟨fs, d, hf, hm, h⟩ := (load_iff mode a m c).1 h
  obtain ⟨-, -, -, -, ht, hn⟩ := rest_ok h
  refine ⟨fun h => ?_, fun h => ?_⟩
  · obtain ⟨h1, h2, -⟩ := hn h
    exact ⟨fs, hf, h1 ▸ hm, h1 ▸ h2⟩
  · obtain ⟨-, h1, h2⟩ := ht h
    intro fs' l hl id t
    rw [h1, supported_eq] at hl
    dsimp only at hl
    rw [getRoots_none _ _ _ h2] at hl
    have hw : ∀ b : Bool, (b && !(warnsOf [.inl a.testsDir]).isEmpty) = false := by intro b; cases b <;> rfl
    simp only [settled, collect, List.map_cons, List.map_nil, hw] at hl
    have := mem_supported fs' [a.testsDir] l hl id t
    simpa using this

/-- C76.  In docker a configuration file that does not name problem roots keeps the judge from starting, though without the file it
would use /problems. -/
theorem C76_docker_roots_fails (a : Args) (m : Machine) (c r : String → Option V) (hd : m.docker = true)
    (hr : m.runtimes = some (.map r)) (hc : m.config = some (.map c)) (h1 : Says "problem_storage_root" [c, r] .null)
    (h2 : Says "problem-storage-root" [c, r] .null) :
    (∀ conf, loadEnv .judge a m ≠ .ok conf) ∧ ∃ conf, loadEnv .judge a { m with config := none } = .ok conf := by
  constructor
  · intro conf h
    obtain ⟨fs, d, hf, hm, -⟩ := (load_iff .judge a m conf).1 h
    have := files_unique hf (.docker hd hr hc)
    subst this
    cases hm with
    | under _ h hn => rw [says_unique h h1] at hn; cases hn
    | hyphen _ _ h hn => rw [says_unique h h2] at hn; cases hn
    | bare h => rw [hc] at h; exact nomatch h
  · refine (C76_starts .judge a _).2 ⟨_, _, .bare hd hr rfl, .bare rfl, ?_, nofun⟩
    trivial

/-- C76.  So it does with the test suite, though the code means to allow it: the test suite does not use those roots. -/
theorem C76_testsuite_fails (a : Args) (m : Machine) (c : String → Option V) (hd : m.docker = false) (hc : m.config = some (.map c))
    (h1 : c "problem_storage_root" = none) (h2 : c "problem-storage-root" = none) : loadEnv .testsuite a m = .error .type := by
  have hi : inDocker m = .ok (env0, none) := by unfold inDocker; rw [if_neg (by rw [hd]; nofun)]
  have hs : storage (fun k => (c k).or (env0 k)) = .null := by simp [storage, Startup.get, h1, h2, env0]
  unfold loadEnv
  rw [hi]
  dsimp only
  unfold configured
  rw [hc]
  simp only [Startup.update, hs, if_true]

/-- C76.  Every problem the judge ever reports, from the start on and whatever happens to the files, lies in a directory that is
watched for changes. -/
theorem C76_watched (a : Args) (m : Machine) (c : Conf) (h : loadEnv .judge a m = .ok c) (ops : List (Node × Op)) (fs : Node)
    (l : List (String × Nat)) (hl : (supported c.dirs fs (ops.foldl (op c.dirs) (running c.state))).2 = .ok l) (id : String) (t : Nat)
    (hi : (id, t) ∈ l) : ∃ r, Roots.Has fs r id ∧ ∃ w ∈ c.watches, Under w r := by
  obtain ⟨fs₀, d, hf, hm, h⟩ := (load_iff .judge a m c).1 h
  obtain ⟨-, hw, -, -, -, hn⟩ := rest_ok h
  obtain ⟨h1, h2, -⟩ := hn nofun
  rw [h1, supported_eq] at hl
  dsimp only at hl
  rw [hw]
  have hstart : Inv (watchesOf d) c.state := by
    rw [h2]
    exact (getRoots_inv d _ m.fs true {} nofun fun r hr => root_watched m.fs d r (.inl hr)).1
  have hinv := ops_inv d ops (running c.state) hstart
  have hg := (getRoots_inv (settled d) (watchesOf d) fs false _ hinv fun r hr => root_watched fs d r (.inr hr)).2
  cases hr : (getRoots (settled d) fs false (ops.foldl (op d) (running c.state))).2 with
  | error e => rw [hr] at hl; exact nomatch hl
  | ok roots =>
    rw [hr] at hl
    obtain ⟨r, hroot, hhas, -⟩ := (mem_supported fs roots l hl id t).1 hi
    exact ⟨r, hhas, hg roots hr r hroot⟩

/-- C76.  The judge listens for requests to update the problems only in docker, or on the port it is given; the shell and the test
suite never do. -/
theorem C76_api (mode : Mode) (a : Args) (m : Machine) (c : Conf) (h : loadEnv mode a m = .ok c) (x : String × Int) :
    c.api = some x ↔ mode = .judge ∧ ((a.apiPort = some x.2 ∧ x.2 ≠ 0 ∧ x.1 = a.apiHost) ∨
      (m.docker = true ∧ (a.apiPort = none ∨ a.apiPort = some 0) ∧ x = ("0.0.0.0", 9998))) := by
  obtain ⟨fs, d, hf, hm, h⟩ := (load_iff mode a m c).1 h
  obtain ⟨-, -, ha, -⟩ := rest_ok h
  rw [ha]
  obtain ⟨x1, x2⟩ := x
  unfold apiOf
  cases mode with
  | cli => simp
  | testsuite => simp
  | judge =>
    cases m.docker <;> cases hp : a.apiPort with
    | none => simp <;> grind
    | some p => by_cases h0 : p = 0 <;> simp [h0] <;> grind

/-! A judge with a configuration file and one in docker. -/

namespace StartupEx

def conf : String → Option V
  | "id" => some (.text "alice")
  | "key" => some (.text "secret")
  | "problem-storage-root" => some (.roots [.deep [(some 1, ["a"])], .plain ["b"]])
  | _ => none

def runtimes : String → Option V
  | "runtime" => some (.other 0)
  | _ => none

def plain : Machine := { docker := false, runtimes := none, config := some (.map conf), fs := RootsEx.fs, dirOf := fun s => [s] }

def docker : Machine := { docker := true, runtimes := some (.map runtimes), config := none, fs := RootsEx.fs, dirOf := fun s => [s] }

example : (loadEnv .judge { name := some "bob" } plain).toOption.map
    (fun c => (get c.env "id", get c.env "key", c.watches, c.state.dirs, c.api)) =
    some (.text "bob", .text "secret", [["a"], ["b"]], some [["a", "x"], ["a", "y"], ["b"]], none) := rfl
example : (loadEnv .judge { name := some "bob", key := some "x" } docker).toOption.map
    (fun c => (get c.env "id", get c.env "key", c.watches, c.state.dirs, c.api)) =
    some (.null, .null, [["problems"]], some [["problems"]], some ("0.0.0.0", 9998)) := rfl
example : (loadEnv .judge { apiPort := some 9001 } plain).toOption.map (·.api) = some (some ("127.0.0.1", 9001)) := rfl
example : Files plain [conf] := .plain rfl rfl
example : Meant plain [conf] (.node [.deep [(some 1, ["a"])], .plain ["b"]]) :=
  .hyphen nofun (.later rfl .nowhere) (.here rfl) (.roots _)
example : (loadEnv .testsuite { testsDir := ["b"] } plain).toOption.map (fun c => (supported c.dirs RootsEx.fs c.state).2.toOption) =
    some (some [("r", 3)]) := rfl
example : Says "problem_storage_root" [runtimes, runtimes] .null := .later rfl (.later rfl .nowhere)

end StartupEx

end Verif.Props
