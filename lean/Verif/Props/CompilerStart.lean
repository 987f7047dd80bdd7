import Verif.Model.CompilerStart
import Verif.Spec.CompilerStart

/-!
# What a compiler is started with
-/

namespace Verif.CompilerStart
open Verif.Spec.CompilerStart

theorem lookup_update (env more : Env) (k : String) :
    (update env more).lookup k = (more.lookup k).or (env.lookup k) := by
  have h1 : ∀ a b : Env, List.lookup k (a ++ b) = (List.lookup k a).or (List.lookup k b) := by
    intro a b
    induction a with
    | nil => simp
    | cons e a ih =>
      obtain ⟨x, v⟩ := e
      rw [List.cons_append, List.lookup_cons, List.lookup_cons, ih]
      cases k == x <;> rfl
  have h2 : ∀ m : Env, List.lookup k m = none ↔ k ∉ m.map (·.1) := by
    intro m
    induction m with
    | nil => simp
    | cons e m ih =>
      obtain ⟨x, v⟩ := e
      rw [List.lookup_cons]
      by_cases hx : k = x
      · subst hx; simp
      · have : (k == x) = false := by simpa using hx
        rw [this, ih]
        simp [hx]
  rw [update, h1]
  cases hm : List.lookup k more with
  | some v => rfl
  | none =>
    have hk := (h2 more).1 hm
    show List.lookup k (env.filter fun e => e.1 ∉ more.map (·.1)) = List.lookup k env
    induction env with
    | nil => rfl
    | cons e env ih =>
      obtain ⟨x, v⟩ := e
      by_cases hx : k = x
      · subst hx
        rw [List.filter_cons_of_pos (by simpa using hk), List.lookup_cons, List.lookup_cons]
        simp
      · have hx' : (k == x) = false := by simpa using hx
        by_cases hp : x ∈ more.map (·.1)
        · rw [List.filter_cons_of_neg (by simpa using hp), List.lookup_cons, hx', ih]
        · rw [List.filter_cons_of_pos (by simpa using hp), List.lookup_cons, List.lookup_cons, hx', ih]

/-- Every compiler believes it has a terminal. -/
theorem C107_term (name : String) (environ0 gccCompile environ : Env) (dir : String) :
    (compileEnv name environ0 gccCompile environ dir).lookup "TERM" = some "xterm" := by
  unfold compileEnv
  rw [lookup_update]
  rfl

/-- The compiler of Go sees three variables, whatever the environment of the judge and the configuration: foreign libraries cannot be
turned on by it. -/
theorem C107_go (environ0 gccCompile environ : Env) (dir k : String) :
    (compileEnv "GO" environ0 gccCompile environ dir).lookup k =
      if k = "TERM" then some "xterm" else if k = "CGO_ENABLED" then some "0"
      else if k = "GOCACHE" then some (dir ++ "/.cache") else none := by
  have h : ownEnv "GO" environ0 gccCompile dir = some [("CGO_ENABLED", "0"), ("GOCACHE", dir ++ "/.cache")] := by
    have : envKind "GO" = .go := by decide
    simp [ownEnv, this]
  unfold compileEnv
  rw [h, lookup_update]
  simp only [List.lookup_cons, List.lookup_nil]
  by_cases h1 : k = "TERM"
  · subst h1; simp
  by_cases h2 : k = "CGO_ENABLED"
  · subst h2; simp
  by_cases h3 : k = "GOCACHE"
  · subst h3; simp
  have e1 : (k == "TERM") = false := by simpa using h1
  have e2 : (k == "CGO_ENABLED") = false := by simpa using h2
  have e3 : (k == "GOCACHE") = false := by simpa using h3
  simp [h1, h2, h3, e1, e2, e3]

/-- GCC and its like have the variables configured for them, and else those the judge was started with. -/
theorem C107_gcc (name : String) (hn : name ∈ gccFamily) (environ0 gccCompile environ : Env) (dir k : String) (hk : k ≠ "TERM")
    (h0 : environ0 ≠ []) :
    (compileEnv name environ0 gccCompile environ dir).lookup k = (gccCompile.lookup k).or (environ0.lookup k) := by
  have h : ownEnv name environ0 gccCompile dir = some (update environ0 gccCompile) := by
    simp [ownEnv, envKind, hn]
  have hne : update environ0 gccCompile ≠ [] := by
    cases environ0 with
    | nil => exact absurd rfl h0
    | cons e l =>
      cases gccCompile with
      | nil => simp [update]
      | cons a m => simp [update]
  have e1 : (k == "TERM") = false := by simpa using hk
  unfold compileEnv
  rw [h, lookup_update]
  cases hu : update environ0 gccCompile with
  | nil => exact absurd hu hne
  | cons a l =>
    show (List.lookup k [("TERM", "xterm")]).or (List.lookup k (a :: l)) = _
    rw [← hu, lookup_update]
    simp [List.lookup_cons, e1]

/-- The other compilers have the environment of the judge. -/
theorem C107_environ (name : String) (hn : name ∉ gccFamily) (hg : name ≠ "GO") (environ0 gccCompile environ : Env) (dir k : String)
    (hk : k ≠ "TERM") :
    (compileEnv name environ0 gccCompile environ dir).lookup k = environ.lookup k := by
  have h : ownEnv name environ0 gccCompile dir = none := by simp [ownEnv, envKind, hn, hg]
  have e1 : (k == "TERM") = false := by simpa using hk
  unfold compileEnv
  rw [h, lookup_update]
  simp [List.lookup_cons, e1]

/-- So whatever the judge was given in its environment (a password, say) the compilers of all languages but Go can read. -/
theorem C107_secret_fails (name : String) (hg : name ≠ "GO") (environ : Env) (dir k v : String) (hk : k ≠ "TERM")
    (hv : environ.lookup k = some v) :
    (compileEnv name environ [] environ dir).lookup k = some v := by
  by_cases hn : name ∈ gccFamily
  · rw [C107_gcc name hn environ [] environ dir k hk (by rintro rfl; simp at hv)]
    simpa using hv
  · rw [C107_environ name hn hg environ [] environ dir k hk, hv]

/-! ## Streams -/

theorem onlcr_eq (b : List UInt8) : onlcr b = crlf b := by
  induction b with
  | nil => rfl
  | cons x r ih =>
    unfold onlcr
    split
    · rename_i h; subst h; simp [crlf] at *; exact ih
    · rename_i h; simp [crlf, h] at *; exact ih

theorem crlf_said (ws : List (Nat × List UInt8)) : (ws.flatMap fun w => onlcr w.2) = crlf (said ws) := by
  induction ws with
  | nil => rfl
  | cons w ws ih =>
    have : crlf (said (w :: ws)) = crlf w.2 ++ crlf (said ws) := by simp [said, crlf]
    rw [List.flatMap_cons, ih, this, onlcr_eq]

/-- What is heard of the compilers of most languages: all they write, to standard output and to standard error, in the order written, with
carriage returns; of those of Haskell, Pascal and Lisp what they write to standard error, with carriage returns; of those of COBOL and
Visual Basic all, as it is. -/
theorem C107_heard (name : String) (limit : Nat) (ws : List (Nat × List UInt8)) (hw : ∀ w ∈ ws, w.1 = 1 ∨ w.1 = 2)
    (hl : (crlf (said ws)).length ≤ limit) :
    output name limit ws =
      some (if name ∈ ["HASK", "PAS", "SBCL"] then crlf (complained ws)
        else if name ∈ ["CBL", "MONOVB"] then said ws else crlf (said ws)) := by
  have hall : ∀ p : Nat × List UInt8 → Bool, (∀ w ∈ ws, p w = true) → ws.filter p = ws := fun p hp => List.filter_eq_self.2 hp
  have hnone : ∀ p : Nat × List UInt8 → Bool, (∀ w ∈ ws, p w = false) → ws.filter p = [] := fun p hp =>
    List.filter_eq_nil_iff.2 fun w h => by simp [hp w h]
  have hsaid : (said ws).length ≤ (crlf (said ws)).length := by
    generalize said ws = b
    induction b with
    | nil => simp
    | cons x r ih =>
      have : (crlf (x :: r)).length = (if x = 10 then 2 else 1) + (crlf r).length := by
        simp only [crlf, List.flatMap_cons, List.length_append]
        split <;> simp
      rw [this, List.length_cons]
      split <;> omega
  have hcomp : (crlf (complained ws)).length ≤ (crlf (said ws)).length := by
    have : ∀ l : List (Nat × List UInt8), (crlf (complained l)).length ≤ (crlf (said l)).length := by
      intro l
      induction l with
      | nil => exact Nat.le_refl _
      | cons w l ih =>
        have h1 : (crlf (said (w :: l))).length = (crlf w.2).length + (crlf (said l)).length := by simp [said, crlf]
        by_cases h : w.1 = 2
        · have h2 : (crlf (complained (w :: l))).length = (crlf w.2).length + (crlf (complained l)).length := by
            simp [complained, said, crlf, h]
          omega
        · have h2 : complained (w :: l) = complained l := by simp [complained, h]
          rw [h2, h1]
          omega
    exact this ws
  by_cases hq : name ∈ ["HASK", "PAS", "SBCL"]
  · have hk : outKind name = .quiet := by simp only [outKind, if_pos hq]
    have hi : outputIndex name = 1 := by
      simp only [List.mem_cons, List.not_mem_nil, or_false] at hq
      rcases hq with rfl | rfl | rfl <;> decide
    have ho : arrived .quiet .pipe ws = [] := by
      unfold arrived
      rw [hnone _ (by intro w _; simp [streams])]
      rfl
    have he : arrived .quiet .terminal ws = crlf (complained ws) := by
      unfold arrived
      simp only [streams, reduceCtorEq, and_false, and_true, false_or, if_true]
      exact crlf_said _
    simp only [output, hk, hi, ho, he, if_pos hq]
    rw [if_neg (by simp; omega), if_neg (by decide)]
  · by_cases hp : name ∈ ["CBL", "MONOVB"]
    · have hk : outKind name = .piped := by simp only [outKind, if_neg hq, if_pos hp]
      have hi : outputIndex name = 0 := by simp only [outputIndex, if_pos hp]
      have ho : arrived .piped .pipe ws = said ws := by
        unfold arrived
        rw [hall _ (by intro w h; simpa [streams] using hw w h)]
        simp [said]
      have he : arrived .piped .terminal ws = [] := by
        unfold arrived
        rw [hnone _ (by intro w _; simp [streams])]
        rfl
      simp only [output, hk, hi, ho, he, if_neg hq, if_pos hp]
      rw [if_neg (by simp; omega), if_pos trivial]
    · have hk : outKind name = .terminal := by simp only [outKind, if_neg hq, if_neg hp]
      have hi : outputIndex name = 1 := by simp only [outputIndex, if_neg hp]
      have ho : arrived .terminal .pipe ws = [] := by
        unfold arrived
        rw [hnone _ (by intro w _; simp [streams])]
        rfl
      have he : arrived .terminal .terminal ws = crlf (said ws) := by
        unfold arrived
        rw [hall _ (by intro w h; simpa [streams] using hw w h)]
        simp only [if_true]
        exact crlf_said _
      simp only [output, hk, hi, ho, he, if_neg hq, if_neg hp]
      rw [if_neg (by simp; omega), if_neg (by decide)]

/-- Nothing is lost by the terminal: without the carriage returns it put in the text is what was written, whatever that was. -/
theorem C107_plain (b : List UInt8) : plain (crlf b) = b := by
  induction b with
  | nil => rfl
  | cons x r ih =>
    by_cases h : x = 10
    · subst h
      have : crlf (10 :: r) = 13 :: 10 :: crlf r := rfl
      rw [this, plain, ih]
    · have hc : crlf (x :: r) = x :: crlf r := by simp [crlf, h]
      rw [hc]
      by_cases h13 : x = 13
      · subst h13
        have : ∀ l, crlf r ≠ 10 :: l := by
          intro l
          cases r with
          | nil => simp [crlf]
          | cons y r =>
            by_cases hy : y = 10
            · subst hy; simp [crlf]
            · simp [crlf, hy]
        rw [plain.eq_2 _ _ (by intro r' _ hr; exact this r' hr), ih]
      · rw [plain.eq_2 _ _ (by intro r' h _; exact h13 h), ih]

/-- But the text has them: a message of two lines. -/
theorem C107_lines_fails : ∃ ws : List (Nat × List UInt8), (∀ w ∈ ws, w.1 = 1 ∨ w.1 = 2) ∧
    output "CPP17" 65536 ws ≠ some (said ws) :=
  ⟨[(2, [97, 10])], by decide, by decide⟩

/-- What the compiler of Haskell writes to standard output is not heard, even if it is all it has to say. -/
theorem C107_quiet_fails (limit : Nat) (b : List UInt8) : output "HASK" limit [(1, b)] = some [] := by
  have hk : outKind "HASK" = .quiet := by decide
  have hi : outputIndex "HASK" = 1 := by decide
  simp [output, hk, hi, arrived, streams]

/-! ## Limits and groups -/

/-- The invariant of the unprivileged. -/
structure Inv (c size : Nat) (s : St) : Prop where
  hard : ∀ p a, s.procs p = some a → a.soft ≤ size ∧ a.hard ≤ size
  files : ∀ f ∈ s.files, f.2 ≤ size
  group : ∀ p a, s.procs p = some a → p ∉ s.left → a.group = c

theorem inv_start {c size : Nat} {judge : Proc} {b : Bool} {s : St} (h : start b judge c size = some s) : Inv c size s := by
  unfold start at h
  split at h
  · cases h
    constructor
    · intro p a hp
      simp only at hp
      split at hp
      · cases hp; simp
      · cases hp
    · simp
    · intro p a hp _
      simp only at hp
      split at hp
      · cases hp; rfl
      · cases hp
  · cases h

theorem inv_step {c size : Nat} {s : St} (h : Inv c size s) (a : Act) : Inv c size (step false s a) := by
  obtain ⟨h1, h2, h3⟩ := h
  cases a with
  | fork p q =>
    simp only [step]
    split
    · rename_i x hp hq
      constructor
      · grind
      · exact h2
      · grind
    · exact ⟨h1, h2, h3⟩
  | setrlimit p soft hard =>
    simp only [step]
    split
    · rename_i x hp
      split
      · constructor
        · grind
        · exact h2
        · grind
      · exact ⟨h1, h2, h3⟩
    · exact ⟨h1, h2, h3⟩
  | setpgid p g =>
    simp only [step]
    split
    · constructor
      · grind
      · exact h2
      · grind
    · exact ⟨h1, h2, h3⟩
  | write p n =>
    simp only [step]
    split
    · split
      · constructor
        · grind
        · grind
        · grind
      · exact ⟨h1, h2, h3⟩
    · exact ⟨h1, h2, h3⟩
  | exit p =>
    simp only [step]
    constructor
    · grind
    · exact h2
    · grind

theorem inv_run {c size : Nat} {s : St} (h : Inv c size s) (as : List Act) : Inv c size (run false s as) := by
  induction as generalizing s with
  | nil => exact h
  | cons a as ih => exact ih (inv_step h a)

/-- Whatever the compiler and the programs it starts do, no file gets larger than the configured size; the limit cannot be raised again.
The judge is not privileged. -/
theorem C107_size (judge : Proc) (pid size : Nat) (s : St) (h : start false judge pid size = some s) (as : List Act) :
    ∀ f ∈ (run false s as).files, f.2 ≤ size :=
  (inv_run (inv_start h) as).files

/-- Ending a compiler ends it and all programs it started, but for those that left its group, and nothing else: the judge, being in
another group, is not hit. -/
theorem C107_group (judge : Proc) (pid size : Nat) (s : St) (h : start false judge pid size = some s) (as : List Act) :
    (∀ p, p ∉ (run false s as).left → (killpg (run false s as) pid).procs p = none) ∧
    (∀ p a, (run false s as).procs p = some a → a.group ≠ pid → (killpg (run false s as) pid).procs p = some a) := by
  have hi := inv_run (inv_start h) as
  refine ⟨fun p hp => ?_, fun p a ha hg => ?_⟩
  · cases ha : (run false s as).procs p with
    | none => simp [killpg, ha]
    | some a =>
      have := hi.group p a ha hp
      simp [killpg, ha, this, Option.filter]
  · simp [killpg, ha, hg, Option.filter]

/-- Run by a privileged judge the compiler can raise its limit. -/
theorem C107_root_fails : ∃ (judge : Proc) (pid size : Nat) (s : St), start true judge pid size = some s ∧
    ∃ as, ∃ f ∈ (run true s as).files, f.2 > size :=
  ⟨⟨1, 1000, 1000⟩, 7, 100, _, rfl, [.setrlimit 7 500 500, .write 7 300], (7, 300), by simp [run, step], by decide⟩

/-- With a configured size above the limit the judge itself has no unprivileged judge can start any compiler. -/
theorem C107_start_fails (judge : Proc) (pid size : Nat) (h : judge.hard < size) : start false judge pid size = none := by
  simp [start]; omega

/-! ## Cases -/

/-- A compiler of C with a configured variable. -/
example : compileEnv "C" [("PATH", "/bin"), ("HOME", "/home/judge")] [("PATH", "/opt/gcc/bin")] [] "/tmp/x" =
    [("TERM", "xterm"), ("PATH", "/opt/gcc/bin"), ("HOME", "/home/judge")] := by decide +kernel

/-- Mixed output in two languages. -/
example : output "CPP17" 100 [(1, [97, 10]), (2, [98])] = some [97, 13, 10, 98] ∧ output "PAS" 100 [(1, [97, 10]), (2, [98])] = some [98] ∧
    output "CBL" 100 [(1, [97, 10]), (2, [98])] = some [97, 10, 98] ∧ output "CPP17" 3 [(1, [97, 10]), (2, [98])] = none := by
  decide +kernel

/-- A compiler starting another program that leaves the group: hypotheses of `C107_size` and `C107_group`. -/
example : ∃ s, start false ⟨1, 1000, 1000⟩ 7 100 = some s ∧
    (run false s [.fork 7 8, .fork 7 9, .setpgid 9 9, .write 8 90, .write 8 101, .setrlimit 8 200 200, .write 8 150]).files = [(8, 90)] ∧
    (killpg (run false s [.fork 7 8, .fork 7 9, .setpgid 9 9]) 7).procs 8 = none ∧
    (killpg (run false s [.fork 7 8, .fork 7 9, .setpgid 9 9]) 7).procs 9 = some ⟨9, 100, 100⟩ :=
  ⟨_, rfl, by decide, by decide, by decide⟩

end Verif.CompilerStart
