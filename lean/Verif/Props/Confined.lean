import Verif.Spec.Confined
import Verif.Props.Sandbox
import Verif.Props.FsPatterns

/-!
# C89 A submission is confined to its places: from the kernel's entry to the patterns
-/

namespace Verif.Confined

open Verif.Monitor Verif.Policy Verif.Policy.Spec Verif.Abi Verif.Abi.Spec Verif.Syscalls Verif.Sandbox Verif.FsPatterns Verif.FsPatterns.Spec

theorem string_unique {byte : Nat → UInt8} {a : Nat} {s t : List UInt8} (hs : ReadStr.StringAt byte a s) (ht : ReadStr.StringAt byte a t) : s = t := by
  have hl : s.length = t.length := by
    rcases Nat.lt_trichotomy s.length t.length with h | h | h
    · exact absurd hs.nul (ht.nonzero _ h)
    · exact h
    · exact absurd ht.nul (hs.nonzero _ h)
  apply List.ext_getElem hl
  intro i h1 h2
  rw [hs.bytes i h1, ht.bytes i h2]

/-- The register of the directory, or the working directory. -/
def openRegister (s : Isolate.Stop) : Option Nat → BitVec 64
  | none => 0xFFFFFFFFFFFFFF9C#64
  | some r => s.regs r

theorem leads_unique {s : Isolate.Stop} {d : Option Nat} {x : BitVec 64} (hx : x = (openRegister s d)) {file full full' : Regex.Str}
    (h : file.head? = some '/' ∧ full = Path.render (Path.walk (Path.components file)) ∨
      file.head? ≠ some '/' ∧ ∃ dir, startDir s d = .ok dir ∧ dir.head? = some '/' ∧
        full = Path.render (Path.walk (Path.components dir ++ Path.components file)))
    (h' : Isolate.Leads s x file full') : full' = full := by
  have hk : Isolate.kernelBase s x = startDir s d := by
    subst hx
    unfold Isolate.kernelBase startDir openRegister
    cases d with
    | none => exact if_pos (show ((0xFFFFFFFFFFFFFF9C#64).truncate 32).toInt = -100 by decide)
    | some r => rfl
  rcases h with ⟨h1, rfl⟩ | ⟨h1, dir, h3, h2, rfl⟩
  · rcases h' with ⟨_, h⟩ | ⟨h, _⟩
    · exact h
    · exact absurd h1 h
  · rcases h' with ⟨h, _⟩ | ⟨_, dir', h4, h5⟩
    · exact absurd h h1
    · rw [hk, h3] at h4
      cases h4
      exact h5 h2

/-- **C89**: whatever file the kernel opens for a program run by an executor is one of the readable places, or one that its own patterns or those of the
configuration match; if it is opened for writing, one of the three writable devices, or one that its own patterns for writing match. Missing: `int 0x80` from
64-bit code and the x32 ABI. -/
theorem C89_opens_partial (u : Regex.Chars) (z : Sizes) (cmds : List Path.Str) (x : String) (l : List (String × Handler)) (hx : (x, l) ∈ executors cmds)
    (lib : Nat → Nat → Option Nat) (hlib : ByName lib) (main : Nat) (s : State) (hs : s.spawned = true) (a : Attempt)
    (hp : Abi.Spec.Possible a.code64 a.entry) (h80 : ¬ (a.code64 = true ∧ a.entry = .int80)) (hf : Faithful a) (c n : Nat) (hc : c ≠ 2)
    (h : Executes z (base ++ l) lib main s a (c, n)) (rows : List (Nat × String)) (ht : allTables[c]? = some rows) (name : String) (hn : (n, name) ∈ rows)
    (f : Nat) (ho : (name, f) ∈ Isolate.openCalls)
    (dir : FsPatterns.Spec.Str) (hdir : ∀ c ∈ dir, c ≠ '{' ∧ c ≠ '}') (own extra : List FsPatterns.Spec.Str) (more : List (Option FsPatterns.Spec.Str))
    (ownWrite : List FsPatterns.Spec.Str)
    (hr : ∀ x ∈ own.map some ++ extra.map some ++ more, ∃ p t, x = some p ∧ format a.stop.pid p = some t ∧ (Regex.parse t).isSome = true)
    (hw : ∀ p ∈ ownWrite, ∃ t, format a.stop.pid p = some t ∧ (Regex.parse t).isSome = true)
    (hj : Jailed u a.stop dir own extra more ownWrite) (full : FsPatterns.Spec.Str) (hopen : Opens a c (openDir name) (f - 1) full) :
    (Isolate.WantsWrite (a.stop.regs f) → (∃ e ∈ writable, Covers e full) ∨ ∃ p ∈ ownWrite, PartAccepts u a.stop.pid (some p) full) ∧
    (¬ Isolate.WantsWrite (a.stop.regs f) → (∃ e ∈ readable a.stop.pid dir, Covers e full) ∨ ∃ x ∈ own.map some ++ extra.map some ++ more, PartAccepts u a.stop.pid x full) := by
  obtain ⟨bytes, file, full', h1, h2, h3, h4⟩ := C62_opens_partial z cmds x l hx lib hlib main s hs a hp h80 hf c n hc h rows ht name hn f ho
  obtain ⟨bytes', file', h1', h2', h3'⟩ := hopen
  cases string_unique h1 h1'
  rw [h2] at h2'
  cases h2'
  cases leads_unique (by
    unfold openDir
    by_cases hno : name = "open"
    · rw [if_pos hno, if_pos hno]
      rfl
    · rw [if_neg hno, if_neg hno]
      rfl) h3' h3
  obtain ⟨kr, hkr, hr'⟩ := C64_read u a.stop.pid dir hdir own extra more hr
  obtain ⟨kw, hkw, hw'⟩ := C64_write u a.stop.pid ownWrite hw
  obtain ⟨kr', hkr', hjr⟩ := hj.read
  obtain ⟨kw', hkw', hjw⟩ := hj.write
  rw [hkr] at hkr'
  cases hkr'
  rw [hkw] at hkw'
  cases hkw'
  rcases h4 with ⟨_, b, hfl⟩ | ⟨b, hfl⟩
  · exact ⟨fun _ => (hw' full).1 ((hjw full).1 hfl), fun h => absurd b h⟩
  · exact ⟨fun hb => absurd ⟨rfl, hb⟩ b, fun _ => (hr' full).1 ((hjr full).1 hfl)⟩

/-- **C89**: nothing of what belongs to the judge, to other users or to the system is opened, in either way, unless it is below the directory of the submission
or one of the additional patterns matches it. -/
theorem C89_hidden_partial (u : Regex.Chars) (z : Sizes) (cmds : List Path.Str) (x : String) (l : List (String × Handler)) (hx : (x, l) ∈ executors cmds)
    (lib : Nat → Nat → Option Nat) (hlib : ByName lib) (main : Nat) (s : State) (hs : s.spawned = true) (a : Attempt)
    (hp : Abi.Spec.Possible a.code64 a.entry) (h80 : ¬ (a.code64 = true ∧ a.entry = .int80)) (hf : Faithful a) (c n : Nat) (hc : c ≠ 2)
    (h : Executes z (base ++ l) lib main s a (c, n)) (rows : List (Nat × String)) (ht : allTables[c]? = some rows) (name : String) (hn : (n, name) ∈ rows)
    (f : Nat) (ho : (name, f) ∈ Isolate.openCalls)
    (dir : FsPatterns.Spec.Str) (hdir : ∀ c ∈ dir, c ≠ '{' ∧ c ≠ '}') (own extra : List FsPatterns.Spec.Str) (more : List (Option FsPatterns.Spec.Str))
    (ownWrite : List FsPatterns.Spec.Str)
    (hr : ∀ x ∈ own.map some ++ extra.map some ++ more, ∃ p t, x = some p ∧ format a.stop.pid p = some t ∧ (Regex.parse t).isSome = true)
    (hw : ∀ p ∈ ownWrite, ∃ t, format a.stop.pid p = some t ∧ (Regex.parse t).isSome = true)
    (hj : Jailed u a.stop dir own extra more ownWrite) (full : FsPatterns.Spec.Str) (hopen : Opens a c (openDir name) (f - 1) full)
    (hnr : ∀ x ∈ own.map some ++ extra.map some ++ more, ¬ PartAccepts u a.stop.pid x full) (hnw : ∀ p ∈ ownWrite, ¬ PartAccepts u a.stop.pid (some p) full)
    (stem : String) (hstem : stem ∈ hiddenStems) (hpre : stem.toList <+: full) : dir <+: full ∧ ¬ Isolate.WantsWrite (a.stop.regs f) := by
  obtain ⟨h1, h2⟩ := C89_opens_partial u z cmds x l hx lib hlib main s hs a hp h80 hf c n hc h rows ht name hn f ho dir hdir own extra more ownWrite hr hw hj
    full hopen
  have hnot : ¬ Isolate.WantsWrite (a.stop.regs f) := by
    intro hwr
    rcases h1 hwr with ⟨e, he, hcov⟩ | ⟨p, hp', hacc⟩
    · have table : hiddenStems.all (fun s => (writable.all fun e => (e.2 = .exact) && !(s.toList.isPrefixOf (e.1 ++ ['\n'])))) = true := by decide +kernel
      have := List.all_eq_true.1 (List.all_eq_true.1 table stem hstem) e he
      simp only [Bool.and_eq_true, decide_eq_true_eq, Bool.not_eq_true', ← Bool.not_eq_true, List.isPrefixOf_iff_prefix] at this
      unfold Covers at hcov
      rw [this.1] at hcov
      rcases hcov with rfl | rfl
      · exact this.2 (hpre.trans (List.prefix_append _ _))
      · exact this.2 hpre
    · exact hnw p hp' hacc
  refine ⟨?_, hnot⟩
  rcases h2 hnot with hcov | ⟨x', hx', hacc⟩
  · exact C64_hidden a.stop.pid dir stem hstem full hpre hcov
  · exact absurd hacc (hnr x' hx')

/-- **C89**: nothing of other processes is opened for reading, unless it is below the directory of the submission or one of the additional patterns matches it,
and nothing at all for writing. -/
theorem C89_process_partial (u : Regex.Chars) (z : Sizes) (cmds : List Path.Str) (x : String) (l : List (String × Handler)) (hx : (x, l) ∈ executors cmds)
    (lib : Nat → Nat → Option Nat) (hlib : ByName lib) (main : Nat) (s : State) (hs : s.spawned = true) (a : Attempt)
    (hp : Abi.Spec.Possible a.code64 a.entry) (h80 : ¬ (a.code64 = true ∧ a.entry = .int80)) (hf : Faithful a) (c n : Nat) (hc : c ≠ 2)
    (h : Executes z (base ++ l) lib main s a (c, n)) (rows : List (Nat × String)) (ht : allTables[c]? = some rows) (name : String) (hn : (n, name) ∈ rows)
    (f : Nat) (ho : (name, f) ∈ Isolate.openCalls)
    (dir : FsPatterns.Spec.Str) (hdir : ∀ c ∈ dir, c ≠ '{' ∧ c ≠ '}') (own extra : List FsPatterns.Spec.Str) (more : List (Option FsPatterns.Spec.Str))
    (ownWrite : List FsPatterns.Spec.Str)
    (hr : ∀ x ∈ own.map some ++ extra.map some ++ more, ∃ p t, x = some p ∧ format a.stop.pid p = some t ∧ (Regex.parse t).isSome = true)
    (hw : ∀ p ∈ ownWrite, ∃ t, format a.stop.pid p = some t ∧ (Regex.parse t).isSome = true)
    (hj : Jailed u a.stop dir own extra more ownWrite) (other : Nat) (hne : other ≠ a.stop.pid) (rest : FsPatterns.Spec.Str)
    (hrest : rest = [] ∨ rest.head? = some '/')
    (hopen : Opens a c (openDir name) (f - 1) ("/proc/".toList ++ (Nat.toDigits 10 other ++ rest)))
    (hnr : ∀ x ∈ own.map some ++ extra.map some ++ more, ¬ PartAccepts u a.stop.pid x ("/proc/".toList ++ (Nat.toDigits 10 other ++ rest)))
    (hnw : ∀ p ∈ ownWrite, ¬ PartAccepts u a.stop.pid (some p) ("/proc/".toList ++ (Nat.toDigits 10 other ++ rest))) :
    dir <+: "/proc/".toList ++ (Nat.toDigits 10 other ++ rest) ∧ ¬ Isolate.WantsWrite (a.stop.regs f) := by
  obtain ⟨h1, h2⟩ := C89_opens_partial u z cmds x l hx lib hlib main s hs a hp h80 hf c n hc h rows ht name hn f ho dir hdir own extra more ownWrite hr hw hj
    _ hopen
  have hnot : ¬ Isolate.WantsWrite (a.stop.regs f) := by
    intro hwr
    rcases h1 hwr with ⟨e, he, hcov⟩ | ⟨p, hp', hacc⟩
    · have table : writable.all (fun e => (e.2 = .exact) && !("/proc/".toList.isPrefixOf (e.1 ++ ['\n']))) = true := by decide +kernel
      have := List.all_eq_true.1 table e he
      simp only [Bool.and_eq_true, decide_eq_true_eq, Bool.not_eq_true', ← Bool.not_eq_true, List.isPrefixOf_iff_prefix] at this
      unfold Covers at hcov
      rw [this.1] at hcov
      have hpre := List.prefix_append "/proc/".toList (Nat.toDigits 10 other ++ rest)
      rcases hcov with hcov | hcov
      · rw [hcov] at hpre
        exact this.2 (hpre.trans (List.prefix_append _ _))
      · rw [hcov] at hpre
        exact this.2 hpre
    · exact hnw p hp' hacc
  refine ⟨?_, hnot⟩
  rcases h2 hnot with hcov | ⟨x', hx', hacc⟩
  · exact C64_process a.stop.pid other hne dir rest hrest hcov
  · exact absurd hacc (hnr x' hx')

/-- **C89**: every other call that takes a path (`stat`, `access`, `readlink`, `execve` and the like) reaches the readable places only, except the commands of
BASH, which may be started. Missing: `int 0x80` from 64-bit code, the x32 ABI, `statfs`, and the calls some executors leave unchecked. -/
theorem C89_paths_partial (u : Regex.Chars) (z : Sizes) (cmds : List Path.Str) (x : String) (l : List (String × Handler)) (hx : (x, l) ∈ executors cmds)
    (lib : Nat → Nat → Option Nat) (hlib : ByName lib) (main : Nat) (s : State) (hs : s.spawned = true) (a : Attempt)
    (hp : Abi.Spec.Possible a.code64 a.entry) (h80 : ¬ (a.code64 = true ∧ a.entry = .int80)) (hf : Faithful a) (c n : Nat) (hc : c ≠ 2)
    (h : Executes z (base ++ l) lib main s a (c, n)) (rows : List (Nat × String)) (ht : allTables[c]? = some rows) (name : String) (hn : (n, name) ∈ rows)
    (d : Option Nat) (q : Nat) (hq : (name, d, q) ∈ Isolate.pathCalls) (hs1 : name ≠ "statfs") (hs2 : name ≠ "statfs64") (hun : (x, name) ∉ unchecked)
    (hno : name ∉ Isolate.openCalls.map (·.1))
    (dir : FsPatterns.Spec.Str) (hdir : ∀ c ∈ dir, c ≠ '{' ∧ c ≠ '}') (own extra : List FsPatterns.Spec.Str) (more : List (Option FsPatterns.Spec.Str))
    (ownWrite : List FsPatterns.Spec.Str)
    (hr : ∀ x ∈ own.map some ++ extra.map some ++ more, ∃ p t, x = some p ∧ format a.stop.pid p = some t ∧ (Regex.parse t).isSome = true)
    (hj : Jailed u a.stop dir own extra more ownWrite) (full : FsPatterns.Spec.Str) (hopen : Opens a c d q full) :
    (∃ e ∈ readable a.stop.pid dir, Covers e full) ∨ (∃ x ∈ own.map some ++ extra.map some ++ more, PartAccepts u a.stop.pid x full) ∨
      (x = "BASH" ∧ name = "execve" ∧ full ∈ cmds) := by
  obtain ⟨bytes, file, full', h1, h2, h3, h4⟩ := C62_paths_partial z cmds x l hx lib hlib main s hs a hp h80 hf c n hc h rows ht name hn d q hq hs1 hs2 hun hno
  obtain ⟨bytes', file', h1', h2', h3'⟩ := hopen
  cases string_unique h1 h1'
  rw [h2] at h2'
  cases h2'
  cases leads_unique (by cases d <;> rfl) h3' h3
  obtain ⟨kr, hkr, hr'⟩ := C64_read u a.stop.pid dir hdir own extra more hr
  obtain ⟨kr', hkr', hjr⟩ := hj.read
  rw [hkr] at hkr'
  cases hkr'
  rcases h4 with h4 | h4
  · rcases (hr' full).1 ((hjr full).1 h4) with h | h
    · exact .inl h
    · exact .inr (.inl h)
  · exact .inr (.inr h4)

/-- The bytes of `/etc/shadow`. -/
def shadow : List UInt8 := [47, 101, 116, 99, 47, 115, 104, 97, 100, 111, 119]

open Classical in
/-- 64-bit code of a submission in `/b` calls the 32-bit `open` for `/etc/shadow`, with the patterns in force. -/
noncomputable def shadowOpen (kr kw : Regex.Re) (u : Regex.Chars) : Attempt :=
  { pid := 7, code64 := true, entry := .int80, rax := 5#64
    stop := { gateOpen.stop with
      mem := ⟨fun a => if 100 ≤ a then shadow[a - 100]?.getD 0 else 0, fun _ _ => true, fun _ => true⟩
      regs := fun i => if i = 0 then 100#64 else 0#64
      readFs := [fun p => decide (Regex.Accepts u kr p)], writeFs := [fun p => decide (Regex.Accepts u kw p)] } }

/-- **C89 fails** for the 32-bit entry from 64-bit code: under the policy of every executor, with all patterns in force, the
kernel opens `/etc/shadow`, which is none of the readable places. -/
theorem C89_int80_fails (u : Regex.Chars) (cmds : List Path.Str) (x : String) (l : List (String × Handler)) (hx : (x, l) ∈ executors cmds) :
    ∃ (tr : List (Monitor.Stop Handler)) (s : State) (a : Attempt),
      Monitor.Spec.Reach' (config (base ++ l) 7) tr s ∧ s.spawned = true ∧ Abi.Spec.Possible a.code64 a.entry ∧ Faithful a ∧
      (∀ (z : Sizes) (lib : Nat → Nat → Option Nat), 6 ≤ z.x86 → Executes z (base ++ l) lib 7 s a (0, 5)) ∧ (5, "open") ∈ x86Table ∧
      Jailed u a.stop "/b".toList [] [] [] [] ∧ Opens a 0 (openDir "open") 0 "/etc/shadow".toList ∧
      ¬ ∃ e ∈ readable a.stop.pid "/b".toList, Covers e "/etc/shadow".toList := by
  obtain ⟨h1, h2, h3⟩ := started_ok (base ++ l)
  obtain ⟨kr, hkr, hr'⟩ := C64_read u gateOpen.stop.pid "/b".toList (by decide) [] [] [] (by simp)
  obtain ⟨kw, hkw, hw'⟩ := C64_write u gateOpen.stop.pid [] (by simp)
  refine ⟨startup, started (base ++ l), shadowOpen kr kw u, h1, h2, trivial, by show Faithful gateOpen; unfold Faithful; decide, ?_, by decide +kernel,
    ⟨⟨kr, hkr, ?_⟩, ⟨kw, hkw, ?_⟩⟩, ⟨shadow, "/etc/shadow".toList, ?_, ?_, .inl ⟨by decide +kernel, by decide +kernel⟩⟩, ?_⟩
  · intro z lib hz
    refine .inr (.inl ⟨none, 0, ?_, ?_⟩)
    · have hp : Monitor.Spec.Permits (config (base ++ l) 7) (shadowOpen kr kw u).view := by
        refine .inl ?_
        have e1 : (shadowOpen kr kw u).view.abi = 1 := by show gateOpen.view.abi = 1; decide
        have e2 : (shadowOpen kr kw u).view.nr = (5 : Nat) := by show gateOpen.view.nr = (5 : Nat); decide
        rw [e1, e2, show (config (base ++ l) 7).isArm = false by simp only [config], show (config (base ++ l) 7).tables 1 = table (base ++ l) 1 by simp only [config]]
        exact (C63_decision false (base ++ l) 1 x64Table rfl 5 "fstat" (by decide +kernel)).1
          (decides_common 51 "fstat" _ rfl (by decide +kernel) (by decide +kernel) cmds x l hx)
      rw [C37_seccomp_permitted (config (base ++ l) 7) rfl startup (started (base ++ l)) h1 h2 h3 (shadowOpen kr kw u).pid (shadowOpen kr kw u).view rfl hp]
      exact List.mem_singleton.2 rfl
    · have e : ((5#64).setWidth 32).toNat = 5 := by decide
      simp only [dispatch, shadowOpen, e]
      rw [if_pos (by omega)]
  · intro path
    simp [shadowOpen]
  · intro path
    simp [shadowOpen]
  · show ReadStr.StringAt (fun a => if 100 ≤ a then shadow[a - 100]?.getD 0 else 0) 100 shadow
    refine ⟨?_, ?_, rfl⟩
    · intro i hi
      have key : ∀ j : Fin 11, (if 100 ≤ 100 + j.val then shadow[100 + j.val - 100]?.getD 0 else 0) = shadow[j] := by decide +kernel
      exact (key ⟨i, hi⟩).symm
    · intro i hi
      have key : ∀ j : Fin 11, (if 100 ≤ 100 + j.val then shadow[100 + j.val - 100]?.getD 0 else 0) ≠ 0 := by decide +kernel
      exact key ⟨i, hi⟩
  · show gateOpen.stop.decode shadow = _
    decide +kernel
  · intro ⟨e, he, hc⟩
    have := (C64_hidden _ _ "/etc/shadow" (by decide +kernel) _ (List.prefix_refl _) ⟨e, he, hc⟩)
    revert this
    decide +kernel

open Classical in
/-- 64-bit code of a submission in `/b` opens `/b`, with the patterns in force. -/
noncomputable def jailedOpen (kr kw : Regex.Re) (u : Regex.Chars) : Attempt :=
  { goodOpen with stop := { goodOpen.stop with readFs := [fun p => decide (Regex.Accepts u kr p)], writeFs := [fun p => decide (Regex.Accepts u kw p)] } }

/-- The hypotheses are met. -/
example (u : Regex.Chars) : ∃ a : Attempt, (∀ (z : Sizes) (lib : Nat → Nat → Option Nat), 3 ≤ z.x64 →
      Executes z (base ++ []) lib 7 (started (base ++ [])) a (1, 2)) ∧ Faithful a ∧
    Jailed u a.stop "/b".toList [] [] [] [] ∧ Opens a 1 (openDir "open") 0 "/b".toList ∧ ("open", 1) ∈ Isolate.openCalls ∧ (2, "open") ∈ x64Table := by
  obtain ⟨kr, hkr, hr'⟩ := C64_read u goodOpen.stop.pid "/b".toList (by decide) [] [] [] (by simp)
  obtain ⟨kw, hkw, hw'⟩ := C64_write u goodOpen.stop.pid [] (by simp)
  refine ⟨jailedOpen kr kw u, ?_, by show Faithful goodOpen; unfold Faithful; decide, ⟨⟨kr, hkr, ?_⟩, ⟨kw, hkw, ?_⟩⟩, ⟨[47, 98], "/b".toList, split_b, by show goodOpen.stop.decode _ = _; decide, .inl ⟨rfl, by decide +kernel⟩⟩,
    by decide, by decide +kernel⟩
  · obtain ⟨h1, h2, h3⟩ := started_ok (base ++ [])
    intro z lib hz
    refine .inr (.inl ⟨none, 0, ?_, ?_⟩)
    · have hp : Monitor.Spec.Permits (config (base ++ []) 7) (jailedOpen kr kw u).view := by
        refine .inr (.inr ⟨.std (.path 0 true), ?_, ?_⟩)
        · have e1 : (jailedOpen kr kw u).view.abi = 1 := by show goodOpen.view.abi = 1; decide
          have e2 : (jailedOpen kr kw u).view.nr = (2 : Nat) := by show goodOpen.view.nr = (2 : Nat); decide
          rw [e1, e2, show (config (base ++ []) 7).isArm = false by simp only [config], show (config (base ++ []) 7).tables 1 = table (base ++ []) 1 by simp only [config]]
          exact (C63_decision false (base ++ []) 1 x64Table rfl 2 "open" (by decide +kernel)).2.1 _ (by simpa using base_open) (by decide)
        · refine (Isolate.C34_complete (jailedOpen kr kw u).stop 0 1 true Isolate.atFdcwd [47, 98] "/b".toList "/b".toList (by show 0 < goodOpen.stop.page; decide) rfl
            (by show ReadStr.effective goodOpen.stop.is32 (goodOpen.stop.regs 0).toNat ≠ 0; decide) split_b (by decide) (fun _ _ _ _ _ => rfl) (by show goodOpen.stop.decode _ = _; decide) (.inl rfl) (.inl ⟨rfl, by decide +kernel⟩)).2 ?_
          refine .inr ⟨?_, _, List.mem_cons_self, ?_⟩
          · rintro ⟨_, h⟩
            change Isolate.WantsWrite (goodOpen.stop.regs 1) at h
            revert h
            unfold Isolate.WantsWrite
            decide
          · simp only [decide_eq_true_eq]
            exact (hr' _).2 (.inl ⟨("/b".toList, .anything), by decide, List.prefix_refl _⟩)
      rw [C37_seccomp_permitted _ rfl startup _ h1 h2 h3 (jailedOpen kr kw u).pid (jailedOpen kr kw u).view rfl hp]
      exact List.mem_singleton.2 rfl
    · have e : ((2#64).setWidth 32).toNat = 2 := by decide
      simp only [dispatch, jailedOpen, goodOpen, e]
      rw [if_pos (by omega)]
  · intro path
    simp [jailedOpen]
  · intro path
    simp [jailedOpen]

end Verif.Confined
