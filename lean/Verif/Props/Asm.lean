import Verif.Model.Asm
import Verif.Spec.Asm
import Verif.Props.HelperFs
import Verif.Props.Autoconf

/-!
# C110 Assembler programs: which are offered and how they are run
-/

namespace Verif.Asm
open Verif.Arch Verif.Asm.Spec

private theorem item_some {α : Type} (a b : String → Option (Option α)) (k : String) (v : α) : item (a k) (b k) = some v ↔ Configured a b k v := by
  unfold item Configured
  cases h : a k with
  | none =>
    cases h' : b k with
    | none => simp
    | some x => simp
  | some x => simp

private theorem item_none {α : Type} (a b : String → Option (Option α)) (k : String) : item (a k) (b k) = none ↔ Unset a b k := by
  unfold Unset
  rw [Option.eq_none_iff_forall_ne_some]
  exact forall_congr' fun v => not_congr (item_some a b k v)

private theorem attr_some {α : Type} (a b : String → Option (Option α)) (k : String) (v : α) :
    attr a b k = some v ↔ Configured a b k v ∨ Unset a b k ∧ Configured a b (hyphens k) v := by
  rw [← item_some, ← item_some, ← item_none]
  unfold attr
  cases h : item (a k) (b k) <;> simp

private theorem program_some (w : World) (k p : String) : program w k = some p ↔ Configured w.runtime.path w.whole.path k p ∧ p ≠ "" := by
  unfold program
  rw [Option.filter_eq_some_iff, item_some]
  simp

/-- The name of a machine. -/
def hostName : Host → String
  | .x64 => "x64"
  | .x86 => "x86"
  | .arm => "arm"
  | .arm64 => "arm64"

/-- **C110 (offered).** An assembler language is offered exactly if its programs can be traced on this machine or an emulator is configured, assembler and linker are configured,
they and the dynamic linker and all start files exist, and it passes its self-test unless that is skipped. -/
theorem C110_offered (w : World) (k : Kind) (skip : Bool) : offered w k skip = true ↔
    (canDebug w k = true ∨ ∃ q, qemuPath w k = some q) ∧
    (∃ as ld, Configured w.runtime.path w.whole.path k.as as ∧ Configured w.runtime.path w.whole.path k.ld ld ∧ as ≠ "" ∧ ld ≠ "" ∧
      ∀ f ∈ [as, ld, linker w k] ++ crtPre w k ++ crtPost w k, w.isFile f = true) ∧
    (skip = true ∨ w.passes k.lang = true) := by
  unfold offered
  rw [← Option.isSome_iff_exists]
  constructor
  · intro h
    split at h
    · cases h
    · rename_i hn
      split at h
      · rename_i as ld ha hl
        split at h
        · cases h
        · rename_i h1
          split at h
          · cases h
          · rename_i h2
            rw [program_some] at ha hl
            refine ⟨?_, ⟨as, ld, ha.1, hl.1, ha.2, hl.2, ?_⟩, by simpa using h⟩
            · cases hc : canDebug w k <;> cases hq : qemuPath w k <;> simp_all
            · simp only [List.any_cons, List.any_nil, Bool.or_eq_true, List.any_eq_true, Bool.not_eq_true', not_or, not_exists, not_and, Bool.not_eq_false, Bool.or_false] at h1 h2
              intro f hf
              simp only [List.mem_append, List.mem_cons, List.not_mem_nil, or_false] at hf
              rcases hf with ((rfl | rfl | rfl) | hf) | hf
              · exact h1.1
              · exact h1.2.1
              · exact h1.2.2
              · exact h2.1 f hf
              · exact h2.2 f hf
      · cases h
  · rintro ⟨hc, ⟨as, ld, ha, hl, ha', hl', hf⟩, hs⟩
    rw [if_neg (by cases h1 : canDebug w k <;> cases h2 : qemuPath w k <;> simp_all)]
    have e1 : program w k.as = some as := (program_some _ _ _).2 ⟨ha, ha'⟩
    have e2 : program w k.ld = some ld := (program_some _ _ _).2 ⟨hl, hl'⟩
    simp only [e1, e2]
    rw [if_neg, if_neg]
    · simpa using hs
    · simp only [Bool.or_eq_true, List.any_eq_true, Bool.not_eq_true', not_or, not_exists, not_and, Bool.not_eq_false]
      exact ⟨fun f h => hf f (by simp [h]), fun f h => hf f (by simp [h])⟩
    · simp only [List.any_cons, List.any_nil, Bool.or_eq_true, Bool.not_eq_true', not_or, Bool.not_eq_false, Bool.or_false]
      exact ⟨hf as (by simp), hf ld (by simp), hf _ (by simp)⟩

/-- **C110 (machines).** The languages whose programs can be traced without an emulator are those of the machine, and of the 32-bit one below it. -/
theorem C110_machines (w : World) (k : Kind) (hk : k ∈ kinds) : canDebug w k = true ↔ ∃ l, (k.lang, l) ∈ native ∧ hostName w.host ∈ l := by
  unfold canDebug
  generalize w.host = h
  revert k h
  have : ∀ k ∈ kinds, ∀ h ∈ [Host.x64, .x86, .arm, .arm64], supports h k.abi = native.any (fun e => e.1 == k.lang && e.2.contains (hostName h)) := by decide
  intro k hk h
  rw [this k hk h (by cases h <;> simp)]
  simp only [List.any_eq_true, Bool.and_eq_true, beq_iff_eq, List.contains_iff_mem]
  constructor
  · rintro ⟨⟨a, l⟩, hm, rfl, hh⟩; exact ⟨l, hm, hh⟩
  · rintro ⟨l, hm, hh⟩; exact ⟨_, hm, rfl, hh⟩

private theorem crt_given (w : World) (key : String) (d l : List String)
    (hl : Configured w.runtime.paths w.whole.paths key l ∨ Unset w.runtime.paths w.whole.paths key ∧ Configured w.runtime.paths w.whole.paths (hyphens key) l)
    (hne : l ≠ []) : crt w key d = l := by
  unfold crt
  rw [(attr_some _ _ _ _).2 hl]
  cases l with
  | nil => exact absurd rfl hne
  | cons a l => rfl

private theorem crt_default (w : World) (key : String) (d : List String)
    (h : ∀ l, Configured w.runtime.paths w.whole.paths key l ∨ Unset w.runtime.paths w.whole.paths key ∧ Configured w.runtime.paths w.whole.paths (hyphens key) l → l = []) :
    crt w key d = d := by
  unfold crt
  cases ha : attr w.runtime.paths w.whole.paths key with
  | none => rfl
  | some l =>
    have := h l ((attr_some _ _ _ _).1 ha)
    subst this
    rfl

private theorem dashed : ∀ k ∈ kinds, hyphens ("qemu_" ++ k.suffix) = "qemu-" ++ k.suffix ∧ hyphens ("crt_pre_" ++ k.suffix) = "crt-pre-" ++ k.suffix ∧
    hyphens ("crt_post_" ++ k.suffix) = "crt-post-" ++ k.suffix := by decide +kernel

/-- **C110 (settings).** The emulator, the dynamic linker and the start files are the configured ones, under either spelling of the key but for the linker; a list without entries and a path without
characters count as nothing configured, except for the emulator. -/
theorem C110_settings (w : World) (k : Kind) (hk : k ∈ kinds) : ∃ as ld s, (k.lang, as, ld, s) ∈ tools ∧ k.as = as ∧ k.ld = ld ∧
    (∀ q, qemuPath w k = some q ↔ Configured w.runtime.path w.whole.path ("qemu_" ++ s) q ∨
      Unset w.runtime.path w.whole.path ("qemu_" ++ s) ∧ Configured w.runtime.path w.whole.path ("qemu-" ++ s) q) ∧
    (∀ p, Configured w.runtime.path w.whole.path ("ld.so_" ++ s) p → p ≠ "" → linker w k = p) ∧
    (∀ l, l ≠ [] → (Configured w.runtime.paths w.whole.paths ("crt_pre_" ++ s) l ∨ Unset w.runtime.paths w.whole.paths ("crt_pre_" ++ s) ∧
      Configured w.runtime.paths w.whole.paths ("crt-pre-" ++ s) l) → crtPre w k = l) ∧
    (∀ l, l ≠ [] → (Configured w.runtime.paths w.whole.paths ("crt_post_" ++ s) l ∨ Unset w.runtime.paths w.whole.paths ("crt_post_" ++ s) ∧
      Configured w.runtime.paths w.whole.paths ("crt-post-" ++ s) l) → crtPost w k = l) := by
  obtain ⟨d1, d2, d3⟩ := dashed k hk
  refine ⟨k.as, k.ld, k.suffix, ?_, rfl, rfl, fun q => by rw [← d1]; exact attr_some _ _ _ _, fun p hp hne => ?_, fun l hne hl => crt_given _ _ _ _ (by rw [d2]; exact hl) hne,
    fun l hne hl => crt_given _ _ _ _ (by rw [d3]; exact hl) hne⟩
  · exact (by decide : ∀ k ∈ kinds, (k.lang, k.as, k.ld, k.suffix) ∈ tools) k hk
  · unfold linker
    rw [(program_some _ _ _).2 ⟨hp, hne⟩]

/-- **C110 (defaults).** Where nothing is configured, or a list without entries, they are those of Debian. -/
theorem C110_defaults (w : World) (k : Kind) (hk : k ∈ kinds) : ∃ l d, (k.suffix, l, d) ∈ debian w.lib32 ∧
    ((∀ p, Configured w.runtime.path w.whole.path ("ld.so_" ++ k.suffix) p → p = "") → linker w k = l) ∧
    ((∀ l, Configured w.runtime.paths w.whole.paths ("crt_pre_" ++ k.suffix) l ∨ Unset w.runtime.paths w.whole.paths ("crt_pre_" ++ k.suffix) ∧
      Configured w.runtime.paths w.whole.paths ("crt-pre-" ++ k.suffix) l → l = []) →
      crtPre w k = [d ++ "/crt1.o", d ++ "/crti.o"]) ∧
    ((∀ l, Configured w.runtime.paths w.whole.paths ("crt_post_" ++ k.suffix) l ∨ Unset w.runtime.paths w.whole.paths ("crt_post_" ++ k.suffix) ∧
      Configured w.runtime.paths w.whole.paths ("crt-post-" ++ k.suffix) l → l = []) →
      crtPost w k = [d ++ "/crtn.o"]) := by
  have key : ∀ b : Bool, ∀ k ∈ kinds, ∃ e ∈ debian b, e.1 = k.suffix ∧ e.2.1 = linkerDefault k.suffix ∧
      ∀ w : World, w.lib32 = b → [crtDir w k.suffix ++ "crt1.o", crtDir w k.suffix ++ "crti.o"] = [e.2.2 ++ "/crt1.o", e.2.2 ++ "/crti.o"] ∧
        [crtDir w k.suffix ++ "crtn.o"] = [e.2.2 ++ "/crtn.o"] := by
    intro b k hk
    simp only [kinds, List.mem_cons, List.not_mem_nil, or_false] at hk
    rcases hk with rfl | rfl | rfl | rfl | rfl
    · refine ⟨_, List.mem_cons_self, rfl, rfl, fun w hw => ?_⟩
      cases b <;> simp [crtDir, hw] <;> decide
    · refine ⟨_, List.mem_cons_of_mem _ List.mem_cons_self, rfl, rfl, fun w hw => ?_⟩
      simp [crtDir]
    · refine ⟨_, List.mem_cons_of_mem _ (List.mem_cons_of_mem _ List.mem_cons_self), rfl, rfl, fun w hw => ?_⟩
      simp [crtDir]
    · refine ⟨_, List.mem_cons_self, rfl, rfl, fun w hw => ?_⟩
      cases b <;> simp [crtDir, hw] <;> decide
    · refine ⟨_, List.mem_cons_of_mem _ List.mem_cons_self, rfl, rfl, fun w hw => ?_⟩
      simp [crtDir]
  obtain ⟨⟨s, l, d⟩, hm, hs, hl, hd⟩ := key w.lib32 k hk
  refine ⟨l, d, by rw [← hs]; exact hm, fun h => ?_, fun h => ?_, fun h => ?_⟩
  · have : program w ("ld.so_" ++ k.suffix) = none := by
      rw [Option.eq_none_iff_forall_ne_some]
      intro v hv
      have := (program_some _ _ _).1 hv
      exact this.2 (h v this.1)
    unfold linker
    rw [this]
    exact hl.symm
  · exact (crt_default _ _ _ (by rw [(dashed k hk).2.1]; exact h)).trans (hd w rfl).1
  · exact (crt_default _ _ _ (by rw [(dashed k hk).2.2]; exact h)).trans (hd w rfl).2

/-- **C110 (running).** A program of an offered language is given to the emulator where one is configured and there, even if the machine could run it itself; otherwise it is executed as it is, and then it can be traced
— provided that a configured emulator is there. -/
theorem C110_runs_partial (w : World) (k : Kind) (skip : Bool) (h : offered w k skip = true) (hq : ∀ q, qemuPath w k = some q → w.isFile q = true) (exe : String) :
    (∀ q, qemuPath w k = some q → useQemu w k = true ∧ executed w k exe = q) ∧
    (qemuPath w k = none → useQemu w k = false ∧ executed w k exe = exe ∧ canDebug w k = true) := by
  constructor
  · intro q e
    unfold useQemu executed
    simp [e, hq q e]
  · intro e
    refine ⟨by unfold useQemu; rw [e], by unfold executed; rw [e], ?_⟩
    rcases ((C110_offered w k skip).1 h).1 with h | ⟨q, hq'⟩
    · exact h
    · rw [e] at hq'; cases hq'

/-- **C110 (files).** Under the emulator a program reads besides the places of every program the least address that can be mapped and what is below `/etc/qemu-binfmt`; its own file is in its directory already. Run as it
is it reads nothing more. -/
theorem C110_files (u : Regex.Chars) (pid : Nat) (dir problem : List Char) (hd : HelperFs.Spec.Ordinary dir) (hp : HelperFs.Spec.Ordinary problem) (emulated : Bool) :
    ∃ k, FsPatterns.jailRe pid (FsPatterns.readParts [] [] dir (more emulated (dir ++ '/' :: problem))) = some k ∧ ∀ path, Regex.Accepts u k path ↔
      (∃ e ∈ FsPatterns.Spec.readable pid dir, FsPatterns.Spec.Covers e path) ∨ emulated = true ∧ (path = "/proc/sys/vm/mmap_min_addr".toList ∨
        path = "/proc/sys/vm/mmap_min_addr\n".toList ∨ "/etc/qemu-binfmt/".toList <+: path) := by
  have hbr : ∀ c ∈ dir, c ≠ '{' ∧ c ≠ '}' := by
    intro c hc
    have := hd c hc
    constructor <;> rintro rfl <;> exact this (by decide)
  have hexe : HelperFs.Spec.Ordinary (dir ++ '/' :: problem) := by
    intro c hc
    rcases List.mem_append.1 hc with hc | hc
    · exact hd c hc
    · rcases List.mem_cons.1 hc with rfl | hc
      · decide
      · exact hp c hc
  have hdirmem : (dir, FsPatterns.Spec.Tail.anything) ∈ FsPatterns.Spec.readable pid dir := by
    unfold FsPatterns.Spec.readable; simp
  cases emulated with
  | false =>
    obtain ⟨k, hk, ha⟩ := FsPatterns.C64_read u pid dir hbr [] [] [] (by simp)
    exact ⟨k, hk, fun path => by rw [ha]; simp⟩
  | true =>
    have f1 : FsPatterns.format pid "/proc/sys/vm/mmap_min_addr$".toList = some "/proc/sys/vm/mmap_min_addr$".toList := FsPatterns.format_plain pid _ (by decide)
    have p1 : Regex.parse "/proc/sys/vm/mmap_min_addr$".toList = some (Regex.seqs ("/proc/sys/vm/mmap_min_addr".toList.map .chr ++ [.eos])) := by rfl
    obtain ⟨k, hk, ha⟩ := FsPatterns.C64_read u pid dir hbr [] [] (more true (dir ++ '/' :: problem)) (by
      intro x hx
      simp only [more, List.map_nil, List.nil_append, if_true, List.mem_cons, List.not_mem_nil, or_false] at hx
      rcases hx with rfl | rfl | rfl
      · exact ⟨_, _, rfl, f1, by rw [p1]; rfl⟩
      · obtain ⟨t, h1, h2⟩ := (HelperFs.part_ordinary u pid "/etc/qemu-binfmt/".toList (by decide) []).1
        exact ⟨_, _, rfl, h1, h2⟩
      · obtain ⟨t, h1, h2⟩ := (HelperFs.part_ordinary u pid _ hexe []).1
        exact ⟨_, _, rfl, h1, h2⟩)
    refine ⟨k, hk, fun path => (ha path).trans ?_⟩
    have m1 : FsPatterns.PartAccepts u pid (some "/proc/sys/vm/mmap_min_addr$".toList) path ↔
        path = "/proc/sys/vm/mmap_min_addr".toList ∨ path = "/proc/sys/vm/mmap_min_addr\n".toList := by
      have hM : ∀ t, Regex.M u (Regex.seqs ("/proc/sys/vm/mmap_min_addr".toList.map .chr ++ [.eos])) path t ↔
          path = "/proc/sys/vm/mmap_min_addr".toList ++ t ∧ (t = [] ∨ t = ['\n']) := by
        intro t
        rw [Regex.M_seqs_append]
        constructor
        · rintro ⟨x, h1, m, ⟨rfl, h2⟩, h3⟩
          cases h3
          exact ⟨(Regex.M_lits u _ _ _).1 h1, h2⟩
        · rintro ⟨h1, h2⟩
          exact ⟨t, (Regex.M_lits u _ _ _).2 h1, t, ⟨rfl, h2⟩, rfl⟩
      constructor
      · rintro ⟨p, t, r, hp', ht, hr, x, hm⟩
        cases hp'
        rw [f1] at ht
        cases ht
        rw [p1] at hr
        cases hr
        rcases (hM x).1 hm with ⟨h1, rfl | rfl⟩
        · exact .inl (by rw [h1, List.append_nil])
        · exact .inr h1
      · intro h
        refine ⟨_, _, _, rfl, f1, p1, ?_⟩
        rcases h with h | h
        · exact ⟨[], (hM _).2 ⟨by rw [h, List.append_nil], .inl rfl⟩⟩
        · exact ⟨['\n'], (hM _).2 ⟨h, .inr rfl⟩⟩
    simp only [more, List.map_nil, List.nil_append, if_true, List.mem_cons, List.not_mem_nil, or_false, true_and]
    constructor
    · rintro (h | ⟨x, rfl | rfl | rfl, h⟩)
      · exact .inl h
      · exact .inr ((or_assoc).1 (.inl (m1.1 h)))
      · exact .inr (.inr (.inr ((HelperFs.part_ordinary u pid _ (by decide) path).2.1 h)))
      · refine .inl ⟨_, hdirmem, ?_⟩
        have := (HelperFs.part_ordinary u pid _ hexe path).2.1 h
        exact (List.prefix_append dir _).trans this
    · rintro (h | h | h | h)
      · exact .inl h
      · exact .inr ⟨_, .inl rfl, m1.2 (.inl h)⟩
      · exact .inr ⟨_, .inl rfl, m1.2 (.inr h)⟩
      · exact .inr ⟨_, .inr (.inl rfl), (HelperFs.part_ordinary u pid _ (by decide) path).2.2 h⟩

/-! ## Where it fails -/

namespace AsmEx

/-- A 64-bit machine with assemblers and linkers for ARM and an emulator that is configured but not there. -/
def noQemu : World where
  host := .x64
  runtime := { path := fun k => if k = "as_arm" then some (some "/usr/bin/arm-as") else if k = "ld_arm" then some (some "/usr/bin/arm-ld")
                 else if k = "qemu_arm" then some (some "/usr/bin/qemu-arm") else none
               paths := fun _ => none }
  whole := ⟨fun _ => none, fun _ => none⟩
  lib32 := false
  isFile f := f ≠ "/usr/bin/qemu-arm"
  passes _ := false

/-- The same machine with an emulator. -/
def withQemu : World := { noQemu with isFile := fun _ => true, passes := fun _ => true }

/-- A 64-bit machine with assembler and linker, but without the files of the C library. -/
def noLibc : World where
  host := .x64
  runtime := { path := fun k => if k = "as_x64" then some (some "/usr/bin/as") else if k = "ld_x64" then some (some "/usr/bin/ld") else none
               paths := fun _ => none }
  whole := ⟨fun _ => none, fun _ => none⟩
  lib32 := false
  isFile f := f = "/usr/bin/as" ∨ f = "/usr/bin/ld"
  passes _ := true

def arm : Kind := ⟨"GASARM", .arm, "as_arm", "ld_arm", "arm"⟩
def gas64 : Kind := ⟨"GAS64", .x64, "as_x64", "ld_x64", "x64"⟩

end AsmEx
open AsmEx

/-- **C110, where it fails: a missing emulator.** With self-tests skipped a language is offered whose programs the machine can neither run nor trace, if an emulator is configured that is not there: its
programs are executed as they are. -/
theorem C110_missing_fails : ∃ (w : World) (k : Kind), k ∈ kinds ∧ offered w k true = true ∧ canDebug w k = false ∧ ∀ exe, executed w k exe = exe := by
  refine ⟨noQemu, arm, by simp [kinds, arm], by decide +kernel, by decide, fun exe => ?_⟩
  have : qemuPath noQemu arm = some "/usr/bin/qemu-arm" := by decide +kernel
  unfold executed
  rw [this]
  rfl

/-- **C110, where it fails: the C library.** A language is not offered where the start files of the C library are missing, though programs that do not ask for it would be assembled, linked and run without them. -/
theorem C110_libc_fails : ∃ (w : World) (k : Kind), k ∈ kinds ∧ canDebug w k = true ∧ w.passes k.lang = true ∧
    (∃ as ld, program w k.as = some as ∧ program w k.ld = some ld ∧ w.isFile as = true ∧ w.isFile ld = true) ∧ ∀ skip, offered w k skip = false := by
  refine ⟨noLibc, gas64, by simp [kinds, gas64], by decide, rfl, ⟨"/usr/bin/as", "/usr/bin/ld", by decide +kernel, by decide +kernel, by decide, by decide⟩, fun skip => ?_⟩
  cases skip <;> decide +kernel

/-- **C110, where it fails: finding it.** The search for installed runtimes never configures a language that needs the emulator, on any machine, though it would be offered if it were configured. -/
theorem C110_search_fails : (∃ (w : World) (k : Kind), k ∈ kinds ∧ offered w k false = true ∧ canDebug w k = false) ∧
    ∀ (a : Autoconf.World) (verbose : Bool) (e : Autoconf.Exec) (abi : String) (m : List (String × List String)), e.how = .asm abi m → a.traceable abi = false →
      Autoconf.autoconfig a verbose e = (.failed, []) := by
  refine ⟨⟨withQemu, arm, by simp [kinds, arm], by decide +kernel, by decide⟩, fun a v e abi m h ht => ?_⟩
  unfold Autoconf.autoconfig
  rw [h]
  simp [ht]

/-- The hypotheses of the theorems are met: an emulator that is there, and a machine's own language. -/
example : offered withQemu arm false = true ∧ qemuPath withQemu arm = some "/usr/bin/qemu-arm" ∧ useQemu withQemu arm = true := by
  refine ⟨by decide +kernel, by decide +kernel, by decide +kernel⟩
example : offered { noLibc with isFile := fun _ => true } gas64 false = true ∧ qemuPath { noLibc with isFile := fun _ => true } gas64 = none := by
  refine ⟨by decide +kernel, by decide +kernel⟩
example : HelperFs.Spec.Ordinary "/tmp/tmpk3_x9abz".toList ∧ HelperFs.Spec.Ordinary "aplusb".toList := by decide
/-- The other spelling, and the value at the top of the configuration. -/
example : crtPre { noLibc with runtime := { path := fun _ => none, paths := fun k => if k = "crt-pre-x64" then some (some ["/a.o"]) else none } } gas64 = ["/a.o"] ∧
    linker { noLibc with whole := { path := fun k => if k = "ld.so_x64" then some (some "/ld") else none, paths := fun _ => none } } gas64 = "/ld" := by decide +kernel

end Verif.Asm
