import Mathlib.Tactic.Linarith
import Mathlib.Tactic.NormNum
import Verif.Spec.Limits
import Verif.Props.Start
import Verif.Model.Family

/-!
# C115: the limits a program runs under are the ones asked for, or the start is refused
-/

namespace Verif.Limits
open Verif.Child Verif.Start Verif.Start.Spec Verif.Limits.Spec
open Verif.Props.Start (fold_other setLimit_at)

private theorem toUnsigned_ok (w : Nat) (n : Int) (b : BitVec w) (h : toUnsigned w n = .ok b) :
    0 ≤ n ∧ n < 2 ^ w ∧ (b.toNat : Int) = n := by
  unfold toUnsigned at h
  split at h
  · rename_i hc
    cases h
    refine ⟨hc.1, hc.2, ?_⟩
    rw [BitVec.toNat_ofInt]
    have : n % (2 ^ w : Int) = n := Int.emod_eq_of_lt hc.1 hc.2
    push_cast
    rw [this]
    omega
  · cases h

private theorem toInt_ok (n : Int) (b : BitVec 32) (h : toInt n = .ok b) : -2 ^ 31 ≤ n ∧ n < 2 ^ 31 ∧ b.toInt = n := by
  unfold toInt at h
  split at h
  · rename_i hc
    cases h
    refine ⟨hc.1, hc.2, ?_⟩
    rw [BitVec.toInt_ofInt]
    apply Int.bmod_eq_of_le <;> omega
  · cases h

private theorem cpuTime_fin (rnd : ℚ → ℚ) (q : ℚ) :
    cpuTime rnd (.fin q) = if q = 0 then .ok 0 else toUnsigned 32 (trunc (rnd (q + 5))) := rfl

/-- What a successful `__init__` has in its fields. -/
private theorem build_ok {W : Nat} {rnd : ℚ → ℚ} {a : Ask} {c : CConf W} (h : build W rnd a = .ok c) :
    cpuTime rnd a.time = .ok c.cpu ∧ toUnsigned W (a.memory * 1024 + a.dataGrace * 1024) = .ok c.memory ∧
    toUnsigned W (if a.memory ≠ 0 then a.memory * 1024 + a.addressGrace * 1024 else 0) = .ok c.address ∧
    toInt a.nproc = .ok c.nproc ∧ toInt a.fsize = .ok c.fsize := by
  unfold build at h
  cases h1 : cpuTime rnd a.time <;> simp only [h1, bind, Except.bind] at h
  · cases h
  cases h2 : toUnsigned W (a.memory * 1024 + a.dataGrace * 1024) <;> simp only [h2] at h
  · cases h
  cases h3 : toUnsigned W (if a.memory ≠ 0 then a.memory * 1024 + a.addressGrace * 1024 else 0) <;> simp only [h3] at h
  · cases h
  cases h4 : toInt a.nproc <;> simp only [h4] at h
  · cases h
  cases h5 : toInt a.fsize <;> simp only [h5] at h
  · cases h
  cases h
  exact ⟨rfl, rfl, rfl, rfl, rfl⟩

private theorem trunc_range (q : ℚ) : (0 ≤ trunc q ∧ trunc q < 2 ^ 32) ↔ (-1 < q ∧ q < 2 ^ 32) := by
  unfold trunc
  split
  · rename_i h
    constructor
    · intro ⟨h1, h2⟩
      refine ⟨by linarith, ?_⟩
      have := Int.floor_lt.1 h2
      push_cast at this
      exact this
    · intro ⟨h1, h2⟩
      refine ⟨Int.floor_nonneg.2 h, Int.floor_lt.2 ?_⟩
      push_cast
      exact h2
  · rename_i h
    have h := not_le.1 h
    constructor
    · intro ⟨h1, h2⟩
      refine ⟨?_, by linarith⟩
      have := Int.lt_ceil.1 (show (-1 : Int) < ⌈q⌉ by omega)
      push_cast at this
      exact this
    · intro ⟨h1, h2⟩
      have : (-1 : Int) < ⌈q⌉ := Int.lt_ceil.2 (by push_cast; exact h1)
      refine ⟨by omega, ?_⟩
      have : ⌈q⌉ ≤ 0 := Int.ceil_le.2 (by push_cast; exact h.le)
      omega

/-- **C115**: a program is started exactly if the numbers fit the C types; otherwise the constructor raises, and nothing was started. -/
theorem C115_starts (W : Nat) (rnd : ℚ → ℚ) (a : Ask) : (∃ c, build W rnd a = .ok c) ↔ Fits W rnd a := by
  constructor
  · rintro ⟨c, h⟩
    obtain ⟨h1, h2, h3, h4, h5⟩ := build_ok h
    obtain ⟨g2, g2', -⟩ := toUnsigned_ok _ _ _ h2
    obtain ⟨g3, g3', -⟩ := toUnsigned_ok _ _ _ h3
    obtain ⟨g4, g4', -⟩ := toInt_ok _ _ h4
    obtain ⟨g5, g5', -⟩ := toInt_ok _ _ h5
    refine ⟨?_, ⟨by omega, by linarith⟩, fun hm => ?_, ⟨g4, g4'⟩, ⟨g5, g5'⟩⟩
    · cases ht : a.time with
      | fin q =>
        refine ⟨q, rfl, ?_⟩
        rw [ht] at h1
        unfold cpuTime at h1
        by_cases hq : q = 0
        · exact .inl hq
        · simp only [hq, if_false] at h1
          obtain ⟨k1, k2, -⟩ := toUnsigned_ok _ _ _ h1
          exact .inr ((trunc_range _).1 ⟨k1, k2⟩)
      | inf b => rw [ht] at h1; cases h1
      | nan => rw [ht] at h1; cases h1
    · rw [if_pos hm] at g3 g3'
      exact ⟨by omega, by linarith⟩
  · intro h
    obtain ⟨t, ht, hr⟩ := h.time
    have h1 : ∃ b, cpuTime rnd a.time = .ok b := by
      rw [ht]
      by_cases hq : t = 0
      · exact ⟨_, by rw [cpuTime_fin, if_pos hq]⟩
      · rcases hr with hr | hr
        · exact absurd hr hq
        · exact ⟨_, by rw [cpuTime_fin, if_neg hq, toUnsigned, if_pos ((trunc_range _).2 hr)]⟩
    obtain ⟨b1, h1⟩ := h1
    have h2 : ∃ b, toUnsigned W (a.memory * 1024 + a.dataGrace * 1024) = .ok b :=
      ⟨_, by rw [toUnsigned, if_pos ⟨by have := h.data.1; omega, by have := h.data.2; linarith⟩]⟩
    obtain ⟨b2, h2⟩ := h2
    have h3 : ∃ b, toUnsigned W (if a.memory ≠ 0 then a.memory * 1024 + a.addressGrace * 1024 else 0) = .ok b := by
      by_cases hm : a.memory ≠ 0
      · rw [if_pos hm]
        exact ⟨_, by rw [toUnsigned, if_pos ⟨by have := (h.address hm).1; omega, by have := (h.address hm).2; linarith⟩]⟩
      · rw [if_neg hm]
        exact ⟨_, by rw [toUnsigned, if_pos ⟨le_refl _, by positivity⟩]⟩
    obtain ⟨b3, h3⟩ := h3
    have h4 : toInt a.nproc = .ok (BitVec.ofInt 32 a.nproc) := by rw [toInt, if_pos h.nproc]
    have h5 : toInt a.fsize = .ok (BitVec.ofInt 32 a.fsize) := by rw [toInt, if_pos h.fsize]
    refine ⟨⟨b2, b3, b1, BitVec.ofInt 32 a.nproc, BitVec.ofInt 32 a.fsize⟩, ?_⟩
    unfold build
    simp only [h1, h2, h3, h4, h5, bind, Except.bind]
    rfl

/-- A resource set once ends as that one call leaves it. -/
private theorem fold_once (p : Bool) (qs : List (Res × Option Nat × Option Nat)) (l : Limits) (q : Res × Option Nat × Option Nat)
    (hn : qs.Pairwise (fun a b => a.1 ≠ b.1)) (hm : q ∈ qs) : qs.foldl (setLimit p) l q.1 = setLimit p l q q.1 := by
  obtain ⟨pre, post, he⟩ := List.append_of_mem hm
  rw [he] at hn ⊢
  rw [List.foldl_append, List.foldl_cons, fold_other]
  · have h0 : pre.foldl (setLimit p) l q.1 = l q.1 :=
      fold_other p q.1 pre l (fun x hx => (List.pairwise_append.1 hn).2.2 x hx q List.mem_cons_self)
    have key : ∀ l1 l2 : Limits, l1 q.1 = l2 q.1 → setLimit p l1 q q.1 = setLimit p l2 q q.1 := by
      intro l1 l2 e
      unfold setLimit
      rw [e]
      split
      · simp
      · exact e
    exact key _ _ h0
  · intro x hx e
    exact (List.pairwise_cons.1 (List.pairwise_append.1 hn).2.1).1 x hx e.symm

private theorem calls_once {W : Nat} (c : CConf W) : (calls c).Pairwise (fun a b => a.1 ≠ b.1) := by
  unfold calls
  split_ifs <;> simp

private theorem imposed_once {W : Nat} (p : Bool) (l : Limits) (c : CConf W) (r : Res) (s h : Option Nat) (hm : (r, s, h) ∈ calls c) :
    imposed p l c r = setLimit p l (r, s, h) r := fold_once p (calls c) l (r, s, h) (calls_once c) hm

private theorem imposed_other {W : Nat} (p : Bool) (l : Limits) (c : CConf W) (r : Res) (hm : ∀ q ∈ calls c, q.1 ≠ r) :
    imposed p l c r = l r := fold_other p r (calls c) l hm

private theorem rlim_kb (W n : Nat) (hW : Width W) : rlim W (n * 1024) = some (n * 1024) := by
  unfold rlim
  rw [if_neg]
  rcases hW with rfl | rfl <;> norm_num <;> omega

private theorem rlim_int (W n : Nat) (hW : Width W) (h : n < 2 ^ 31) : rlim W n = some n := by
  unfold rlim
  rw [if_neg]
  rcases hW with rfl | rfl <;> norm_num <;> omega

private theorem address_call {W : Nat} {rnd : ℚ → ℚ} {a : Ask} {c : CConf W} (hW : Width W) (h : build W rnd a = .ok c) (n : Nat)
    (hm : a.memory ≠ 0) (hn : a.memory + a.addressGrace = n) (h0 : n ≠ 0) : (Res.as, some (n * 1024), some (n * 1024)) ∈ calls c := by
  obtain ⟨-, -, h3, -, -⟩ := build_ok h
  obtain ⟨g1, g2, g3⟩ := toUnsigned_ok _ _ _ h3
  rw [if_pos hm] at g3
  have e : c.address.toNat = n * 1024 := by omega
  have ne : c.address ≠ 0 := by
    intro e0
    rw [e0] at e
    simp at e
    omega
  unfold calls
  rw [if_pos ne, e, rlim_kb W n hW]
  simp

private theorem data_call {W : Nat} {rnd : ℚ → ℚ} {a : Ask} {c : CConf W} (hW : Width W) (h : build W rnd a = .ok c) (n : Nat)
    (hn : a.memory + a.dataGrace = n) (h0 : n ≠ 0) : (Res.data, some (n * 1024), some (n * 1024)) ∈ calls c := by
  obtain ⟨-, h3, -, -, -⟩ := build_ok h
  obtain ⟨g1, g2, g3⟩ := toUnsigned_ok _ _ _ h3
  have e : c.memory.toNat = n * 1024 := by omega
  have ne : c.memory ≠ 0 := by
    intro e0
    rw [e0] at e
    simp at e
    omega
  unfold calls
  rw [if_pos ne, e, rlim_kb W n hW]
  simp

private theorem nproc_call {W : Nat} {rnd : ℚ → ℚ} {a : Ask} {c : CConf W} (hW : Width W) (h : build W rnd a = .ok c) (n : Nat)
    (hn : a.nproc = n) : (Res.nproc, some n, some n) ∈ calls c := by
  obtain ⟨-, -, -, h3, -⟩ := build_ok h
  obtain ⟨g1, g2, g3⟩ := toInt_ok _ _ h3
  have e : c.nproc.toInt.toNat = n := by omega
  unfold calls
  rw [if_pos (show c.nproc.toInt ≥ 0 by omega), e, rlim_int W n hW (by omega)]
  simp

private theorem fsize_call {W : Nat} {rnd : ℚ → ℚ} {a : Ask} {c : CConf W} (hW : Width W) (h : build W rnd a = .ok c) (n : Nat)
    (hn : a.fsize = n) : (Res.fsize, some n, some n) ∈ calls c := by
  obtain ⟨-, -, -, -, h3⟩ := build_ok h
  obtain ⟨g1, g2, g3⟩ := toInt_ok _ _ h3
  have e : c.fsize.toInt.toNat = n := by omega
  unfold calls
  rw [if_pos (show c.fsize.toInt ≥ 0 by omega), e, rlim_int W n hW (by omega)]
  simp

private theorem core_call {W : Nat} (c : CConf W) : (Res.core, some 0, some 0) ∈ calls c := by
  unfold calls
  simp

/-- **C115**: a program that was started is held to the limits asked for; no conversion on the way makes one laxer. -/
theorem C115_held (W : Nat) (rnd : ℚ → ℚ) (a : Ask) (c : CConf W) (p : Bool) (l : Limits) (hW : Width W) (ho : Ordered l)
    (h : build W rnd a = .ok c) : Held a (imposed p l c) := by
  refine ⟨fun n hm hn h0 => ?_, fun n hn h0 => ?_, fun n hn => ?_, fun n hn => ?_, ?_⟩
  · rw [imposed_once p l c _ _ _ (address_call hW h n hm hn h0)]
    exact setLimit_at p l _ _ _ ho (le_refl _) (by omega)
  · rw [imposed_once p l c _ _ _ (data_call hW h n hn h0)]
    exact setLimit_at p l _ _ _ ho (le_refl _) (by omega)
  · rw [imposed_once p l c _ _ _ (nproc_call hW h n hn)]
    exact setLimit_at p l _ _ _ ho (le_refl _) (by omega)
  · rw [imposed_once p l c _ _ _ (fsize_call hW h n hn)]
    exact setLimit_at p l _ _ _ ho (le_refl _) (by omega)
  · rw [imposed_once p l c _ _ _ (core_call c)]
    exact setLimit_at p l _ _ _ ho (le_refl _) (by omega)

private theorem setLimit_free (p : Bool) (l : Limits) (r : Res) (s : Option Nat) (h : Nat) (hs : under s (some h) = true)
    (hf : p = true ∨ (l r).2 = none) : setLimit p l (r, s, some h) r = (s, some h) := by
  unfold setLimit
  rw [if_pos]
  · simp
  · show (under s (some h) && (p || under (some h) (l r).2)) = true
    rw [hs]
    rcases hf with hf | hf
    · simp [hf]
    · rw [hf]; simp [under]

/-- **C115**: nor stricter: if the judge itself is not limited, they are exactly the ones asked for. -/
theorem C115_exact (W : Nat) (rnd : ℚ → ℚ) (a : Ask) (c : CConf W) (p : Bool) (l : Limits) (hW : Width W)
    (hf : p = true ∨ ∀ r, (l r).2 = none) (h : build W rnd a = .ok c) :
    (∀ n : Nat, a.memory ≠ 0 → a.memory + a.addressGrace = n → n ≠ 0 → imposed p l c .as = (some (n * 1024), some (n * 1024))) ∧
    (∀ n : Nat, a.memory + a.dataGrace = n → n ≠ 0 → imposed p l c .data = (some (n * 1024), some (n * 1024))) ∧
    (∀ n : Nat, a.nproc = n → imposed p l c .nproc = (some n, some n)) ∧
    (∀ n : Nat, a.fsize = n → imposed p l c .fsize = (some n, some n)) ∧
    imposed p l c .core = (some 0, some 0) := by
  have hf' : ∀ r, p = true ∨ (l r).2 = none := fun r => hf.imp_right (fun g => g r)
  refine ⟨fun n hm hn h0 => ?_, fun n hn h0 => ?_, fun n hn => ?_, fun n hn => ?_, ?_⟩
  · rw [imposed_once p l c _ _ _ (address_call hW h n hm hn h0)]
    exact setLimit_free _ _ _ _ _ (by simp [under]) (hf' _)
  · rw [imposed_once p l c _ _ _ (data_call hW h n hn h0)]
    exact setLimit_free _ _ _ _ _ (by simp [under]) (hf' _)
  · rw [imposed_once p l c _ _ _ (nproc_call hW h n hn)]
    exact setLimit_free _ _ _ _ _ (by simp [under]) (hf' _)
  · rw [imposed_once p l c _ _ _ (fsize_call hW h n hn)]
    exact setLimit_free _ _ _ _ _ (by simp [under]) (hf' _)
  · rw [imposed_once p l c _ _ _ (core_call c)]
    exact setLimit_free _ _ _ _ _ (by simp [under]) (hf' _)

/-- **C115**: what was not asked for is not limited: no memory limit, no time limit, a negative number of processes or file size. -/
theorem C115_unasked (W : Nat) (rnd : ℚ → ℚ) (a : Ask) (c : CConf W) (p : Bool) (l : Limits) (h : build W rnd a = .ok c) :
    (a.memory = 0 → imposed p l c .as = l .as) ∧ (a.memory + a.dataGrace = 0 → imposed p l c .data = l .data) ∧
    (a.time = .fin 0 → imposed p l c .cpu = l .cpu) ∧ (a.nproc < 0 → imposed p l c .nproc = l .nproc) ∧
    (a.fsize < 0 → imposed p l c .fsize = l .fsize) := by
  obtain ⟨h1, h2, h3, h4, h5⟩ := build_ok h
  refine ⟨fun e => ?_, fun e => ?_, fun e => ?_, fun e => ?_, fun e => ?_⟩ <;> refine imposed_other p l c _ (fun q hq => ?_)
  · obtain ⟨-, -, g⟩ := toUnsigned_ok _ _ _ h3
    rw [if_neg (by simpa using e)] at g
    have g : c.address = 0 := BitVec.eq_of_toNat_eq (by simp; omega)
    unfold calls at hq
    rw [if_neg (by simpa using g)] at hq
    intro e'
    split_ifs at hq <;> simp at hq <;> grind
  · obtain ⟨-, -, g⟩ := toUnsigned_ok _ _ _ h2
    have g : c.memory = 0 := BitVec.eq_of_toNat_eq (by simp; omega)
    unfold calls at hq
    rw [if_neg (show ¬ c.memory ≠ 0 by simpa using g)] at hq
    intro e'
    split_ifs at hq <;> simp at hq <;> grind
  · rw [e, cpuTime_fin, if_pos rfl] at h1
    have g : c.cpu = 0 := (Except.ok.inj h1).symm
    unfold calls at hq
    rw [if_neg (show ¬ c.cpu ≠ 0 by simpa using g)] at hq
    intro e'
    split_ifs at hq <;> simp at hq <;> grind
  · obtain ⟨-, -, g⟩ := toInt_ok _ _ h4
    unfold calls at hq
    rw [if_neg (show ¬ c.nproc.toInt ≥ 0 by omega)] at hq
    intro e'
    split_ifs at hq <;> simp at hq <;> grind
  · obtain ⟨-, -, g⟩ := toInt_ok _ _ h5
    unfold calls at hq
    rw [if_neg (show ¬ c.fsize.toInt ≥ 0 by omega)] at hq
    intro e'
    split_ifs at hq <;> simp at hq <;> grind

private theorem cpu_value {rnd : ℚ → ℚ} (hr : Rounding rnd) (t : ℚ) (ht : 0 < t) (hb : t ≤ 2 ^ 32 - 8) (b : BitVec 32)
    (h : cpuTime rnd (.fin t) = .ok b) : ⌊t⌋ + 5 ≤ b.toNat ∧ (b.toNat : Int) ≤ ⌈t⌉ + 5 := by
  rw [cpuTime_fin, if_neg ht.ne'] at h
  obtain ⟨-, -, e⟩ := toUnsigned_ok _ _ _ h
  have f1 : (⌊t⌋ : ℚ) ≤ t := Int.floor_le t
  have f2 : t ≤ (⌈t⌉ : ℚ) := Int.le_ceil t
  have f0 : 0 ≤ ⌊t⌋ := Int.floor_nonneg.2 ht.le
  have f3 : ⌊t⌋ ≤ ⌈t⌉ := Int.floor_le_ceil t
  have f4 : ⌈t⌉ ≤ 2 ^ 32 - 8 := Int.ceil_le.2 (by norm_num at hb ⊢; exact hb)
  have a1 : ((⌊t⌋ + 5 : Int) : ℚ) ≤ rnd (t + 5) := by
    rw [← hr.exact (⌊t⌋ + 5) (by omega) (by omega)]
    exact hr.mono _ _ (by push_cast; linarith)
  have a2 : rnd (t + 5) ≤ ((⌈t⌉ + 5 : Int) : ℚ) := by
    rw [← hr.exact (⌈t⌉ + 5) (by omega) (by omega)]
    exact hr.mono _ _ (by push_cast; linarith)
  have pos : 0 ≤ rnd (t + 5) := by
    refine le_trans ?_ a1
    exact_mod_cast (by omega : (0 : Int) ≤ ⌊t⌋ + 5)
  rw [trunc, if_pos pos] at e
  rw [e]
  exact ⟨Int.le_floor.2 a1, Int.floor_le_iff.2 (by push_cast at a2 ⊢; linarith)⟩

/-- **C115**: a time limit of a fraction of a second or more becomes a limit on processor time of whole seconds, more than four and less than
six above it, so that the judge's own count ends the program first. Missing (see `C115_cpu_fails`): limits near 2^32 seconds. -/
theorem C115_cpu_partial (W : Nat) (rnd : ℚ → ℚ) (a : Ask) (c : CConf W) (p : Bool) (l : Limits) (hW : Width W) (hr : Rounding rnd)
    (ho : Ordered l) (t : ℚ) (ht : a.time = .fin t) (h0 : 0 < t) (hb : t ≤ 2 ^ 32 - 8) (h : build W rnd a = .ok c) :
    ∃ s : Nat, t + 4 < s ∧ (s : ℚ) < t + 6 ∧ AtMost (imposed p l c .cpu) s (s + 1) ∧
      (p = true ∨ (l .cpu).2 = none → imposed p l c .cpu = (some s, some (s + 1))) := by
  obtain ⟨h1, -, -, -, -⟩ := build_ok h
  rw [ht] at h1
  obtain ⟨v1, v2⟩ := cpu_value hr t h0 hb _ h1
  have f0 : 0 ≤ ⌊t⌋ := Int.floor_nonneg.2 h0.le
  have f4 : ⌈t⌉ ≤ 2 ^ 32 - 8 := Int.ceil_le.2 (by norm_num at hb ⊢; exact hb)
  have hm : (Res.cpu, some c.cpu.toNat, some (c.cpu.toNat + 1)) ∈ calls c := by
    have ne : c.cpu ≠ 0 := by
      intro e0
      rw [e0] at v1
      simp at v1
      omega
    have e1 : (c.cpu + 1).toNat = c.cpu.toNat + 1 := by
      rw [BitVec.toNat_add]
      simp
      omega
    have r1 : ∀ n : Nat, n < 2 ^ 32 - 1 → rlim W n = some n := by
      intro n hn
      unfold rlim
      rw [if_neg]
      rcases hW with rfl | rfl <;> norm_num <;> omega
    unfold calls
    rw [if_pos ne, e1, r1 c.cpu.toNat (by omega), r1 (c.cpu.toNat + 1) (by omega)]
    simp
  refine ⟨c.cpu.toNat, ?_, ?_, ?_, fun hf => ?_⟩
  · have := Int.lt_floor_add_one t
    have v : ((⌊t⌋ + 5 : Int) : ℚ) ≤ ((c.cpu.toNat : Int) : ℚ) := by exact_mod_cast v1
    push_cast at v
    linarith
  · have := Int.ceil_lt_add_one t
    have v : ((c.cpu.toNat : Int) : ℚ) ≤ ((⌈t⌉ + 5 : Int) : ℚ) := by exact_mod_cast v2
    push_cast at v
    linarith
  · rw [imposed_once p l c _ _ _ hm]
    exact setLimit_at p l _ _ _ ho (by omega) (le_refl _)
  · rw [imposed_once p l c _ _ _ hm]
    exact setLimit_free _ _ _ _ _ (by simp [under]) hf

/-- **C115** fails: with a time limit of 2^32 - 6 seconds the hard limit, an `unsigned int`, wraps to zero, the kernel refuses the pair,
and the program runs without a limit on processor time. -/
theorem C115_cpu_fails : ∃ (a : Ask) (t : ℚ), a.time = .fin t ∧ 0 < t ∧ ∀ W, Width W → ∀ rnd, Rounding rnd → ∃ c, build W rnd a = .ok c ∧
    ∀ p l, imposed p l c .cpu = l .cpu := by
  refine ⟨⟨.fin (2 ^ 32 - 6), 65536, 4096, 0, 0, 0⟩, _, rfl, by norm_num, fun W hW rnd hr => ?_⟩
  have e : rnd ((2 ^ 32 - 6 : ℚ) + 5) = ((2 ^ 32 - 1 : Int) : ℚ) := by
    rw [← hr.exact (2 ^ 32 - 1) (by norm_num) (by norm_num)]
    norm_num
  obtain ⟨c, h⟩ := (C115_starts W rnd ⟨.fin (2 ^ 32 - 6), 65536, 4096, 0, 0, 0⟩).2
    ⟨⟨_, rfl, .inr (by rw [e]; norm_num)⟩, by rcases hW with rfl | rfl <;> norm_num, fun _ => by rcases hW with rfl | rfl <;> norm_num,
      by norm_num, by norm_num⟩
  refine ⟨c, h, fun p l => ?_⟩
  obtain ⟨h1, -, -, -, -⟩ := build_ok h
  rw [cpuTime_fin, if_neg (by norm_num), e] at h1
  obtain ⟨-, -, g⟩ := toUnsigned_ok _ _ _ h1
  rw [trunc, if_pos (by norm_num), Int.floor_intCast] at g
  have hm : (Res.cpu, rlim W c.cpu.toNat, rlim W (c.cpu + 1).toNat) ∈ calls c := by
    have ne : c.cpu ≠ 0 := by
      intro e0
      rw [e0] at g
      simp at g
    unfold calls
    rw [if_pos ne]
    simp
  rw [imposed_once p l c _ _ _ hm]
  have e1 : (c.cpu + 1).toNat = 0 := by
    rw [BitVec.toNat_add]
    simp
    omega
  have e2 : rlim W 0 = some 0 := rlim_int W 0 hW (by norm_num)
  unfold setLimit
  rw [e1, e2, if_neg]
  have : c.cpu.toNat = 2 ^ 32 - 1 := by omega
  rw [this]
  rcases hW with rfl | rfl <;> simp [rlim, under]

/-- **C115** fails: a time limit of -5 seconds or less is taken for none, if it is accepted. -/
theorem C115_negative_fails (W : Nat) (rnd : ℚ → ℚ) (a : Ask) (c : CConf W) (p : Bool) (l : Limits) (hr : Rounding rnd) (t : ℚ)
    (ht : a.time = .fin t) (h1 : t ≤ -5) (h : build W rnd a = .ok c) : imposed p l c .cpu = l .cpu := by
  obtain ⟨g, -, -, -, -⟩ := build_ok h
  rw [ht, cpuTime_fin, if_neg (by linarith)] at g
  obtain ⟨k1, -, k2⟩ := toUnsigned_ok _ _ _ g
  have e : trunc (rnd (t + 5)) ≤ 0 := by
    have : rnd (t + 5) ≤ ((0 : Int) : ℚ) := by
      rw [← hr.exact 0 (by norm_num) (by norm_num)]
      exact hr.mono _ _ (by push_cast; linarith)
    unfold trunc
    split
    · exact Int.floor_le_iff.2 (by push_cast at this ⊢; linarith)
    · exact Int.ceil_le.2 this
  have z : c.cpu = 0 := BitVec.eq_of_toNat_eq (by simp; omega)
  refine imposed_other p l c _ (fun q hq => ?_)
  unfold calls at hq
  rw [if_neg (show ¬ c.cpu ≠ 0 by simpa using z)] at hq
  intro e'
  split_ifs at hq <;> simp at hq <;> grind

example : Fits 64 id ⟨.fin (-5), 65536, 4096, 0, 0, 0⟩ := by
  refine ⟨⟨_, rfl, .inr ?_⟩, ?_, fun _ => ?_, ?_, ?_⟩ <;> norm_num

/-- **C115**: a submission in any language with a positive time limit and a memory limit that fits the address space is not refused for its
limits. -/
theorem C115_languages (W : Nat) (rnd : ℚ → ℚ) (hr : Rounding rnd) (name : String) (t : ℚ) (memory address data : Nat) (java : Bool)
    (h0 : 0 < t) (hb : t ≤ 2 ^ 32 - 8) (hd : (memory + data) * 1024 < 2 ^ W) (ha : (memory + address) * 1024 < 2 ^ W) :
    ∃ c, build W rnd ⟨.fin t, memory, address, data, Family.nprocOf name, if java then 1048576 else 0⟩ = .ok c := by
  refine (C115_starts W rnd _).2 ⟨⟨t, rfl, .inr ⟨?_, ?_⟩⟩, ⟨by positivity, by dsimp only; exact_mod_cast hd⟩, fun _ => ⟨by positivity, by dsimp only; exact_mod_cast ha⟩, ?_, ?_⟩
  · have : ((5 : Int) : ℚ) ≤ rnd (t + 5) := by
      rw [← hr.exact 5 (by norm_num) (by norm_num)]
      exact hr.mono _ _ (by push_cast; linarith)
    push_cast at this
    linarith
  · have : rnd (t + 5) ≤ ((2 ^ 32 - 3 : Int) : ℚ) := by
      rw [← hr.exact (2 ^ 32 - 3) (by norm_num) (by norm_num)]
      exact hr.mono _ _ (by push_cast; norm_num at hb; linarith)
    norm_num at this ⊢
    linarith
  · show -2 ^ 31 ≤ Family.nprocOf name ∧ Family.nprocOf name < 2 ^ 31
    unfold Family.nprocOf
    split_ifs <;> norm_num
  · cases java <;> norm_num

/-- The limits before are ordered: the usual ones, and those of a judge that was itself limited. -/
example : Ordered (fun _ => (none, none)) ∧ Ordered (fun r => if r = .nproc then (some 100, some 200) else (some 8, none)) := by
  constructor
  · intro r; simp
  · intro r; cases r <;> simp

example : Rounding id := ⟨fun _ _ h => h, fun _ _ _ => rfl⟩

/-- Half a second, 64 MB. -/
example : Fits 64 id ⟨.fin (1 / 2), 65536, 4096, 0, 0, 0⟩ ∧ Fits 32 id ⟨.fin (1 / 2), 65536, 4096, 0, -1, 1048576⟩ := by
  refine ⟨⟨⟨_, rfl, .inr ?_⟩, ?_, fun _ => ?_, ?_, ?_⟩, ⟨⟨_, rfl, .inr ?_⟩, ?_, fun _ => ?_, ?_, ?_⟩⟩ <;> norm_num

/-- Four gigabytes do not fit an `unsigned long` of 32 bits. -/
example : Fits 64 id ⟨.fin 1, 4194304, 4096, 0, 0, 0⟩ ∧ ¬ Fits 32 id ⟨.fin 1, 4194304, 4096, 0, 0, 0⟩ := by
  refine ⟨⟨⟨_, rfl, .inr ?_⟩, ?_, fun _ => ?_, ?_, ?_⟩, fun h => ?_⟩
  all_goals try norm_num
  have := h.data.2
  norm_num at this

/-- No infinite time limit. -/
example (n : Bool) : ¬ Fits 64 id ⟨.inf n, 65536, 4096, 0, 0, 0⟩ := fun h => by
  obtain ⟨t, h, -⟩ := h.time
  cases h

end Verif.Limits
