import Verif.Spec.Arch
import Verif.Model.SyscallTables
/-! # C75: system calls on every machine cptbox can be built for -/

namespace Verif.Arch

private theorem bit_iff (x : BitVec 64) : x &&& 0x40000000#64 ≠ 0 ↔ x.getLsbD 30 = true := by
  have e : (0x40000000#64) = BitVec.twoPow 64 30 := by decide
  rw [e, BitVec.and_twoPow]
  by_cases h : x.getLsbD 30 = true
  · rw [if_pos h]; simp only [h, iff_true]; decide
  · rw [if_neg h]; simp only [h, iff_false]; simp

private theorem abi_amd (s : Saved .amd64) : abiOf .amd64 s = if (s .orig).getLsbD 30 = true then .x32 else .x64 := rfl

/-- C75. The ABI is recognised, for all values of the registers. -/
theorem C75_abi (h : Host) (m : Mode) (hr : Runs h m) (s : Saved m) : detect h (handed m s) = abiOf m s := by
  cases hr with
  | x64 =>
    have : detect .x64 (handed .amd64 s) = if @HAnd.hAnd (BitVec 64) (BitVec 64) (BitVec 64) _ (s .orig) 0x40000000#64 ≠ 0 then .x32
        else .x64 := rfl
    rw [this, abi_amd]
    by_cases hb : (s .orig).getLsbD 30 = true
    · rw [if_pos ((bit_iff _).2 hb), if_pos hb]
    · rw [if_neg (fun h => hb ((bit_iff _).1 h)), if_neg hb]
  | x64c => rfl
  | x86 => rfl
  | arm => rfl
  | arm64 => rfl
  | arm64c => rfl

private theorem stands32 (x : BitVec 32) : Stands (x.toNat : Int) x := by
  unfold Stands; simp

private theorem stands {w : Nat} (x : BitVec w) : Stands x.toInt x := by
  unfold Stands; simp

private theorem long32 (x : BitVec 32) : -2 ^ 31 ≤ x.toInt ∧ x.toInt < 2 ^ 31 := by
  have h1 := BitVec.toInt_lt (x := x)
  have h2 := BitVec.le_toInt (x := x)
  simpa using ⟨h2, h1⟩

private theorem long64 (x : BitVec 64) : -2 ^ 63 ≤ x.toInt ∧ x.toInt < 2 ^ 63 := by
  have h1 := BitVec.toInt_lt (x := x)
  have h2 := BitVec.le_toInt (x := x)
  simpa using ⟨h2, h1⟩

private theorem small (x : BitVec 32) : -2 ^ 63 ≤ (x.toNat : Int) ∧ (x.toNat : Int) < 2 ^ 63 := by
  have := x.isLt
  omega

private theorem x32_number (x : BitVec 64) (h : x.getLsbD 30 = true) :
    (x.setWidth 32).toInt = ((x &&& ~~~0x40000000#64).setWidth 32).toInt + 2 ^ 30 := by
  have e1 : (x &&& ~~~0x40000000#64).setWidth 32 = (x.setWidth 32) &&& ~~~(0x40000000#32) := by
    rw [BitVec.setWidth_and]; rfl
  have h' : (x.setWidth 32).getLsbD 30 = true := by simpa using h
  rw [e1]
  generalize x.setWidth 32 = y at h'
  have hb : ∀ j : Fin 32, (0x40000000#32).getLsbD j = decide ((j : Nat) = 30) := by decide +kernel
  have d : (y &&& ~~~(0x40000000#32)) &&& 0x40000000#32 = 0#32 := by
    rw [BitVec.and_assoc]
    have : (~~~(0x40000000#32)) &&& 0x40000000#32 = 0#32 := by decide
    rw [this, BitVec.and_zero]
  have e : y = (y &&& ~~~(0x40000000#32)) + 0x40000000#32 := by
    rw [BitVec.add_eq_or_of_and_eq_zero _ _ d]
    apply BitVec.eq_of_getLsbD_eq
    intro i hi
    rw [BitVec.getLsbD_or, BitVec.getLsbD_and, BitVec.getLsbD_not, hb ⟨i, hi⟩]
    by_cases hi' : i = 30
    · subst hi'; simp [h']
    · simp [hi', hi]
  have n := BitVec.toNat_add_of_and_eq_zero d
  rw [← e] at n
  have m : y.msb = (y &&& ~~~(0x40000000#32)).msb := by
    rw [BitVec.msb_and]
    have : (~~~(0x40000000#32)).msb = true := by decide
    rw [this, Bool.and_true]
  have b : (0x40000000#32).toNat = 2 ^ 30 := by decide
  rw [b] at n
  rw [BitVec.toInt_eq_msb_cond, BitVec.toInt_eq_msb_cond, ← m, n]
  split <;> omega

/-- C75. The arguments the policy looks at are those the kernel will use, on every machine and for every kind of program, but for
the sixth one on 32-bit x86. -/
theorem C75_args_partial (h : Host) (m : Mode) (hr : Runs h m) (s : Saved m) (hs : Stopped m s) (k : Nat) (reg : Reg)
    (hk : (argument m)[k]? = some reg) (hx : ¬(h = .x86 ∧ k = 5)) :
    ∃ v, arg h (detect h (handed m s)) (handed m s) k = some v ∧ Stands v (s reg) ∧ IsLong h v := by
  have hlt : k < 6 := by
    have := (List.getElem?_eq_some_iff.1 hk).1
    cases m <;> exact this
  rw [C75_abi h m hr]
  cases hr with
  | x64 =>
    have key : ∀ a, a = .x64 ∨ a = .x32 → arg .x64 a (handed .amd64 s) k = some (s reg).toInt := by
      rintro a (rfl | rfl) <;>
      · match k, hlt with
        | 0, _ | 1, _ | 2, _ | 3, _ | 4, _ | 5, _ => cases hk; rfl
    refine ⟨_, key _ ?_, stands _, long64 _⟩
    rw [abi_amd]
    split <;> simp
  | x64c =>
    refine ⟨((s reg).toNat : Int), ?_, stands32 _, ?_⟩
    · match k, hlt with
      | 0, _ | 1, _ | 2, _ | 3, _ | 4, _ | 5, _ => cases hk; rfl
    · exact small _
  | x86 =>
    refine ⟨(s reg).toInt, ?_, stands _, long32 _⟩
    match k, hlt with
    | 0, _ | 1, _ | 2, _ | 3, _ | 4, _ => cases hk; rfl
    | 5, _ => exact absurd ⟨rfl, rfl⟩ hx
  | arm =>
    refine ⟨(s reg).toInt, ?_, stands _, long32 _⟩
    match k, hlt with
    | 0, _ =>
      cases hk
      rw [← hs rfl]; rfl
    | 1, _ | 2, _ | 3, _ | 4, _ | 5, _ => cases hk; rfl
  | arm64 =>
    refine ⟨(s reg).toInt, ?_, stands _, long64 _⟩
    match k, hlt with
    | 0, _ | 1, _ | 2, _ | 3, _ | 4, _ | 5, _ => cases hk; rfl
  | arm64c =>
    refine ⟨((s reg).toNat : Int), ?_, stands32 _, ?_⟩
    · match k, hlt with
      | 0, _ | 1, _ | 2, _ | 3, _ | 4, _ | 5, _ => cases hk; rfl
    · exact small _

/-- C75. On a 32-bit x86 machine the sixth argument is taken to be zero, whatever it is. -/
theorem C75_arg5_fails (s : Saved .i386) : arg .x86 (detect .x86 (handed .i386 s)) (handed .i386 s) 5 = some 0 ∧
    (argument .i386)[5]? = some .bp := ⟨rfl, rfl⟩

private theorem sw (x : BitVec 32) : x.toInt = (x.setWidth 32).toInt := by rw [BitVec.setWidth_eq]

/-- C75. The number the policy looks at: the low 32 bits of the register, as a signed number, without the bit that marks x32. -/
theorem C75_number (h : Host) (m : Mode) (hr : Runs h m) (s : Saved m) :
    ∃ n, syscall h (detect h (handed m s)) (handed m s) = some n ∧
      ((m ≠ .amd64 ∨ (s .orig).getLsbD 30 = false) → n = ((s (numbered m)).setWidth 32).toInt) ∧
      (m = .amd64 → (s .orig).getLsbD 30 = true → ((s .orig).setWidth 32).toInt = n + 2 ^ 30) := by
  rw [C75_abi h m hr]
  cases hr with
  | x64 =>
    by_cases hb : (s .orig).getLsbD 30 = true
    · have ha : abiOf .amd64 s = .x32 := by rw [abi_amd, if_pos hb]
      rw [ha]
      refine ⟨_, rfl, fun h => ?_, fun _ _ => ?_⟩
      · rcases h with h | h
        · exact absurd rfl h
        · rw [hb] at h; cases h
      · exact x32_number _ hb
    · have ha : abiOf .amd64 s = .x64 := by rw [abi_amd, if_neg hb]
      rw [ha]
      exact ⟨_, rfl, fun _ => rfl, fun _ h => absurd h hb⟩
  | x64c => exact ⟨_, rfl, fun _ => sw _, nofun⟩
  | x86 => exact ⟨_, rfl, fun _ => sw _, nofun⟩
  | arm => exact ⟨_, rfl, fun _ => sw _, nofun⟩
  | arm64 => exact ⟨_, rfl, fun _ => rfl, nofun⟩
  | arm64c => exact ⟨_, rfl, fun _ => sw _, nofun⟩

/-- The registers with some changed. -/
private def upd {m : Mode} (s : Saved m) (r : Reg) (v : BitVec m.width) : Saved m := fun q => if q = r then v else s q

/-- C75. Refusing a call under seccomp, except on ARM64: the kernel skips it, the program finds the error as the result, and no
other register is changed but the one with the number. -/
theorem C75_refused_partial (h : Host) (m : Mode) (hr : Runs h m) (hh : h ≠ .arm64) (s : Saved m) (nr e : Int) :
    ∃ s' nr', refuse h (handed m s) nr e = some (handed m s', nr') ∧ Skips m s' nr' ∧
      s' (returned m) = BitVec.ofInt _ (-e) ∧ Else m s s' [returned m, numbered m] := by
  unfold refuse
  rw [C75_abi h m hr]
  cases hr with
  | x64 =>
    rw [abi_amd]
    split
    · refine ⟨upd (upd s .orig (BitVec.ofInt 64 (BitVec.ofInt 64 (-1) ||| 0x40000000#64).toInt)) .ax (BitVec.ofInt 64 (-e)), nr, rfl,
        ?_, rfl, ?_⟩
      · show BitVec.setWidth 32 (BitVec.ofInt 64 (BitVec.ofInt 64 (-1) ||| 0x40000000#64).toInt) = -1
        decide
      · intro r _ hn; simp only [returned, numbered, List.mem_cons, List.not_mem_nil, or_false, not_or] at hn; simp [upd, hn]
    · refine ⟨upd (upd s .orig (BitVec.ofInt 64 (-1))) .ax (BitVec.ofInt 64 (-e)), nr, rfl, ?_, rfl, ?_⟩
      · show BitVec.setWidth 32 (BitVec.ofInt 64 (-1)) = -1
        decide
      · intro r _ hn; simp only [returned, numbered, List.mem_cons, List.not_mem_nil, or_false, not_or] at hn; simp [upd, hn]
  | x64c =>
    refine ⟨upd (upd s .orig (BitVec.ofInt 32 (-1))) .ax (BitVec.ofInt 32 (-e)), nr, rfl, ?_, rfl, ?_⟩
    · show BitVec.ofInt 32 (-1) = -1
      decide
    · intro r _ hn; simp only [returned, numbered, List.mem_cons, List.not_mem_nil, or_false, not_or] at hn; simp [upd, hn]
  | x86 =>
    refine ⟨upd (upd s .orig (BitVec.ofInt 32 (-1))) .ax (BitVec.ofInt 32 (-e)), nr, rfl, ?_, rfl, ?_⟩
    · show BitVec.ofInt 32 (-1) = -1
      decide
    · intro r _ hn; simp only [returned, numbered, List.mem_cons, List.not_mem_nil, or_false, not_or] at hn; simp [upd, hn]
  | arm =>
    refine ⟨upd s (.r 0) (BitVec.ofInt 32 (-e)), -1, rfl, rfl, rfl, ?_⟩
    intro r _ hn; simp only [returned, numbered, List.mem_cons, List.not_mem_nil, or_false, not_or] at hn; simp [upd, hn]
  | arm64 => exact absurd rfl hh
  | arm64c => exact absurd rfl hh

/-- C75. On ARM64 the error is written into the register with the number. The call is skipped, but what the program finds as its
result is its own first argument: refusing `kill(pid, sig)` looks like a success. -/
theorem C75_refused_arm64_fails (m : Mode) (hr : Runs .arm64 m) (s : Saved m) (nr e : Int) :
    ∃ s' nr', refuse .arm64 (handed m s) nr e = some (handed m s', nr') ∧ Skips m s' nr' ∧ s' (returned m) = s (.r 0) ∧
      (argument m)[0]? = some (.r 0) ∧ s' (numbered m) = BitVec.ofInt _ (-e) := by
  unfold refuse
  rw [C75_abi .arm64 m hr]
  cases hr with
  | arm64 => exact ⟨upd s (.r 8) (BitVec.ofInt 64 (-e)), -1, rfl, rfl, rfl, rfl, rfl⟩
  | arm64c => exact ⟨upd s (.r 7) (BitVec.ofInt 32 (-e)), -1, rfl, rfl, rfl, rfl, rfl⟩

private theorem bits_small (n : Nat) (hn : n < 2 ^ 30) (i : Nat) (hi : 30 ≤ i) : (BitVec.ofNat 64 n).getLsbD i = false := by
  rw [BitVec.getLsbD_ofNat, Nat.testBit_lt_two_pow (Nat.lt_of_lt_of_le hn (Nat.pow_le_pow_right (by decide) hi)), Bool.and_false]

private theorem clear (n : Nat) (hn : n < 2 ^ 30) :
    (BitVec.ofNat 64 n ||| 0x40000000#64) &&& ~~~0x40000000#64 = BitVec.ofNat 64 n := by
  apply BitVec.eq_of_getLsbD_eq
  intro i hi
  have hb : ∀ j : Fin 64, (0x40000000#64).getLsbD j = decide ((j : Nat) = 30) := by decide +kernel
  rw [BitVec.getLsbD_and, BitVec.getLsbD_or, BitVec.getLsbD_not, hb ⟨i, hi⟩]
  by_cases h30 : i = 30
  · subst h30; rw [bits_small n hn 30 (by omega)]; simp
  · simp [h30, hi]

private theorem low (n : Nat) (hn : n < 2 ^ 30) : ((BitVec.ofNat 64 n).setWidth 32).toInt = n := by
  rw [BitVec.toInt_eq_toNat_cond, BitVec.toNat_setWidth, BitVec.toNat_ofNat]
  rw [if_pos] <;> omega

private theorem low32 (n : Nat) (hn : n < 2 ^ 30) : (BitVec.ofNat 32 n).toInt = n := by
  rw [BitVec.toInt_eq_toNat_cond, BitVec.toNat_ofNat]
  rw [if_pos] <;> omega

private theorem else_upd {m : Mode} (s : Saved m) (q : Reg) (v : BitVec m.width) : Else m s (upd s q v) [q] := by
  intro r _ hn
  simp only [List.mem_cons, List.not_mem_nil, or_false] at hn
  simp [upd, hn]

/-- C75. Without seccomp, except on ARM64: at the first stop only the number is changed, to that of the harmless call; at the second
only the result, to the error. -/
theorem C75_replaced_partial (h : Host) (m : Mode) (hr : Runs h m) (hh : h ≠ .arm64) (s t : Saved m) (nr e : Int) (noop : Abi → Int)
    (hn : ∀ a, 0 ≤ noop a ∧ noop a < 2 ^ 30) :
    (∃ s' nr', replaceCall h (handed m s) nr noop = some (handed m s', nr') ∧ Else m s s' [numbered m] ∧
      (m ≠ .arm → syscall h (detect h (handed m s')) (handed m s') = some (noop (abiOf m s)) ∧ abiOf m s' = abiOf m s) ∧
      (m = .arm → nr' = noop .arm ∧ s' = s)) ∧
    ∃ t', replaceResult h (handed m t) e = some (handed m t') ∧ t' (returned m) = BitVec.ofInt _ (-e) ∧ Else m t t' [returned m] := by
  constructor
  · unfold replaceCall
    rw [C75_abi h m hr]
    obtain ⟨n, hn1, hn2⟩ : ∃ n : Nat, noop (abiOf m s) = n ∧ n < 2 ^ 30 := by
      obtain ⟨h1, h2⟩ := hn (abiOf m s)
      obtain ⟨n, hn⟩ := Int.eq_ofNat_of_zero_le h1
      exact ⟨n, hn, by omega⟩
    rw [hn1]
    cases hr with
    | x64 =>
      by_cases hb : (s .orig).getLsbD 30 = true
      · have ha : abiOf .amd64 s = .x32 := by rw [abi_amd, if_pos hb]
        rw [ha]
        have ho : BitVec.ofInt 64 (BitVec.ofInt 64 (n : Int) ||| 0x40000000#64).toInt = BitVec.ofNat 64 n ||| 0x40000000#64 := by
          rw [BitVec.ofInt_toInt]; rfl
        refine ⟨upd s .orig (BitVec.ofNat 64 n ||| 0x40000000#64), nr, ?_, else_upd _ _ _, fun _ => ?_, nofun⟩
        · show some (Regset.w64 _, nr) = some (Regset.w64 _, nr)
          rw [ho]; rfl
        · have ha' : abiOf .amd64 (upd s .orig (BitVec.ofNat 64 n ||| 0x40000000#64)) = .x32 := by
            rw [abi_amd, if_pos]
            show (BitVec.ofNat 64 n ||| 0x40000000#64).getLsbD 30 = true
            rw [BitVec.getLsbD_or]
            have : (0x40000000#64).getLsbD 30 = true := by decide
            rw [this, Bool.or_true]
          refine ⟨?_, ha'⟩
          rw [C75_abi .x64 .amd64 .x64, ha']
          show some (((BitVec.ofNat 64 n ||| 0x40000000#64) &&& ~~~0x40000000#64).setWidth 32).toInt = some (n : Int)
          rw [clear n hn2, low n hn2]
      · have ha : abiOf .amd64 s = .x64 := by rw [abi_amd, if_neg hb]
        rw [ha]
        refine ⟨upd s .orig (BitVec.ofNat 64 n), nr, rfl, else_upd _ _ _, fun _ => ?_, nofun⟩
        have ha' : abiOf .amd64 (upd s .orig (BitVec.ofNat 64 n)) = .x64 := by
          rw [abi_amd, if_neg]
          show ¬(BitVec.ofNat 64 n).getLsbD 30 = true
          rw [bits_small n hn2 30 (by omega)]; decide
        refine ⟨?_, ha'⟩
        rw [C75_abi .x64 .amd64 .x64, ha']
        show some ((BitVec.ofNat 64 n).setWidth 32).toInt = some (n : Int)
        rw [low n hn2]
    | x64c =>
      refine ⟨upd s .orig (BitVec.ofNat 32 n), nr, rfl, else_upd _ _ _, fun _ => ⟨?_, rfl⟩, nofun⟩
      show some (BitVec.ofNat 32 n).toInt = some (n : Int)
      rw [low32 n hn2]
    | x86 =>
      refine ⟨upd s .orig (BitVec.ofNat 32 n), nr, rfl, else_upd _ _ _, fun _ => ⟨?_, rfl⟩, nofun⟩
      show some (BitVec.ofNat 32 n).toInt = some (n : Int)
      rw [low32 n hn2]
    | arm => exact ⟨s, n, rfl, fun _ _ _ => rfl, fun h => absurd rfl h, fun _ => ⟨hn1.symm, rfl⟩⟩
    | arm64 => exact absurd rfl hh
    | arm64c => exact absurd rfl hh
  · unfold replaceResult
    rw [C75_abi h m hr]
    cases hr with
    | x64 =>
      rw [abi_amd]
      refine ⟨upd t .ax (BitVec.ofInt 64 (-e)), ?_, rfl, else_upd _ _ _⟩
      split <;> rfl
    | x64c => exact ⟨upd t .ax (BitVec.ofInt 32 (-e)), rfl, rfl, else_upd _ _ _⟩
    | x86 => exact ⟨upd t .ax (BitVec.ofInt 32 (-e)), rfl, rfl, else_upd _ _ _⟩
    | arm => exact ⟨upd t (.r 0) (BitVec.ofInt 32 (-e)), rfl, rfl, else_upd _ _ _⟩
    | arm64 => exact absurd rfl hh
    | arm64c => exact absurd rfl hh

/-- C75. On ARM64 the program finds the result of the harmless call: its own process number, which looks like a success. -/
theorem C75_replaced_arm64_fails (m : Mode) (hr : Runs .arm64 m) (t : Saved m) (e : Int) :
    ∃ t', replaceResult .arm64 (handed m t) e = some (handed m t') ∧ t' (returned m) = t (returned m) := by
  unfold replaceResult
  rw [C75_abi .arm64 m hr]
  cases hr with
  | arm64 => exact ⟨upd t (.r 8) (BitVec.ofInt 64 (-e)), rfl, rfl⟩
  | arm64c => exact ⟨upd t (.r 7) (BitVec.ofInt 32 (-e)), rfl, rfl⟩

private theorem zero_iff {w : Nat} (x : BitVec w) : x.toInt = 0 ↔ x = 0 := by
  constructor
  · intro h
    have : x.toInt = (0#w).toInt := by simpa using h
    exact BitVec.eq_of_toInt_eq this
  · rintro rfl; simp

private theorem zero_nat {w : Nat} (x : BitVec w) : (x.toNat : Int) = 0 ↔ x = 0 := by
  constructor
  · intro h
    apply BitVec.eq_of_toNat_eq
    have : x.toNat = 0 := by omega
    simpa using this
  · rintro rfl; simp

/-- The numbers of `execve` in `Spec` are those of the tables. -/
theorem execve_tables : (59, "execve") ∈ Syscalls.x64Table ∧ (11, "execve") ∈ Syscalls.x86Table ∧ (11, "execve") ∈ Syscalls.armTable ∧
    (221, "execve") ∈ Syscalls.genericTable := by
  refine ⟨?_, ?_, ?_, ?_⟩ <;> decide +kernel

/-- C75. The launching code is let through until it calls `execve`: under seccomp a stop of it ends this exactly if its number is
that of `execve`. -/
theorem C75_execve_seccomp (h : Host) (s : Saved (native h)) (enter : Bool) (hb : h = .x64 → (s .orig).getLsbD 30 = false) :
    ∃ b, endOfExecve h true enter (handed (native h) s) = some b ∧
      (b = true ↔ ((s (numbered (native h))).setWidth 32).toInt = execve h) := by
  have hr : Runs h (native h) := by cases h <;> constructor
  unfold endOfExecve
  rw [C75_abi h _ hr]
  cases h with
  | x64 =>
    have : abiOf (native .x64) s = .x64 := by
      show (if (s .orig).getLsbD 30 = true then Abi.x32 else Abi.x64) = .x64
      rw [if_neg (by rw [hb rfl]; decide)]
    rw [this]
    exact ⟨_, rfl, decide_eq_true_iff⟩
  | x86 => exact ⟨_, rfl, by rw [decide_eq_true_iff]; exact sw (s .orig) ▸ Iff.rfl⟩
  | arm => exact ⟨_, rfl, by rw [decide_eq_true_iff]; exact sw (s (.r 7)) ▸ Iff.rfl⟩
  | arm64 => exact ⟨_, rfl, decide_eq_true_iff⟩

/-- C75. Without seccomp it ends on x86 with the return from an `execve` that succeeded, be the new program 64-bit or 32-bit. -/
theorem C75_execve_ptrace (h : Host) (m : Mode) (hr : Runs h m) (hm : m = .i386 ∨ m = .amd64) (s : Saved m) (enter : Bool)
    (hb : (s .orig).getLsbD 30 = false) :
    ∃ b, endOfExecve h false enter (handed m s) = some b ∧
      (b = true ↔ enter = false ∧ ((s .orig).setWidth 32).toInt = (if m = .amd64 then 59 else 11) ∧ s .ax = 0) := by
  unfold endOfExecve
  rw [C75_abi h m hr]
  cases hr with
  | x64 =>
    have : abiOf .amd64 s = .x64 := by rw [abi_amd, if_neg (by rw [hb]; decide)]
    rw [this]
    refine ⟨_, rfl, ?_⟩
    show ((!enter && (decide (((s .orig).setWidth 32).toInt = 59) && decide ((s .ax).toInt = 0))) = true ↔ _)
    simp only [Bool.and_eq_true, Bool.not_eq_true', decide_eq_true_eq, if_true]
    rw [show (s .ax).toInt = 0 ↔ s .ax = 0 from zero_iff _]
  | x64c =>
    refine ⟨_, rfl, ?_⟩
    show ((!enter && (decide ((s .orig).toInt = 11) && decide (((s .ax).toNat : Int) = 0))) = true ↔ _)
    simp only [Bool.and_eq_true, Bool.not_eq_true', decide_eq_true_eq, reduceCtorEq, if_false]
    rw [show ((s .ax).toNat : Int) = 0 ↔ s .ax = 0 from zero_nat _, show (s .orig).toInt = ((s .orig).setWidth 32).toInt from sw _]
  | x86 =>
    refine ⟨_, rfl, ?_⟩
    show ((!enter && decide ((s .orig).toInt = 11) && decide ((s .ax).toInt = 0)) = true ↔ _)
    simp only [Bool.and_eq_true, Bool.not_eq_true', decide_eq_true_eq, reduceCtorEq, if_false, and_assoc]
    rw [show (s .ax).toInt = 0 ↔ s .ax = 0 from zero_iff _, show (s .orig).toInt = ((s .orig).setWidth 32).toInt from sw _]
  | arm => simp at hm
  | arm64 => simp at hm
  | arm64c => simp at hm

/-- C75. On ARM it ends when the call returns with the register of the number cleared (and, on ARM itself, with the result zero),
as a new program begins. -/
theorem C75_execve_arm (h : Host) (m : Mode) (hr : Runs h m) (hm : m = .arm ∨ m = .arm64) (s : Saved m) (enter : Bool) :
    ∃ b, endOfExecve h false enter (handed m s) = some b ∧
      (b = true ↔ enter = false ∧ s (numbered m) = 0 ∧ (h = .arm → s (.r 0) = 0)) := by
  unfold endOfExecve
  rw [C75_abi h m hr]
  cases hr with
  | x64 => simp at hm
  | x64c => simp at hm
  | x86 => simp at hm
  | arm =>
    refine ⟨_, rfl, ?_⟩
    show ((!enter && decide ((s (.r 7)).toInt = 0) && decide ((s (.r 0)).toInt = 0)) = true ↔ _)
    simp only [Bool.and_eq_true, Bool.not_eq_true', decide_eq_true_eq, and_assoc, numbered, forall_const]
    rw [show (s (.r 7)).toInt = 0 ↔ s (.r 7) = 0 from zero_iff _, show (s (.r 0)).toInt = 0 ↔ s (.r 0) = 0 from zero_iff _]
  | arm64 =>
    refine ⟨_, rfl, ?_⟩
    show ((!enter && decide (((s (.r 8)).setWidth 32).toInt = 0) && decide ((s (.r 8)).toInt = 0)) = true ↔ _)
    simp only [Bool.and_eq_true, Bool.not_eq_true', decide_eq_true_eq, and_assoc, numbered, reduceCtorEq, false_implies, and_true]
    rw [show (s (.r 8)).toInt = 0 ↔ s (.r 8) = 0 from zero_iff _]
    constructor
    · rintro ⟨h1, -, h2⟩; exact ⟨h1, h2⟩
    · rintro ⟨h1, h2⟩; exact ⟨h1, by rw [h2]; rfl, h2⟩
  | arm64c =>
    refine ⟨_, rfl, ?_⟩
    show ((!enter && decide ((s (.r 7)).toInt = 0) && decide (((s (.r 7)).toNat : Int) = 0)) = true ↔ _)
    simp only [Bool.and_eq_true, Bool.not_eq_true', decide_eq_true_eq, and_assoc, numbered, reduceCtorEq, false_implies, and_true]
    rw [show ((s (.r 7)).toNat : Int) = 0 ↔ s (.r 7) = 0 from zero_nat _]
    constructor
    · rintro ⟨h1, -, h2⟩; exact ⟨h1, h2⟩
    · rintro ⟨h1, h2⟩; exact ⟨h1, by rw [h2]; rfl, h2⟩

/-- C75. A machine supports exactly the ABIs that threads of it can have. -/
theorem C75_supports (h : Host) (a : Abi) : supports h a = true ↔ ∃ m, Runs h m ∧ ∃ s : Saved m, abiOf m s = a := by
  constructor
  · intro hs
    cases h <;> cases a <;> first | cases hs | skip
    · exact ⟨.i386, .x64c, fun _ => 0, rfl⟩
    · exact ⟨.amd64, .x64, fun _ => 0, by decide⟩
    · exact ⟨.amd64, .x64, fun _ => 0x40000000, by decide⟩
    · exact ⟨.i386, .x86, fun _ => 0, rfl⟩
    · exact ⟨.arm, .arm, fun _ => 0, rfl⟩
    · exact ⟨.arm, .arm64c, fun _ => 0, rfl⟩
    · exact ⟨.arm64, .arm64, fun _ => 0, rfl⟩
  · rintro ⟨m, hr, s, rfl⟩
    cases hr with
    | x64 =>
      rw [abi_amd]
      split <;> rfl
    | _ => rfl

/-! ### Examples -/

namespace Ex

/-- `openat(AT_FDCWD, 0x1000, 0)` on ARM64. -/
def opening : Saved .arm64 := fun r => if r = .r 8 then 56 else if r = .r 0 then -100 else if r = .r 1 then 0x1000 else 0

example : syscall .arm64 (detect .arm64 (handed .arm64 opening)) (handed .arm64 opening) = some 56 := by decide +kernel
example : arg .arm64 .arm64 (handed .arm64 opening) 0 = some (-100) := by decide +kernel

/-- It is refused with `EACCES`; the program gets -100, which it takes for `ENETDOWN`. -/
example : (refuse .arm64 (handed .arm64 opening) 56 13).map (fun x => (arg .arm64 .arm64 x.1 0, x.2)) = some (some (-100), -1) := by
  decide +kernel

/-- The same call of a 32-bit program on x86-64: the descriptor is a positive number. -/
def opening32 : Saved .i386 := fun r => if r = .orig then 295 else if r = .bx then -100 else if r = .cx then 0x1000 else 0

example : arg .x64 .x86 (handed .i386 opening32) 0 = some 4294967196 := by decide +kernel
example : (refuse .x64 (handed .i386 opening32) 0 13).map (fun x => get .x64 .x86 x.1 "eax") = some (some 4294967283) := by
  decide +kernel
example : Stopped .arm (fun _ => 7) := fun _ => rfl
example : endOfExecve .arm64 false false (handed .arm64 fun _ => 0) = some true := by decide +kernel

end Ex

end Verif.Arch
