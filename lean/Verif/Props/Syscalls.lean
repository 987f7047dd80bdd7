import Verif.Lemmas.Syscalls
import Verif.Model.SyscallTables

/-!
# Syscall numbering and the handler tables (C36, C51)
-/

namespace Verif.Syscalls

/-! ## Translation table (C51) -/

/-- **C51**: every name of every table has an id, below `SYSCALL_COUNT`, and the table of that id lists
its number. -/
theorem C51_listed (aliases : List (List String)) (tables : List (List (Nat × String))) (hne : aliases ≠ [])
    (hl : ∀ l ∈ aliases, l ≠ []) (t : Nat) (rows : List (Nat × String)) (ht : tables[t]? = some rows)
    (num : Nat) (name : String) (hm : (num, name) ∈ rows) :
    ∃ id, (create aliases tables).1.find name = some id ∧ id < (create aliases tables).2 + 1 ∧
      num ∈ (create aliases tables).1.calls id t := by
  have h := create_inv aliases tables hne hl
  have he := (mem_entries tables t num name).2 ⟨rows, ht, hm⟩
  obtain ⟨k, hk⟩ := h.known _ he
  exact ⟨k, hk, Nat.lt_succ_of_le (h.bound name k hk), (h.calls k t num).2 ⟨name, he, hk⟩⟩

/-- **C51**: an id lists a number only if the table gives that number to a name with that id. -/
theorem C51_only (aliases : List (List String)) (tables : List (List (Nat × String))) (hne : aliases ≠ [])
    (hl : ∀ l ∈ aliases, l ≠ []) (id t num : Nat) (hc : num ∈ (create aliases tables).1.calls id t) :
    ∃ rows name, tables[t]? = some rows ∧ (num, name) ∈ rows ∧ (create aliases tables).1.find name = some id := by
  have h := create_inv aliases tables hne hl
  obtain ⟨name, he, hf⟩ := (h.calls id t num).1 hc
  obtain ⟨rows, ht, hm⟩ := (mem_entries tables t num name).1 he
  exact ⟨rows, name, ht, hm, hf⟩

/-- **C51**: two known names share an id exactly if they are equal or aliases of each other. -/
theorem C51_same (aliases : List (List String)) (tables : List (List (Nat × String))) (hne : aliases ≠ [])
    (hl : ∀ l ∈ aliases, l ≠ []) (a b : String) (i j : Nat)
    (ha : (create aliases tables).1.find a = some i) (hb : (create aliases tables).1.find b = some j) :
    i = j ↔ SameCall aliases a b := by
  have h := create_inv aliases tables hne hl
  constructor
  · rintro rfl
    rcases Nat.lt_or_ge i aliases.length with hi | hi
    · exact .inr ⟨i, (h.aliased a i hi).1 ha, (h.aliased b i hi).1 hb⟩
    · exact .inl (h.inj a b i hi ha hb)
  · rintro (rfl | ⟨k, h1, h2⟩)
    · rw [ha] at hb; cases hb; rfl
    · have e1 := (h.aliased a k (inClass_lt h1)).2 h1
      have e2 := (h.aliased b k (inClass_lt h2)).2 h2
      rw [ha] at e1; rw [hb] at e2
      cases e1; cases e2; rfl

/-- **C51**: names not in the alias file name their id. -/
theorem C51_by_id (aliases : List (List String)) (tables : List (List (Nat × String))) (hne : aliases ≠ [])
    (hl : ∀ l ∈ aliases, l ≠ []) (name : String) (id : Nat) (hno : ∀ l ∈ aliases, name ∉ l)
    (hf : (create aliases tables).1.find name = some id) :
    (create aliases tables).1.byId[id]? = some ("sys_" ++ name) := by
  have h := create_inv aliases tables hne hl
  have hge : aliases.length ≤ id := by
    by_contra hlt
    obtain ⟨⟨l, hl', hm⟩, _⟩ := (h.aliased name id (by omega)).1 hf
    exact hno l (List.mem_of_getElem? hl') hm
  exact (h.origin name id hge hf).2

/-- **C51**: the id of an alias class is named after the first name on its line. -/
theorem C51_by_id_alias (aliases : List (List String)) (tables : List (List (Nat × String))) (hne : aliases ≠ [])
    (hl : ∀ l ∈ aliases, l ≠ []) (i : Nat) (n : String) (ns : List String) (hi : aliases[i]? = some (n :: ns)) :
    (create aliases tables).1.byId[i]? = some ("sys_" ++ n) :=
  (create_inv aliases tables hne hl).names i _ hi n ns rfl

/-! ## The repository's tables -/

/-- The numbers increase from `lo` and stay below 568. -/
def ascending : Nat → List (Nat × String) → Bool
  | _, [] => true
  | lo, e :: rows => decide (lo ≤ e.1) && decide (e.1 < 568) && ascending (e.1 + 1) rows

theorem ascending_ge (rows : List (Nat × String)) : ∀ lo, ascending lo rows = true → ∀ e ∈ rows, lo ≤ e.1 ∧ e.1 < 568 := by
  induction rows with
  | nil => intro lo _ e he; cases he
  | cons r rows ih =>
    intro lo h e he
    simp only [ascending, Bool.and_eq_true, decide_eq_true_eq] at h
    rcases List.mem_cons.1 he with rfl | he
    · exact h.1
    · have := ih _ h.2 e he
      omega

theorem ascending_unambiguous (rows : List (Nat × String)) : ∀ lo, ascending lo rows = true → Unambiguous rows := by
  induction rows with
  | nil => intro lo _ n a b ha; cases ha
  | cons r rows ih =>
    intro lo h n a b ha hb
    simp only [ascending, Bool.and_eq_true, decide_eq_true_eq] at h
    have hge := ascending_ge rows _ h.2
    rcases List.mem_cons.1 ha with ha | ha <;> rcases List.mem_cons.1 hb with hb | hb
    · rw [← ha] at hb; cases hb; rfl
    · have := hge _ hb
      rw [← ha] at this
      simp only at this
      omega
    · have := hge _ ha
      rw [← hb] at this
      simp only at this
      omega
    · exact ih _ h.2 n a b ha hb

/-- **C51**: in the repository's tables no number is listed under two names, and all numbers are below
the size of the handler array. -/
theorem C51_tables : ∀ rows ∈ allTables, Unambiguous rows ∧ ∀ e ∈ rows, e.1 < 568 := by
  have key : allTables.all (ascending 0) = true := by decide +kernel
  intro rows hr
  have h := List.all_eq_true.1 key rows hr
  exact ⟨ascending_unambiguous rows 0 h, fun e he => (ascending_ge rows 0 h e he).2⟩

/-- The alias file meets the assumptions of the theorems above. -/
theorem aliasFile_ok : aliasFile ≠ [] ∧ ∀ l ∈ aliasFile, l ≠ [] := by decide +kernel

/-! ## Default deny (C36) -/

section
variable {C : Type}

/-- **C36**: a number none of whose ids is mentioned by the policy — in particular a number of no id —
is denied, for any policy and any table. -/
theorem C36_default (isArm : Bool) (sec : Nat → Option (Pol C)) (calls : Nat → List Nat) (count n : Nat) (hn : n < 568)
    (h : ∀ i, i < count → n ∈ calls i → sec i = none) :
    decideCall isArm (build sec calls count) n = .deny := by
  have hcode : (build sec calls count).code n = 0 := by
    unfold build
    obtain ⟨h1, h2⟩ := fold_assign sec (visits calls count) ⟨fun _ => 0, fun _ => none⟩ n
    by_cases hex : ∃ i, (i, n) ∈ visits calls count
    · obtain ⟨i, hi, hc, _⟩ := h2 hex hn
      obtain ⟨hi1, hi2⟩ := (mem_visits calls count i n).1 hi
      rw [hc, h i hi1 hi2]
      rfl
    · exact (h1 fun i hi => hex ⟨i, hi⟩).1
  unfold decideCall
  rw [if_pos ⟨by omega, by omega⟩]
  simp [hcode]

/-- What a policy value asks for. -/
def Pol.decision : Option (Pol C) → Dec C
  | none => .deny
  | some (.int h) => if h = 1 then .allow else if h = 3 then .stdouterr else .deny
  | some (.fn c) => .ask c

theorem code_unique (sec : Nat → Option (Pol C)) (calls : Nat → List Nat) (count n i : Nat) (hn : n < 568)
    (hi : i < count) (hc : n ∈ calls i) (hu : ∀ j, j < count → n ∈ calls j → j = i) :
    (build sec calls count).code n = Pol.codeOf (sec i) ∧
      ∀ c, sec i = some (.fn c) → (build sec calls count).cb n = some c := by
  unfold build
  obtain ⟨_, h2⟩ := fold_assign sec (visits calls count) ⟨fun _ => 0, fun _ => none⟩ n
  obtain ⟨j, hj, hcode, hcb⟩ := h2 ⟨i, (mem_visits calls count i n).2 ⟨hi, hc⟩⟩ hn
  obtain ⟨hj1, hj2⟩ := (mem_visits calls count j n).1 hj
  have := hu j hj1 hj2
  subst this
  exact ⟨hcode, hcb⟩

/-- **C36**: a number of exactly one id gets exactly what the policy says for that id. A policy does
not use the internal code 2. -/
theorem C36_listed (isArm : Bool) (sec : Nat → Option (Pol C)) (calls : Nat → List Nat) (count n i : Nat) (hn : n < 568)
    (hi : i < count) (hc : n ∈ calls i) (hu : ∀ j, j < count → n ∈ calls j → j = i) (h2 : sec i ≠ some (.int 2)) :
    decideCall isArm (build sec calls count) n = Pol.decision (sec i) := by
  obtain ⟨hcode, hcb⟩ := code_unique sec calls count n i hn hi hc hu
  unfold decideCall
  rw [if_pos ⟨by omega, by omega⟩]
  rw [Int.toNat_natCast]
  cases hs : sec i with
  | none =>
    rw [hs] at hcode
    rw [show (build sec calls count).code n = 0 from hcode]
    rfl
  | some p =>
    rw [hs] at hcode
    cases p with
    | int h =>
      have hne : h ≠ 2 := fun e => h2 (by rw [hs, e])
      rw [show (build sec calls count).code n = h from hcode]
      unfold Pol.decision
      simp only [hne, if_false]
    | fn c =>
      rw [show (build sec calls count).code n = 2 from hcode]
      simp only [Int.reduceEq, if_false, if_true, pyCallback]
      rw [if_neg (by omega), if_neg (by omega), Int.toNat_natCast, hcb c hs]
      rfl

/-- **C36**: the kernel lets a number through without asking only if the tracer would allow it
unconditionally, for tables without ambiguous numbers; exit and exit_group are never among them. -/
theorem C36_whitelist_partial (isArm : Bool) (sec : Nat → Option (Pol C)) (calls : Nat → List Nat) (count : Nat) (exits : List Nat)
    (n : Nat) (hn : n < 568) (hu : ∀ i j, i < count → j < count → n ∈ calls i → n ∈ calls j → i = j)
    (h : whitelist sec calls count exits n = true) :
    decideCall isArm (build sec calls count) n = .allow ∧ ∀ i ∈ exits, i < count → n ∉ calls i := by
  unfold whitelist at h
  rcases fold_white sec exits (visits calls count) (fun _ => false) n h with h | ⟨i, hi, hex, hs⟩
  · cases h
  · obtain ⟨hi1, hi2⟩ := (mem_visits calls count i n).1 hi
    constructor
    · rw [C36_listed isArm sec calls count n i hn hi1 hi2 (fun j hj hc => hu j i hj hi1 hc hi2) (by rw [hs]; simp)]
      rw [hs]; rfl
    · intro j hj hjc hjm
      exact hex (hu i j hi1 hjc hi2 hjm ▸ hj)

/-- **C36 fails** for a table with an ambiguous number: an unconditional permission for its first name
hides the check of its second. -/
theorem C36_whitelist_fails : ∃ (sec : Nat → Option (Pol Unit)) (calls : Nat → List Nat) (count n : Nat),
    whitelist sec calls count [] n = true ∧ decideCall false (build sec calls count) n = .ask () :=
  ⟨fun i => if i = 0 then some (.int 1) else some (.fn ()), fun _ => [5], 2, 5, by rfl, by rfl⟩

/-- **C36**: numbers above the table are denied (except for the five ARM-private calls on ARM). -/
theorem C36_above (isArm : Bool) (t : Table C) (n : Int) (hn : 568 ≤ n) (harm : isArm = true → n ≤ 0xF0000 ∨ 0xF0006 ≤ n) :
    decideCall isArm t n = .deny := by
  unfold decideCall pyCallback
  rw [if_neg (by omega), if_pos (.inl hn), if_neg]
  rintro ⟨h1, h2, h3⟩
  rcases harm h1 with h | h <;> omega

/-- **C36**: for a negative number at most a handler is asked; without one the call is denied, and it
never goes through unasked. -/
theorem C36_negative (isArm : Bool) (t : Table C) (n : Int) (hn : n < 0) :
    decideCall isArm t n = .deny ∨ ∃ c m, t.cb m = some c ∧ decideCall isArm t n = .ask c ∧ (m : Int) = n + 568 := by
  unfold decideCall pyCallback
  rw [if_neg (by omega)]
  by_cases h : n ≥ 568 ∨ n < -568
  · rw [if_pos h, if_neg (by omega)]
    exact .inl rfl
  · rw [if_neg h, if_pos hn]
    cases hc : t.cb (n + 568).toNat with
    | none => exact .inl rfl
    | some c => exact .inr ⟨c, (n + 568).toNat, hc, rfl, by omega⟩

example : decideCall false (⟨fun _ => 0, fun _ => none⟩ : Table Unit) (-1) = .deny := by decide

/-- **C36 fails** for negative numbers: Python's negative indices make the callback of number 568+n
decide. (The kernel knows no negative numbers, so nothing is executed.) -/
theorem C36_negative_fails : ∃ (t : Table Unit) (n : Int), n < 0 ∧ decideCall false t n ≠ .deny :=
  ⟨⟨fun _ => 2, fun _ => some ()⟩, -311, by decide, by decide⟩

end

/-! ## From names to numbers -/

/-- **C36**/**C51** for the repository's tables: on each ABI the number of a name gets exactly what
the policy says about the id of that name. -/
theorem C36_by_name {C : Type} (isArm : Bool) (sec : Nat → Option (Pol C)) (t : Nat) (rows : List (Nat × String))
    (ht : allTables[t]? = some rows) (n : Nat) (name : String) (hm : (n, name) ∈ rows)
    (id : Nat) (hid : (create aliasFile allTables).1.find name = some id) (h2 : sec id ≠ some (.int 2)) :
    decideCall isArm (build sec (fun i => (create aliasFile allTables).1.calls i t) ((create aliasFile allTables).2 + 1)) n
      = Pol.decision (sec id) := by
  have ha := aliasFile_ok
  obtain ⟨hun, hlt⟩ := C51_tables rows (List.mem_of_getElem? ht)
  obtain ⟨k, hk, hkl, hkc⟩ := C51_listed aliasFile allTables ha.1 ha.2 t rows ht n name hm
  rw [hid] at hk
  cases hk
  refine C36_listed isArm sec _ _ n id (hlt _ hm) hkl hkc ?_ h2
  intro j _ hjc
  obtain ⟨rows', name', ht', hm', hf'⟩ := C51_only aliasFile allTables ha.1 ha.2 j t n hjc
  rw [ht] at ht'
  cases ht'
  have := hun n name name' hm hm'
  subst this
  rw [hid] at hf'
  cases hf'
  rfl

/-- **C36** for the repository's tables: a number a table does not mention is denied. -/
theorem C36_unknown {C : Type} (isArm : Bool) (sec : Nat → Option (Pol C)) (t : Nat) (rows : List (Nat × String))
    (ht : allTables[t]? = some rows) (n : Nat) (hn : n < 568) (hm : ∀ name, (n, name) ∉ rows) :
    decideCall isArm (build sec (fun i => (create aliasFile allTables).1.calls i t) ((create aliasFile allTables).2 + 1)) n
      = .deny := by
  have ha := aliasFile_ok
  refine C36_default isArm sec _ _ n hn ?_
  intro j _ hjc
  obtain ⟨rows', name', ht', hm', hf'⟩ := C51_only aliasFile allTables ha.1 ha.2 j t n hjc
  rw [ht] at ht'
  cases ht'
  exact absurd hm' (hm name')

/-- **C36** for the repository's tables: the in-kernel allow list agrees with the handler table. -/
theorem C36_kernel_list {C : Type} (isArm : Bool) (sec : Nat → Option (Pol C)) (t : Nat) (rows : List (Nat × String))
    (ht : allTables[t]? = some rows) (exits : List Nat) (n : Nat) (hn : n < 568)
    (h : whitelist sec (fun i => (create aliasFile allTables).1.calls i t) ((create aliasFile allTables).2 + 1) exits n = true) :
    decideCall isArm (build sec (fun i => (create aliasFile allTables).1.calls i t) ((create aliasFile allTables).2 + 1)) n = .allow ∧
      ∀ i ∈ exits, n ∉ (create aliasFile allTables).1.calls i t := by
  have ha := aliasFile_ok
  obtain ⟨hun, hlt⟩ := C51_tables rows (List.mem_of_getElem? ht)
  have huniq : ∀ i j, n ∈ (create aliasFile allTables).1.calls i t → n ∈ (create aliasFile allTables).1.calls j t → i = j := by
    intro i j hi hj
    obtain ⟨r1, n1, ht1, hm1, hf1⟩ := C51_only aliasFile allTables ha.1 ha.2 i t n hi
    obtain ⟨r2, n2, ht2, hm2, hf2⟩ := C51_only aliasFile allTables ha.1 ha.2 j t n hj
    rw [ht] at ht1 ht2
    cases ht1; cases ht2
    have := hun n n1 n2 hm1 hm2
    subst this
    rw [hf1] at hf2
    cases hf2
    rfl
  obtain ⟨h1, h2⟩ := C36_whitelist_partial isArm sec _ _ exits n hn (fun i j _ _ => huniq i j) h
  refine ⟨h1, ?_⟩
  intro i hi hc
  obtain ⟨r1, n1, ht1, hm1, hf1⟩ := C51_only aliasFile allTables ha.1 ha.2 i t n hc
  obtain ⟨k, hk, hkl, _⟩ := C51_listed aliasFile allTables ha.1 ha.2 t r1 ht1 n n1 hm1
  rw [hf1] at hk
  cases hk
  exact h2 i hi hkl hc

theorem abi_x64 : ∀ r ∈ x64Abi, r ∈ x64Table := by decide +kernel

theorem abi_x86 : ∀ r ∈ x86Abi, r ∈ x86Table := by decide +kernel

theorem abi_arm : ∀ r ∈ armAbi, r ∈ armTable := by decide +kernel

theorem abi_arm64 : ∀ r ∈ arm64Abi, r ∈ genericTable := by decide +kernel

/-- **C51**: the calls that deal with files and processes have the numbers of the kernel, on each of the four kinds of machine: the number belongs to the
id of the name, and to no id of another call. -/
theorem C51_abi (t : Nat) (abi : List (Nat × String)) (ht : (t, abi) ∈ [(0, x86Abi), (1, x64Abi), (3, armAbi), (5, arm64Abi)]) (n : Nat) (name : String)
    (hm : (n, name) ∈ abi) :
    (∃ id, (create aliasFile allTables).1.find name = some id ∧ n ∈ (create aliasFile allTables).1.calls id t)
      ∧ ∀ rows, allTables[t]? = some rows → ∀ other, (n, other) ∈ rows → other = name := by
  have key : ∃ rows, allTables[t]? = some rows ∧ (n, name) ∈ rows := by
    simp only [List.mem_cons, Prod.mk.injEq, List.not_mem_nil, or_false] at ht
    rcases ht with ⟨rfl, rfl⟩ | ⟨rfl, rfl⟩ | ⟨rfl, rfl⟩ | ⟨rfl, rfl⟩
    · exact ⟨_, rfl, abi_x86 _ hm⟩
    · exact ⟨_, rfl, abi_x64 _ hm⟩
    · exact ⟨_, rfl, abi_arm _ hm⟩
    · exact ⟨_, rfl, abi_arm64 _ hm⟩
  obtain ⟨rows, hr, hin⟩ := key
  refine ⟨?_, fun rows' hr' other ho => ?_⟩
  · obtain ⟨id, h1, _, h2⟩ := C51_listed aliasFile allTables aliasFile_ok.1 aliasFile_ok.2 t rows hr n name hin
    exact ⟨id, h1, h2⟩
  · rw [hr] at hr'
    cases hr'
    exact (C51_tables rows (List.mem_of_getElem? hr)).1 n other name ho hin

example : (21, "access") ∈ x64Abi ∧ (33, "access") ∈ x86Abi := by decide +kernel

/-! ## The hypotheses are met -/

/-- A small instance: two tables, one alias class. -/
def demo : Maps × Nat := create [["a", "b"]] [[(1, "a"), (2, "c")], [(7, "b"), (9, "c"), (3, "d")]]

example : demo.1.find "a" = some 0 ∧ demo.1.find "b" = some 0 ∧ demo.1.find "c" = some 1 ∧ demo.1.find "d" = some 2 ∧
    demo.1.calls 0 0 = [1] ∧ demo.1.calls 0 1 = [7] ∧ demo.1.calls 1 1 = [9] ∧ demo.2 = 2 ∧
    demo.1.byId = ["sys_a", "sys_c", "sys_d"] := by decide +kernel

example : ∃ id, (create aliasFile allTables).1.find "openat" = some id ∧ 257 ∈ (create aliasFile allTables).1.calls id 1 := by
  obtain ⟨id, h1, _, h2⟩ := C51_listed aliasFile allTables aliasFile_ok.1 aliasFile_ok.2 1 x64Table rfl 257 "openat" (by decide +kernel)
  exact ⟨id, h1, h2⟩

example : SameCall aliasFile "sigaction" "rt_sigaction" := by
  refine .inr ⟨4, ⟨⟨_, rfl, by decide⟩, ?_⟩, ⟨⟨_, rfl, by decide⟩, ?_⟩⟩ <;>
  · intro j l hj hl
    have := (List.getElem?_eq_some_iff.1 hl).1
    have : aliasFile.length = 5 := rfl
    omega

example : decideCall false (build (fun i => if i = 0 then some (.int 1) else if i = 1 then some (.fn "check") else none)
    (fun i => [i + 10]) 3) 11 = .ask "check" := by decide

example : whitelist (C := Unit) (fun _ => some (.int 1)) (fun i => [i + 10]) 3 [2] 11 = true ∧
    whitelist (C := Unit) (fun _ => some (.int 1)) (fun i => [i + 10]) 3 [2] 12 = false := by decide

end Verif.Syscalls
