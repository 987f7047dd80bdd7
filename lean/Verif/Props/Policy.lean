import Verif.Spec.Policy
import Verif.Spec.Isolate
import Verif.Props.Syscalls
import Verif.Props.Isolate
import Mathlib.Data.List.Induction

/-!
# C63 The policies of the executors
-/

namespace Verif.Policy
open Verif.Syscalls Verif.Isolate Verif.Path Verif.Policy.Spec

private theorem inv : TableInv allTables.length aliasFile (entries allTables) (create aliasFile allTables).1 (create aliasFile allTables).2 :=
  create_inv aliasFile allTables aliasFile_ok.1 aliasFile_ok.2

/-- Names of the same call have the same id, and only these. -/
theorem idOf_same (a b : String) (id : Nat) (hb : idOf b = some id) : idOf a = some id ↔ SameCall aliasFile a b := by
  constructor
  · intro ha
    exact (C51_same aliasFile allTables aliasFile_ok.1 aliasFile_ok.2 a b id id ha hb).1 rfl
  · rintro (rfl | ⟨i, h1, h2⟩)
    · exact hb
    · obtain ⟨⟨l, hl, _⟩, _⟩ := (show InClass aliasFile i a from h1)
      have hi : i < aliasFile.length := by
        by_contra hc
        rw [List.getElem?_eq_none (by omega)] at hl
        cases hl
      have e1 := (inv.aliased a i hi).2 h1
      have e2 := (inv.aliased b i hi).2 h2
      unfold idOf at hb ⊢
      rw [e1, ← e2, hb]

private theorem dict_append (p : List (String × Handler)) (e : String × Handler) (id : Nat) :
    dict (p ++ [e]) id = if idOf e.1 = some id then some e.2 else dict p id := by
  unfold dict
  rw [List.foldl_append, List.foldl_cons, List.foldl_nil]

/-- The dictionary holds, for a known call, the last entry given for it under any of its names, and nothing if there is
none. -/
theorem C63_effective (p : List (String × Handler)) (name : String) (id : Nat) (hid : idOf name = some id) :
    (∀ h, dict p id = some h ↔ Decides p name h) ∧ (dict p id = none ↔ Silent p name) := by
  induction p using List.reverseRecOn with
  | nil =>
    refine ⟨fun h => ⟨fun hd => (nomatch hd), ?_⟩, iff_of_true rfl (fun q hq => (nomatch hq))⟩
    rintro ⟨pre, nm, post, he, _⟩
    cases pre <;> cases he
  | append_singleton p e ih =>
    rw [dict_append]
    have hs := idOf_same e.1 name id hid
    by_cases hc : idOf e.1 = some id
    · rw [if_pos hc]
      have hsame := hs.1 hc
      constructor
      · intro h
        constructor
        · intro he
          refine ⟨p, e.1, [], ?_, hsame, fun q hq => nomatch hq⟩
          rw [← Option.some.inj he]
        · rintro ⟨pre, nm, post, he, h1, h2⟩
          rcases List.eq_nil_or_concat post with rfl | ⟨post', q, rfl⟩
          · have := List.append_inj_right' he rfl
            cases this
            rfl
          · rw [List.concat_eq_append, ← List.cons_append, ← List.append_assoc] at he
            have := List.append_inj_right' he rfl
            cases this
            exact absurd hsame (h2 e (by simp))
      · constructor
        · intro he; cases he
        · intro h
          exact absurd hsame (h e (by simp))
    · rw [if_neg hc]
      have hns : ¬ SameCall aliasFile e.1 name := fun h => hc (hs.2 h)
      constructor
      · intro h
        rw [ih.1 h]
        constructor
        · rintro ⟨pre, nm, post, rfl, h1, h2⟩
          refine ⟨pre, nm, post ++ [e], by simp, h1, ?_⟩
          intro q hq
          rcases List.mem_append.1 hq with hq | hq
          · exact h2 q hq
          · rw [List.mem_singleton.1 hq]
            exact hns
        · rintro ⟨pre, nm, post, he, h1, h2⟩
          rcases List.eq_nil_or_concat post with rfl | ⟨post', q, rfl⟩
          · have := List.append_inj_right' he rfl
            cases this
            exact absurd h1 hns
          · rw [List.concat_eq_append, ← List.cons_append, ← List.append_assoc] at he
            have h3 := List.append_inj_left' he rfl
            refine ⟨pre, nm, post', h3, h1, ?_⟩
            intro q' hq'
            exact h2 q' (by rw [List.concat_eq_append]; exact List.mem_append_left _ hq')
      · rw [ih.2]
        unfold Silent
        constructor
        · intro h q hq
          rcases List.mem_append.1 hq with hq | hq
          · exact h q hq
          · rw [List.mem_singleton.1 hq]
            exact hns
        · intro h q hq
          exact h q (List.mem_append_left _ hq)

/-- The tracer's decision for the number of a call is what the policy says about the call: allowed, asked of its
handler, or denied if the policy is silent. -/
theorem C63_decision (isArm : Bool) (p : List (String × Handler)) (t : Nat) (rows : List (Nat × String)) (ht : allTables[t]? = some rows)
    (n : Nat) (name : String) (hm : (n, name) ∈ rows) :
    (Decides p name (.std .allow) → decideCall isArm (table p t) n = .allow) ∧
    (∀ h, Decides p name h → h ≠ .std .allow → decideCall isArm (table p t) n = .ask h) ∧
    (Silent p name → decideCall isArm (table p t) n = .deny) := by
  obtain ⟨id, hid, -, -⟩ := C51_listed aliasFile allTables aliasFile_ok.1 aliasFile_ok.2 t rows ht n name hm
  have hne : sec p id ≠ some (.int 2) := by
    unfold sec
    split <;> simp
  have h := C36_by_name isArm (sec p) t rows ht n name hm id hid hne
  obtain ⟨h1, h2⟩ := C63_effective p name id hid
  refine ⟨fun hd => ?_, fun hh hd hn => ?_, fun hs => ?_⟩
  · have := (h1 _).2 hd
    rw [table, h, sec, this]
    rfl
  · have := (h1 _).2 hd
    have hs : sec p id = some (.fn hh) := by
      unfold sec
      rw [this]
      split
      · rename_i heq; cases heq
      · rename_i heq; exact absurd (Option.some.inj heq) hn
      · rename_i heq; rw [Option.some.inj heq]
    rw [table, h, hs]
    rfl
  · have := h2.2 hs
    rw [table, h, sec, this]
    rfl

/-- A policy decides about a call or is silent. -/
theorem decides_or_silent (p : List (String × Handler)) (t : Nat) (rows : List (Nat × String)) (ht : allTables[t]? = some rows)
    (n : Nat) (name : String) (hm : (n, name) ∈ rows) : (∃ h, Decides p name h) ∨ Silent p name := by
  obtain ⟨id, hid, -, -⟩ := C51_listed aliasFile allTables aliasFile_ok.1 aliasFile_ok.2 t rows ht n name hm
  obtain ⟨h1, h2⟩ := C63_effective p name id hid
  cases hd : dict p id with
  | none => exact .inr (h2.1 hd)
  | some h => exact .inl ⟨h, (h1 h).1 hd⟩

/-! ## Computing with names -/

/-- Equal or in a line of the alias file together. -/
def sameB (a b : String) : Bool := a == b || aliasFile.any fun l => l.contains a && l.contains b

theorem sameB_of {a b : String} (h : SameCall aliasFile a b) : sameB a b = true := by
  unfold sameB
  rw [Bool.or_eq_true]
  rcases h with rfl | ⟨i, ⟨⟨l, hl, ha⟩, _⟩, ⟨l', hl', hb⟩, _⟩
  · exact .inl (by simp)
  · rw [hl] at hl'
    cases hl'
    refine .inr (List.any_eq_true.2 ⟨l, List.mem_of_getElem? hl, ?_⟩)
    simp [ha, hb]

theorem decides_mem {p : List (String × Handler)} {name : String} {h : Handler} (hd : Decides p name h) :
    ∃ q ∈ p, q.2 = h ∧ sameB q.1 name = true := by
  obtain ⟨pre, nm, post, rfl, h1, _⟩ := hd
  exact ⟨(nm, h), by simp, rfl, sameB_of h1⟩

theorem decides_at {p : List (String × Handler)} (i : Nat) (name : String) (h : Handler) (hi : p[i]? = some (name, h))
    (ha : (p.drop (i + 1)).all (fun q => !sameB q.1 name) = true) : Decides p name h := by
  have hlt : i < p.length := by
    by_contra hc
    rw [List.getElem?_eq_none (by omega)] at hi
    cases hi
  rw [List.getElem?_eq_getElem hlt] at hi
  refine ⟨p.take i, name, p.drop (i + 1), ?_, .inl rfl, ?_⟩
  · rw [← Option.some.inj hi, List.getElem_cons_drop, List.take_append_drop]
  · intro q hq hs
    have := List.all_eq_true.1 ha q hq
    rw [sameB_of hs] at this
    cases this

/-- A test on all entries about a call, lifted to all executors whatever their set of commands is. -/
private def erase : Handler → Handler
  | .exec _ => .exec []
  | h => h

private theorem erase_executors (c : List Str) :
    (executors c).map (fun e => (e.1, e.2.map fun q => (q.1, erase q.2))) = executors [] := rfl

private theorem lift (c : List Str) (x : String) (l : List (String × Handler)) (hx : (x, l) ∈ executors c) :
    (x, l.map fun q => (q.1, erase q.2)) ∈ executors [] := by
  rw [← erase_executors c]
  exact List.mem_map.2 ⟨_, hx, rfl⟩

private def fill (c : List Str) : Handler → Handler
  | .exec _ => .exec c
  | h => h

private theorem fill_executors (c : List Str) :
    executors c = (executors []).map (fun e => (e.1, e.2.map fun q => (q.1, fill c q.2))) := rfl

theorem exec_commands (c : List Str) (x : String) (l : List (String × Handler)) (hx : (x, l) ∈ executors c) (nm : String)
    (a : List Str) (ha : (nm, .exec a) ∈ l) : a = c := by
  rw [fill_executors] at hx
  obtain ⟨e, _, he⟩ := List.mem_map.1 hx
  cases he
  obtain ⟨q, _, hq⟩ := List.mem_map.1 ha
  have : fill c q.2 = .exec a := congrArg Prod.snd hq
  match hq2 : q.2 with
  | .exec b => rw [hq2] at this; cases this; rfl
  | .std e => rw [hq2] at this; cases this
  | .procctl => rw [hq2] at this; cases this

theorem base_std {nm : String} {h : Handler} (hm : (nm, h) ∈ base) : ∃ e, h = .std e := by
  obtain ⟨q, _, hq⟩ := List.mem_map.1 hm
  cases hq
  exact ⟨_, rfl⟩

/-- Every entry about `name` in the policy of an executor: the test holds for it. -/
private theorem all_entries (f : String → String → String → Handler → Bool) (names : List String)
    (hb : base.all (fun q => names.all fun n => !sameB q.1 n || f "" n q.1 q.2) = true)
    (he : (executors []).all (fun e => e.2.all fun q => names.all fun n => !sameB q.1 n || f e.1 n q.1 q.2) = true)
    (c : List Str) (x : String) (l : List (String × Handler)) (hx : (x, l) ∈ executors c) (name : String) (hn : name ∈ names)
    (h : Handler) (hd : Decides (base ++ l) name h) :
    ∃ nm, sameB nm name = true ∧ (f "" name nm h = true ∧ (nm, h) ∈ base ∨ f x name nm (erase h) = true ∧ (nm, h) ∈ l) := by
  obtain ⟨q, hq, rfl, hs⟩ := decides_mem hd
  refine ⟨q.1, hs, ?_⟩
  rcases List.mem_append.1 hq with hq | hq
  · have := List.all_eq_true.1 (List.all_eq_true.1 hb q hq) name hn
    rw [hs] at this
    exact .inl ⟨by simpa using this, hq⟩
  · have h1 := List.all_eq_true.1 he _ (lift c x l hx)
    have h2 := List.all_eq_true.1 h1 (q.1, erase q.2) (List.mem_map.2 ⟨q, hq, rfl⟩)
    have := List.all_eq_true.1 h2 name hn
    simp only at this
    rw [hs] at this
    exact .inr ⟨by simpa using this, hq⟩

private def isErrno : Handler → Bool
  | .std (.errno _) => true
  | _ => false

private theorem erase_errno {h : Handler} (he : isErrno (erase h) = true) : ∃ n, h = .std (.errno n) := by
  match h, he with
  | .std (.errno n), _ => exact ⟨n, rfl⟩

/-- Under the policy of any executor no call that reaches beyond the program itself is ever executed, in no situation. -/
theorem C63_escape (c : List Str) (x : String) (l : List (String × Handler)) (hx : (x, l) ∈ executors c) (name : String)
    (hn : name ∈ escapes) : ¬ Possible (base ++ l) name := by
  rintro ⟨h, s, hd, hr⟩
  obtain ⟨nm, -, ⟨h1, -⟩ | ⟨h1, -⟩⟩ := all_entries (fun _ _ _ h => isErrno h) escapes (by decide +kernel) (by decide +kernel) c x l hx name hn h hd
  · match h, h1 with
    | .std (.errno n), _ => cases hr
  · obtain ⟨n, rfl⟩ := erase_errno h1
    cases hr

/-- Nor one that changes the directory tree. -/
theorem C63_tree (c : List Str) (x : String) (l : List (String × Handler)) (hx : (x, l) ∈ executors c) (name : String)
    (hn : name ∈ treeChanges) : ¬ Possible (base ++ l) name := by
  rintro ⟨h, s, hd, hr⟩
  obtain ⟨nm, -, ⟨h1, -⟩ | ⟨h1, -⟩⟩ := all_entries (fun _ _ _ h => isErrno h) treeChanges (by decide +kernel) (by decide +kernel) c x l hx name hn h hd
  · match h, h1 with
    | .std (.errno n), _ => cases hr
  · obtain ⟨n, rfl⟩ := erase_errno h1
    cases hr

/-- The languages whose programs may do no more than all programs. -/
def plainLanguages : List String :=
  ["ADA", "BF", "C", "C11", "CBL", "CLANG", "CLANGX", "CPP03", "CPP11", "CPP14", "CPP17", "CPP20", "D", "F95", "FORTH", "GAS32", "GAS64",
   "GASARM", "HASK", "ICK", "LUA", "NASM", "NASM64", "OBJC", "OCAML", "PAS", "PHP", "PRO", "PY2", "PY3", "PYPY", "PYPY3", "RUST", "SCM",
   "SED", "SWIFT", "TUR", "V8JS", "ZIG"]

/-- C63.  Programs in these languages get what all programs get and nothing else; and no language has two policies. -/
theorem C63_plain (c : List Str) :
    (∀ x ∈ plainLanguages, ∃ l, (x, l) ∈ executors c ∧ ∀ name h, Decides (base ++ l) name h ↔ Decides base name h) ∧
    ((executors c).map Prod.fst).Nodup := by
  have e : (executors c).map Prod.fst = (executors []).map Prod.fst := rfl
  refine ⟨fun x hx => ⟨[], ?_, fun name h => by rw [List.append_nil]⟩, by rw [e]; decide +kernel⟩
  have hl : ((executors c).filter fun e => e.2.isEmpty).map Prod.fst = plainLanguages := by
    have : ((executors c).filter fun e => e.2.isEmpty) = ((executors []).filter fun e => e.2.isEmpty) := rfl
    rw [this]; decide +kernel
  rw [← hl] at hx
  obtain ⟨⟨y, l⟩, hm, rfl⟩ := List.mem_map.1 hx
  obtain ⟨hm, hnil⟩ := List.mem_filter.1 hm
  have hnil : l = [] := List.isEmpty_iff.1 hnil
  subst hnil
  exact hm

/-- All names used by the executors are names of calls: setting up a policy never fails. -/
theorem C63_names (c : List Str) (x : String) (l : List (String × Handler)) (hx : (x, l) ∈ executors c) :
    ∀ q ∈ base ++ l, (idOf q.1).isSome = true := by
  have key : ∀ n : String, (allTables.any fun t => t.any fun r => r.2 == n) = true → (idOf n).isSome = true := by
    intro n hn
    obtain ⟨t, ht, hr⟩ := List.any_eq_true.1 hn
    obtain ⟨r, hr, he⟩ := List.any_eq_true.1 hr
    obtain ⟨i, hi⟩ := List.getElem?_of_mem ht
    obtain ⟨id, hid, -, -⟩ := C51_listed aliasFile allTables aliasFile_ok.1 aliasFile_ok.2 i t hi r.1 r.2 hr
    rw [beq_iff_eq] at he
    rw [← he, idOf, hid]
    rfl
  have hb : base.all (fun q => allTables.any fun t => t.any fun r => r.2 == q.1) = true := by decide +kernel
  have he : (executors []).all (fun e => e.2.all fun q => allTables.any fun t => t.any fun r => r.2 == q.1) = true := by decide +kernel
  intro q hq
  rcases List.mem_append.1 hq with hq | hq
  · exact key _ (List.all_eq_true.1 hb q hq)
  · have h1 := List.all_eq_true.1 he _ (lift c x l hx)
    exact key _ (List.all_eq_true.1 h1 (q.1, erase q.2) (List.mem_map.2 ⟨q, hq, rfl⟩))

/-- How a handler treats the path argument of a call. -/
def treatsPath (h : Handler) (dirArg : Option Nat) (pathArg : Nat) : Bool :=
  match h with
  | .std e => handlesPath e dirArg pathArg
  | .exec _ => dirArg == none && pathArg == 0
  | .procctl => false

/-- The handler checks an open. -/
def opensFile : Handler → Bool
  | .std (.path _ o) | .std (.pathAt o) => o
  | _ => false

/-- Calls with a path that some executor lets through without looking at it. -/
def unchecked : List (String × String) := [("TCL", "access"), ("COFFEE", "statx")]

private theorem mem_names {name : String} {d : Option Nat} {p : Nat} (h : (name, d, p) ∈ pathCalls) : name ∈ pathCalls.map (·.1) :=
  List.mem_map.2 ⟨_, h, rfl⟩

/-- Under the policy of any executor, a call with a path argument that is not denied is refused with an error or has
exactly that argument (with its directory descriptor) checked — against the read list unless it opens — except `statfs`/`statfs64` and the two calls below. -/
theorem C63_paths_partial (c : List Str) (x : String) (l : List (String × Handler)) (hx : (x, l) ∈ executors c) (name : String)
    (d : Option Nat) (p : Nat) (hn : (name, d, p) ∈ pathCalls) (h1 : name ≠ "statfs") (h2 : name ≠ "statfs64")
    (h3 : (x, name) ∉ unchecked) (h : Handler) (hd : Decides (base ++ l) name h) :
    (∃ n, h = .std (.errno n)) ∨ (∃ o, h = .std (.path p o) ∧ d = none ∧ (o = true → name ∈ openCalls.map (·.1))) ∨
      (∃ o, h = .std (.pathAt o) ∧ d = some 0 ∧ p = 1 ∧ (o = true → name ∈ openCalls.map (·.1))) ∨
      (h = .exec c ∧ x = "BASH" ∧ name = "execve" ∧ d = none ∧ p = 0) := by
  let f : String → String → String → Handler → Bool := fun x name _ h =>
    name == "statfs" || name == "statfs64" || unchecked.contains (x, name) ||
      pathCalls.all (fun e => e.1 != name || treatsPath h e.2.1 e.2.2 && (!opensFile h || (openCalls.map (·.1)).contains name) && (!(h matches .exec _) || x == "BASH" && name == "execve"))
  obtain ⟨nm, -, hh⟩ := all_entries f (pathCalls.map (·.1)) (by decide +kernel) (by decide +kernel) c x l hx name (mem_names hn) h hd
  have core : ∀ y, (f y name nm (erase h) = true) → (y, name) ∉ unchecked →
      (treatsPath (erase h) d p = true ∧ (!opensFile (erase h) || (openCalls.map (·.1)).contains name) = true) ∧ (!(erase h matches .exec _) || y == "BASH" && name == "execve") = true := by
    intro y hy hu
    simp only [f, Bool.or_eq_true, beq_iff_eq, h1, h2, false_or, List.contains_iff_mem, hu] at hy
    have := List.all_eq_true.1 hy _ hn
    simp only [bne_self_eq_false, Bool.false_or, Bool.and_eq_true] at this
    exact this
  have fin : ∀ y, treatsPath (erase h) d p = true ∧ (!opensFile (erase h) || (openCalls.map (·.1)).contains name) = true → (!(erase h matches .exec _) || y == "BASH" && name == "execve") = true →
      (∀ a, h = .exec a → a = c ∧ y = x) →
      (∃ n, h = .std (.errno n)) ∨ (∃ o, h = .std (.path p o) ∧ d = none ∧ (o = true → name ∈ openCalls.map (·.1))) ∨
        (∃ o, h = .std (.pathAt o) ∧ d = some 0 ∧ p = 1 ∧ (o = true → name ∈ openCalls.map (·.1))) ∨
        (h = .exec c ∧ x = "BASH" ∧ name = "execve" ∧ d = none ∧ p = 0) := by
    rintro y ⟨ht, ho⟩ hb hc
    rw [Bool.or_eq_true, Bool.not_eq_true', List.contains_iff_mem] at ho
    clear core hh hd f
    cases h with
    | std e =>
      cases e with
      | errno n => exact .inl ⟨n, rfl⟩
      | path a o =>
        simp only [erase, treatsPath, handlesPath, Bool.and_eq_true, beq_iff_eq] at ht
        exact .inr (.inl ⟨o, by rw [ht.2], ht.1, fun e => ho.resolve_left (by rw [e]; simp [erase, opensFile])⟩)
      | pathAt o =>
        simp only [erase, treatsPath, handlesPath, Bool.and_eq_true, beq_iff_eq] at ht
        exact .inr (.inr (.inl ⟨o, rfl, ht.1, ht.2, fun e => ho.resolve_left (by rw [e]; simp [erase, opensFile])⟩))
      | allow => cases ht
      | kill => cases ht
      | prctl => cases ht
      | prlimit => cases ht
    | exec a =>
      simp only [erase, treatsPath, Bool.and_eq_true, beq_iff_eq] at ht
      simp only [erase, Bool.not_true, Bool.false_or, Bool.and_eq_true, beq_iff_eq] at hb
      obtain ⟨rfl, rfl⟩ := hc a rfl
      exact .inr (.inr (.inr ⟨rfl, hb.1, hb.2, ht⟩))
    | procctl => cases ht
  rcases hh with ⟨hh, hm⟩ | ⟨hh, hm⟩
  · obtain ⟨e, rfl⟩ := base_std hm
    obtain ⟨t1, t2⟩ := core "" hh (by simp [unchecked])
    exact fin "" t1 t2 (fun a ha => (nomatch ha))
  · obtain ⟨t1, t2⟩ := core x hh h3
    exact fin x t1 t2 (fun a ha => ⟨exec_commands c x l hx nm a (ha ▸ hm), rfl⟩)

/-- The hypotheses are met: the policy of C decides about `open`. -/
example : Decides (base ++ []) "open" (.std (.path 0 true)) :=
  decides_at 1 "open" _ rfl (by decide +kernel)

/-- With the TCL executor a program learns which files exist anywhere: `access` is allowed without a check. -/
theorem C63_tcl_fails (c : List Str) : ∃ l, ("TCL", l) ∈ executors c ∧ ("access", none, 0) ∈ pathCalls ∧
    ∀ s, Handler.run (.std .allow) s = .exec ∧ Decides (base ++ l) "access" (.std .allow) := by
  refine ⟨ok ["connect", "access", "getsockname"], by simp [executors], by decide +kernel, fun s => ⟨rfl, ?_⟩⟩
  refine ⟨base ++ ok ["connect"], "access", ok ["getsockname"], by simp [ok], .inl rfl, ?_⟩
  intro q hq hs
  have := sameB_of hs
  simp only [ok, List.map_cons, List.map_nil, List.mem_singleton] at hq
  subst hq
  revert this
  decide +kernel

/-- With the COFFEE executor `statx` is allowed without a check. -/
theorem C63_coffee_fails (c : List Str) : ∃ l, ("COFFEE", l) ∈ executors c ∧ ("statx", some 0, 1) ∈ pathCalls ∧
    ∀ s, Handler.run (.std .allow) s = .exec ∧ Decides (base ++ l) "statx" (.std .allow) := by
  refine ⟨_, List.mem_of_getElem? (i := 9) rfl, by decide +kernel, fun s => ⟨rfl, ?_⟩⟩
  refine ⟨base ++ ok ["newselect", "select", "epoll_create1", "epoll_ctl", "epoll_wait", "epoll_pwait", "sched_yield",
      "setrlimit", "eventfd2"], "statx", [], by simp [ok], .inl rfl, fun q hq => (nomatch hq)⟩

/-- Opening files is checked as such by all executors: path, directory and flags from the registers the kernel uses. -/
theorem C63_opens (c : List Str) (x : String) (l : List (String × Handler)) (hx : (x, l) ∈ executors c) (name : String)
    (f : Nat) (hn : (name, f) ∈ openCalls) (h : Handler) (hd : Decides (base ++ l) name h) :
    (name = "open" ∧ f = 1 ∧ h = .std (.path 0 true)) ∨ (name = "openat" ∧ f = 2 ∧ h = .std (.pathAt true)) := by
  have hn' : (name = "open" ∧ f = 1) ∨ (name = "openat" ∧ f = 2) := by
    simpa [openCalls] using hn
  let g : String → String → String → Handler → Bool := fun _ name _ h =>
    name == "open" && h == .std (.path 0 true) || name == "openat" && h == .std (.pathAt true)
  obtain ⟨nm, -, hh⟩ := all_entries g ["open", "openat"] (by decide +kernel) (by decide +kernel) c x l hx name
    (by rcases hn' with ⟨rfl, -⟩ | ⟨rfl, -⟩ <;> simp) h hd
  have hh : (name = "open" ∧ erase h = .std (.path 0 true)) ∨ (name = "openat" ∧ erase h = .std (.pathAt true)) := by
    rcases hh with ⟨hh, hm⟩ | ⟨hh, hm⟩
    · obtain ⟨e, rfl⟩ := base_std hm
      simpa [g, erase] using hh
    · simpa [g] using hh
  have un : ∀ e, erase h = .std e → h = .std e := by
    intro e he
    match h, he with
    | .std e', he => exact he
  rcases hn' with ⟨rfl, rfl⟩ | ⟨rfl, rfl⟩
  · rcases hh with ⟨-, hh⟩ | ⟨hc, -⟩
    · exact .inl ⟨rfl, rfl, un _ hh⟩
    · exact absurd hc (by decide)
  · rcases hh with ⟨hc, -⟩ | ⟨-, hh⟩
    · exact absurd hc (by decide)
    · exact .inr ⟨rfl, rfl, un _ hh⟩

/-- The shell executor starts a program only if the kernel will take the path for one on its list; other executors
start none. -/
theorem C63_exec (c : List Str) (x : String) (l : List (String × Handler)) (hx : (x, l) ∈ executors c) (h : Handler)
    (hd : Decides (base ++ l) "execve" h) (s : Stop) (hr : h.run s = .exec) :
    x = "BASH" ∧ ∃ bytes file full, ReadStr.StringAt s.mem.byte (ReadStr.effective s.is32 (s.regs 0).toNat) bytes ∧
      s.decode bytes = some file ∧ Leads s 0xFFFFFFFFFFFFFF9C#64 file full ∧ full ∈ c := by
  have hp := C63_paths_partial c x l hx "execve" none 0 (by decide +kernel) (by decide) (by decide)
    (by simp [unchecked]) h hd
  rcases hp with ⟨n, rfl⟩ | ⟨o, rfl, -, -⟩ | ⟨o, rfl, h1, -⟩ | ⟨rfl, hx', -⟩
  · cases hr
  · obtain ⟨nm, -, ⟨hh, -⟩ | ⟨hh, -⟩⟩ := all_entries (fun _ _ _ h => h matches .exec _) ["execve"] (by decide +kernel) (by decide +kernel)
      c x l hx "execve" (by simp) _ hd <;> cases hh
  · cases h1
  · refine ⟨hx', ?_⟩
    simp only [Handler.run, runExec] at hr
    split at hr
    · cases hr
    · cases hr
    · rename_i bytes hb
      split at hr
      · cases hr
      · rename_i file hf
        split at hr
        · cases hr
        · rename_i full hfull
          split at hr
          · rename_i hm
            obtain ⟨h1, -, -⟩ := ReadStr.C38_exact _ _ _ _ _ _ hb
            exact ⟨bytes, file, full, h1, hf, fullPath_leads s file full _ hfull, hm⟩
          · cases hr

/-- The hypotheses are met by the shell executor. -/
example (c : List Str) : ∃ l, ("BASH", l) ∈ executors c ∧ Decides (base ++ l) "execve" (.exec c) := by
  refine ⟨_, List.mem_of_getElem? (i := 2) rfl, base ++ ok ["fork", "waitpid", "wait4"], "execve", [("eaccess", .std (.path 0 false))], by simp [ok], .inl rfl, ?_⟩
  intro q hq hs
  have := sameB_of hs
  rw [List.mem_singleton.1 hq] at this
  revert this
  decide +kernel

/-- Only the Java executors let a program use `procctl` (FreeBSD), and only on itself, to ask for or set its stack gap. -/
theorem C63_procctl (c : List Str) (x : String) (l : List (String × Handler)) (hx : (x, l) ∈ executors c) (h : Handler)
    (hd : Decides (base ++ l) "procctl" h) (s : Stop) (hr : h.run s = .exec) :
    (s.regs 0).toInt = 0 ∧ (s.regs 1).toInt = s.pid ∧ ((s.regs 2).toInt = 17 ∨ (s.regs 2).toInt = 18) := by
  obtain ⟨nm, -, ⟨hh, -⟩ | ⟨hh, -⟩⟩ := all_entries (fun _ _ _ h => h matches .procctl) ["procctl"] (by decide +kernel) (by decide +kernel)
      c x l hx "procctl" (by simp) _ hd
  all_goals
    cases h with
    | std e => cases hh
    | exec a => cases hh
    | procctl =>
      simp only [Handler.run, runProcctl] at hr
      split at hr
      · next hc => simpa using hc
      · cases hr

/-- Only a shell script may call `fork` (or `vfork`); the .NET languages are told to try again. -/
theorem C63_fork (c : List Str) (x : String) (l : List (String × Handler)) (hx : (x, l) ∈ executors c) :
    (∀ name, name ∈ ["fork", "vfork"] → Possible (base ++ l) name → x = "BASH") ∧
    (x ∈ ["MONOCS", "MONOFS", "MONOVB"] → ∀ h, Decides (base ++ l) "fork" h → ∀ s, h.run s = .refuse 11) := by
  constructor
  · rintro name hn ⟨h, s, hd, hr⟩
    obtain ⟨nm, -, ⟨h1, -⟩ | ⟨h1, -⟩⟩ := all_entries (fun x _ _ h => x == "BASH" || isErrno h) ["fork", "vfork"] (by decide +kernel)
      (by decide +kernel) c x l hx name hn h hd
    · rw [Bool.or_eq_true] at h1
      rcases h1 with h1 | h1
      · cases h1
      · match h, h1 with
        | .std (.errno n), _ => cases hr
    · rw [Bool.or_eq_true] at h1
      rcases h1 with h1 | h1
      · simpa using h1
      · obtain ⟨n, rfl⟩ := erase_errno h1
        cases hr
  · intro hm h hd s
    obtain ⟨nm, -, ⟨h1, -⟩ | ⟨h1, -⟩⟩ := all_entries
      (fun x _ _ h => !(["MONOCS", "MONOFS", "MONOVB"].contains x || x == "") || h == .std (.errno 11)) ["fork"] (by decide +kernel)
      (by decide +kernel) c x l hx "fork" (by simp) h hd
    · have h1 : h = .std (.errno 11) := by simpa using h1
      rw [h1]; rfl
    · have h1 : erase h = .std (.errno 11) := by
        rw [Bool.or_eq_true, Bool.not_eq_true', List.contains_eq_mem, decide_eq_true hm] at h1
        simpa using h1
      cases h with
      | std e => rw [show e = .errno 11 from Handler.std.inj h1]; rfl
      | exec a => cases h1
      | procctl => cases h1

/-- A shell script may: the first part is about something. -/
example (c : List Str) : ∃ l, ("BASH", l) ∈ executors c ∧ Decides (base ++ l) "fork" (.std .allow) := by
  refine ⟨_, List.mem_of_getElem? (i := 2) rfl, base, "fork",
    ok ["waitpid", "wait4"] ++ [("execve", .exec c), ("eaccess", .std (.path 0 false))], by simp [ok], .inl rfl, ?_⟩
  intro q hq hs
  have := sameB_of hs
  simp only [ok, List.map_cons, List.map_nil, List.cons_append, List.nil_append, List.mem_cons, List.not_mem_nil, or_false] at hq
  rcases hq with rfl | rfl | rfl | rfl <;> simp only at this <;> clear hs <;> revert this <;> decide +kernel

/-- What the common policy says of a call no executor mentions is what the policy of every executor says. -/
theorem decides_common (i : Nat) (name : String) (h : Handler) (hi : base[i]? = some (name, h))
    (ha : (base.drop (i + 1)).all (fun q => !sameB q.1 name) = true)
    (he : ((executors []).all fun e => e.2.all fun q => !sameB q.1 name) = true)
    (c : List Str) (x : String) (l : List (String × Handler)) (hx : (x, l) ∈ executors c) : Decides (base ++ l) name h := by
  obtain ⟨pre, nm, post, hb, h1, h2⟩ : Decides base name h := decides_at i name h hi ha
  refine ⟨pre, nm, post ++ l, by rw [hb]; simp, h1, fun q hq hs => ?_⟩
  rcases List.mem_append.1 hq with hq | hq
  · exact h2 q hq hs
  · have h4 := List.all_eq_true.1 (List.all_eq_true.1 he _ (lift c x l hx)) (q.1, erase q.2) (List.mem_map.2 ⟨q, hq, rfl⟩)
    simp only at h4
    rw [sameB_of hs] at h4
    cases h4

/-- But every program of every language may call `clone`, with whatever flags: it can start processes all the same. -/
theorem C63_clone_fails (c : List Str) (x : String) (l : List (String × Handler)) (hx : (x, l) ∈ executors c) :
    Decides (base ++ l) "clone" (.std .allow) ∧ ∀ s, Handler.run (.std .allow) s = .exec :=
  ⟨decides_common 85 "clone" _ rfl (by decide +kernel) (by decide +kernel) c x l hx, fun _ => rfl⟩

end Verif.Policy
