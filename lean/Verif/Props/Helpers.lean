import Verif.Model.Helpers
import Verif.Spec.Helpers
import Verif.Props.Config
/-!
C72: configured graders, checkers and generators; C73: helper programs made of several files.
-/

namespace Verif.Helpers

open Verif.Config

/-! ### Lookup -/

private theorem lookup_entry {l : List (Key × V)} {k : Key} {v : V} :
    l.lookup k = some v ↔ ∃ pre post, l = pre ++ (k, v) :: post ∧ ∀ e ∈ pre, e.1 ≠ k := by
  induction l with
  | nil => simp
  | cons e l ih =>
    obtain ⟨a, b⟩ := e
    rw [List.lookup_cons]
    by_cases h : k = a
    · subst h
      simp only [beq_self_eq_true]
      constructor
      · rintro h; cases h; exact ⟨[], l, rfl, by simp⟩
      · rintro ⟨pre, post, h1, h2⟩
        cases pre with
        | nil => simp at h1; simp [h1.1]
        | cons x pre => simp at h1; exact absurd (by simp [← h1.1]) (h2 x (by simp))
    · have : (k == a) = false := by simpa using h
      simp only [this]
      rw [ih]
      constructor
      · rintro ⟨pre, post, h1, h2⟩
        exact ⟨(a, b) :: pre, post, by simp [h1], fun e he => by
          rcases List.mem_cons.1 he with rfl | he
          · exact fun h' => h h'.symm
          · exact h2 e he⟩
      · rintro ⟨pre, post, h1, h2⟩
        cases pre with
        | nil => simp at h1; exact absurd h1.1.1.symm h
        | cons x pre => simp at h1; exact ⟨pre, post, h1.2, fun e he => h2 e (List.mem_cons_of_mem _ he)⟩

private theorem own_entry {heap : Heap} {r : Nat} {s : Name} {v : V} : own heap r (.str s) = some v ↔ Entry heap r s v := by
  unfold own Entry
  cases h : heap[r]? with
  | none => simp
  | some o =>
    cases o with
    | dict l => simp [get?, lookup_entry]
    | list l => simp

private theorem own_none {heap : Heap} {r : Nat} {s : Name} : own heap r (.str s) = none ↔ ∀ v, ¬Entry heap r s v := by
  constructor
  · intro h v hv
    rw [own_entry.2 hv] at h
    cases h
  · intro h
    cases hv : own heap r (.str s) with
    | none => rfl
    | some v => exact absurd (own_entry.1 hv) (h v)

private theorem look_says {heap : Heap} {c : Chain} {s : Name} {x : Res} (h : Says heap c s x) : look heap c s = x := by
  induction h with
  | own h => simp [look, own_entry.2 h]
  | around h1 h2 _ ih => rw [look, own_none.2 h1]; simp [h2, ih]

private theorem says_or {heap : Heap} {c : Chain} {s : Name} :
    Says heap c s (look heap c s) ∨ Silent heap c s ∧ look heap c s = .value .null := by
  induction c with
  | nil => exact Or.inr ⟨fun x h => (by cases h), rfl⟩
  | cons r rest ih =>
    cases ho : own heap r (.str s) with
    | some v => exact Or.inl (by rw [look_says (.own (own_entry.1 ho))]; exact .own (own_entry.1 ho))
    | none =>
      have hn := own_none.1 ho
      cases rest with
      | nil =>
        exact Or.inr ⟨fun x h => (by cases h with | own h => exact hn _ h), by simp [look, ho]⟩
      | cons p rest =>
        by_cases hp : nonEmpty heap p = true
        · have : look heap (r :: p :: rest) s = look heap (p :: rest) s := by rw [look, ho]; simp [hp]
          rw [this]
          rcases ih with h | ⟨h1, h2⟩
          · exact Or.inl (.around hn hp h)
          · exact Or.inr ⟨fun x h => (by
              cases h with
              | own h => exact hn _ h
              | around _ _ h => exact h1 _ h), h2⟩
        · refine Or.inr ⟨fun x h => ?_, by rw [look, ho]; simp [hp]⟩
          cases h with
          | own h => exact hn _ h
          | around _ h _ => exact hp h

private theorem look_silent {heap : Heap} {c : Chain} {s : Name} (h : Silent heap c s) : look heap c s = .value .null := by
  rcases says_or (heap := heap) (c := c) (s := s) with h' | h'
  · exact absurd h' (h _)
  · exact h'.2

private theorem ownDyn_own (ev : Ev) {st : St} {r : Nat} {chain : Chain} {s : Name} (hd : NoDyn st.heap r (.str s)) :
    ownDyn ev true st r chain (.str s) = (st, .ok (own st.heap r (.str s))) := by
  unfold ownDyn
  split
  · rename_i l _ heq
    have := hd s rfl l heq
    simp only [dynamics, this.1, this.2]
  · rfl

/-! ## The properties -/

/-- The lookups used here are those of `ConfigNode`, for nodes without dynamic keys for the name. -/
theorem C72_lookup (ev : Ev) (st : St) (c : Chain) (s : Name) (hd : ∀ r ∈ c, NoDyn st.heap r (.str s)) :
    getitem ev true st c (.str s) = (st, .ok (look st.heap c s)) := by
  induction c with
  | nil => rfl
  | cons r rest ih =>
    rw [getitem.eq_def, look.eq_def]
    dsimp only
    rw [ownDyn_own ev (hd r (by simp))]
    cases ho : own st.heap r (.str s) with
    | some v => rfl
    | none =>
      cases rest with
      | nil => rfl
      | cons p rest =>
        dsimp only
        split
        · exact ih (fun r hr => hd r (List.mem_cons_of_mem _ hr))
        · rfl

private theorem contains_iff {heap : Heap} {r : Nat} {l : List (Key × V)} (h : heap[r]? = some (.dict l)) (s : String) :
    contains heap r s.toList = true ↔ Defines l s := by
  simp only [contains, h, List.any_eq_true, decide_eq_true_eq, Defines]
  constructor
  · rintro ⟨⟨k, v⟩, h1, h2⟩; exact ⟨v, by cases h2; exact h1⟩
  · rintro ⟨v, h1⟩; exact ⟨_, h1, rfl⟩

/-- The grader is the custom one if the problem has a `custom_judge`, else the one for signatures, else the
interactive one, else the standard one: keys of the problem itself, whatever their values. -/
theorem C72_grader (heap : Heap) (root : Nat) (l : List (Key × V)) (h : heap[root]? = some (.dict l)) :
    (graderClass heap root = .custom ↔ Defines l "custom_judge") ∧
    (graderClass heap root = .signature ↔ ¬Defines l "custom_judge" ∧ Defines l "signature_grader") ∧
    (graderClass heap root = .interactive ↔
      ¬Defines l "custom_judge" ∧ ¬Defines l "signature_grader" ∧ Defines l "interactive") ∧
    (graderClass heap root = .standard ↔
      ¬Defines l "custom_judge" ∧ ¬Defines l "signature_grader" ∧ ¬Defines l "interactive") := by
  have h1 := contains_iff h "custom_judge"
  have h2 := contains_iff h "signature_grader"
  have h3 := contains_iff h "interactive"
  unfold graderClass
  rw [← h1, ← h2, ← h3]
  cases contains heap root "custom_judge".toList <;> cases contains heap root "signature_grader".toList <;>
    cases contains heap root "interactive".toList <;> simp

/-- The same for a problem whose configuration is a list: the words are looked for among its elements. -/
theorem C72_grader_list (heap : Heap) (root : Nat) (l : List V) (h : heap[root]? = some (.list l)) :
    (graderClass heap root = .custom ↔ V.str "custom_judge".toList ∈ l) ∧
    (graderClass heap root = .signature ↔ V.str "custom_judge".toList ∉ l ∧ V.str "signature_grader".toList ∈ l) ∧
    (graderClass heap root = .interactive ↔
      V.str "custom_judge".toList ∉ l ∧ V.str "signature_grader".toList ∉ l ∧ V.str "interactive".toList ∈ l) ∧
    (graderClass heap root = .standard ↔
      V.str "custom_judge".toList ∉ l ∧ V.str "signature_grader".toList ∉ l ∧ V.str "interactive".toList ∉ l) := by
  have key : ∀ s : List Char, contains heap root s = true ↔ V.str s ∈ l := by
    intro s
    simp only [contains, h, List.any_eq_true, decide_eq_true_eq]
    exact ⟨fun ⟨v, h1, h2⟩ => h2 ▸ h1, fun h => ⟨_, h, rfl⟩⟩
  unfold graderClass
  rw [← key, ← key, ← key]
  cases contains heap root "custom_judge".toList <;> cases contains heap root "signature_grader".toList <;>
    cases contains heap root "interactive".toList <;> simp

example : graderClass [.list [.int 3, .str "interactive".toList]] 0 = .interactive := by decide

/-- A `custom_judge` given by a dynamic key is overlooked, although looking it up gives a value: `in` goes through
the keys as they are written. -/
theorem C72_dynamic_fails : ∃ (ev : Ev) (st : St), (getitem ev true st [0] (.str "custom_judge".toList)).2 =
    .ok (.value (.str "judge.py".toList)) ∧ graderClass st.heap 0 = .standard := by
  refine ⟨fun _ _ _ _ _ => some ([], .str "judge.py".toList),
    ⟨[.dict [(.str "custom_judge+".toList, .str "'judge.py'".toList)]], []⟩, ?_, ?_⟩
  · rfl
  · decide +kernel

private theorem byName_iff (w : CheckerWorld) (s : Name) (m : Module) :
    byName w (.value (.str s)) = .ok m ∧ m.check = true ↔ Named w s m := by
  simp only [byName]
  constructor
  · rintro ⟨h, hc⟩
    split at h
    · rename_i hd
      split at h
      · cases h; exact .file hd ‹_› hc
      · cases h
      · cases h
      · cases h
    · rename_i hd
      split at h
      · cases h; exact .builtin hd ‹_› hc
      · cases h
  · intro h
    cases h with
    | builtin h1 h2 h3 => rw [if_neg h1, h2]; exact ⟨rfl, h3⟩
    | file h1 h2 h3 => rw [if_pos h1, h2]; exact ⟨rfl, h3⟩

private theorem keywords_iff (heap : Heap) (x : Res) : keywords heap (some x) = .ok () ↔ Keywords heap x := by
  unfold Keywords
  cases x with
  | value v => simp [keywords]
  | node c =>
    cases c with
    | nil => simp [keywords]
    | cons r c =>
      simp only [keywords, Res.node.injEq, List.cons.injEq]
      cases h : heap[r]? with
      | none => simp_all
      | some o =>
        cases o with
        | list l => simp_all
        | dict l =>
          dsimp only
          constructor
          · intro hx
            split at hx
            · rename_i ha
              refine ⟨r, c, l, ⟨rfl, rfl⟩, h, fun e he => ?_⟩
              have := List.all_eq_true.1 ha e he
              obtain ⟨k, v⟩ := e
              cases k with
              | str s => exact ⟨s, rfl⟩
              | int n => simp at this
            · cases hx
          · rintro ⟨r', c', l', ⟨rfl, rfl⟩, hl, ha⟩
            rw [h] at hl
            cases hl
            rw [if_pos]
            refine List.all_eq_true.2 fun e he => ?_
            obtain ⟨s, hs⟩ := ha e he
            rw [hs]

private theorem finish_iff (w : CheckerWorld) (heap : Heap) (s : Name) (q : Option Res) (m : Module) (p : Option Res) :
    ((match (byName w (.value (.str s))).map (fun m => (m, q)) with
      | .error e => .error e
      | .ok (m, p) => if m.check then (keywords heap p).map (fun _ => (m, p)) else .error .invalidInit :
        Except CheckerErr (Module × Option Res)) =
      .ok (m, p)) ↔ Named w s m ∧ p = q ∧ keywords heap q = .ok () := by
  rw [← byName_iff]
  cases h : byName w (.value (.str s)) with
  | error e => simp [Except.map]
  | ok m' =>
    simp only [Except.map]
    cases hc : m'.check
    · simp
      intro h1 h2; subst h1; rw [hc] at h2; cases h2
    · cases hk : keywords heap q with
      | error e => simp
      | ok u =>
        simp
        constructor
        · rintro ⟨rfl, rfl⟩; exact ⟨⟨rfl, hc⟩, rfl⟩
        · rintro ⟨⟨rfl, _⟩, rfl⟩; exact ⟨rfl, rfl⟩

/-- Without a checker in the case or around it, or with an empty or null one, the standard checker is used, without
parameters. -/
theorem C72_checker_default (w : CheckerWorld) (heap : Heap) (case : Chain)
    (h : Silent heap case "checker".toList ∨ Says heap case "checker".toList (.value .null) ∨
      Says heap case "checker".toList (.value (.str []))) (m : Module) (p : Option Res) :
    checker w heap case = .ok (m, p) ↔ Named w "standard".toList m ∧ p = none := by
  have : getOr heap case "checker".toList (.value (.str "standard".toList)) = .value (.str "standard".toList) := by
    unfold getOr
    rcases h with h | h | h
    · rw [look_silent h]; simp [Res.truthy]
    · rw [look_says h]; simp [Res.truthy]
    · rw [look_says h]; simp [Res.truthy]
  unfold checker
  rw [this]
  exact (finish_iff w heap _ none m p).trans (by simp [keywords])

/-- A string as checker: the builtin checker of that name, or the module in that file of the problem if there is a
dot in it; it must have a `check`. -/
theorem C72_checker_string (w : CheckerWorld) (heap : Heap) (case : Chain) (s : Name) (hs : s ≠ [])
    (h : Says heap case "checker".toList (.value (.str s))) (m : Module) (p : Option Res) :
    checker w heap case = .ok (m, p) ↔ Named w s m ∧ p = none := by
  have : getOr heap case "checker".toList (.value (.str "standard".toList)) = .value (.str s) := by
    unfold getOr
    rw [look_says h]
    simp [Res.truthy, hs]
  unfold checker
  rw [this]
  exact (finish_iff w heap _ none m p).trans (by simp [keywords])

/-- Parameters that are not a dictionary: a list is called a mistake of the problem, anything else is a failure of the judge. -/
theorem C72_checker_args (w : CheckerWorld) (heap : Heap) (case : Chain) (r : Nat) (c : Chain)
    (h : Says heap case "checker".toList (.node (r :: c))) (hn : nonEmpty heap r = true) (s : Name)
    (hs : Says heap (r :: c) "name".toList (.value (.str s))) (m : Module) (hm : Named w s m) (x : Res)
    (hx : Says heap (r :: c) "args".toList x) (ht : x.truthy heap = true) :
    (∀ r' c' l, x = .node (r' :: c') → heap[r']? = some (.list l) → checker w heap case = .error .invalidInit) ∧
    (∀ v, x = .value v → checker w heap case = .error .typeError) := by
  have hg : getOr heap case "checker".toList (.value (.str "standard".toList)) = .node (r :: c) := by
    unfold getOr
    rw [look_says h]
    simp [Res.truthy, hn]
  obtain ⟨h1, h2⟩ := (byName_iff w s m).2 hm
  constructor
  · rintro r' c' l rfl hl
    unfold checker
    rw [hg]
    dsimp only
    rw [look_says hx, look_says hs, if_pos ht, h1]
    simp [Except.map, h2, keywords, hl]
  · rintro v rfl
    unfold checker
    rw [hg]
    dsimp only
    rw [look_says hx, look_says hs, if_pos ht, h1]
    simp [Except.map, h2, keywords]

/-- A dictionary as checker: its `name`, with its `args` as parameters, which must be a dictionary too. -/
theorem C72_checker_dict (w : CheckerWorld) (heap : Heap) (case : Chain) (r : Nat) (c : Chain)
    (h : Says heap case "checker".toList (.node (r :: c))) (hn : nonEmpty heap r = true) (s : Name)
    (hs : Says heap (r :: c) "name".toList (.value (.str s))) (m : Module) (p : Option Res) :
    (Silent heap (r :: c) "args".toList → (checker w heap case = .ok (m, p) ↔ Named w s m ∧ p = none)) ∧
    (∀ x, Says heap (r :: c) "args".toList x → x.truthy heap = true →
      (checker w heap case = .ok (m, p) ↔ Named w s m ∧ p = some x ∧ Keywords heap x)) := by
  have hg : getOr heap case "checker".toList (.value (.str "standard".toList)) = .node (r :: c) := by
    unfold getOr
    rw [look_says h]
    simp [Res.truthy, hn]
  constructor
  · intro ha
    unfold checker
    rw [hg]
    dsimp only
    rw [look_silent ha, look_says hs]
    exact (finish_iff w heap s none m p).trans (by simp [keywords])
  · intro x ha ht
    unfold checker
    rw [hg]
    dsimp only
    rw [look_says ha, look_says hs, ht]
    rw [← keywords_iff]
    exact finish_iff w heap s (some x) m p

/-- With a string as checker, what goes wrong is reported as an error of the configuration, unless the code of the
checker raises something. -/
theorem C72_checker_error (w : CheckerWorld) (heap : Heap) (case : Chain) (s : Name) (hs : s ≠ [])
    (h : Says heap case "checker".toList (.value (.str s))) (e : CheckerErr) (he : checker w heap case = .error e) :
    e = .invalidInit ∨ e = .raised ∧ w.file s = .error .other := by
  have : getOr heap case "checker".toList (.value (.str "standard".toList)) = .value (.str s) := by
    unfold getOr
    rw [look_says h]
    simp [Res.truthy, hs]
  unfold checker at he
  rw [this] at he
  dsimp only [byName] at he
  split at he
  · rename_i hx
    cases he
    split at hx
    · split at hx
      · cases hx
      · cases hx; exact Or.inl rfl
      · cases hx; exact Or.inl rfl
      · cases hx; exact Or.inr ⟨rfl, ‹_›⟩
    · split at hx
      · cases hx
      · cases hx; exact Or.inl rfl
  · rename_i hx
    split at he
    · rename_i m p _
      have : p = none := by
        revert hx
        generalize (if '.' ∈ s then _ else _ : Except CheckerErr Module) = a
        cases a <;> simp [Except.map]
        intro _ h; exact h.symm
      rw [this] at he
      simp [keywords, Except.map] at he
    · cases he; exact Or.inl rfl

/-- A checker given as a dictionary takes `args` from the case or the problem around it if it has none of its
own. -/
theorem C72_checker_args_fails : ∃ (heap : Heap), heap[1]? = some (.dict [(.str "name".toList, .str "floats".toList)]) ∧
    Says heap [0] "checker".toList (.node [1, 0]) ∧ Silent heap [1] "args".toList ∧
    ∀ w m, Named w "floats".toList m → ∃ x, checker w heap [0] = .ok (m, some x) := by
  let heap : Heap := [.dict [(.str "checker".toList, .ref 1), (.str "args".toList, .ref 2)],
    .dict [(.str "name".toList, .str "floats".toList)], .dict [(.str "precision".toList, .int 1)]]
  have h1 : Says heap [0] "checker".toList (.node [1, 0]) :=
    .own (v := .ref 1) ⟨_, rfl, [], _, rfl, by simp⟩
  have h2 : Says heap [1, 0] "name".toList (.value (.str "floats".toList)) :=
    .own (v := .str "floats".toList) ⟨_, rfl, [], _, rfl, by simp⟩
  have hne : ∀ v, ¬Entry heap 1 "args".toList v := by
    rintro v ⟨l, hl, pre, post, hp, -⟩
    cases hl
    cases pre with
    | nil => simp at hp
    | cons x pre => simp at hp
  have h3 : Says heap [1, 0] "args".toList (.node [2, 0]) :=
    .around hne rfl (.own (v := .ref 2) ⟨_, rfl, [(.str "checker".toList, .ref 1)], _, rfl, by simp⟩)
  refine ⟨heap, rfl, h1, ?_, fun w m hm => ⟨.node [2, 0], ?_⟩⟩
  · intro x hx
    cases hx with
    | own h => exact hne _ h
  · exact ((C72_checker_dict w heap [0] 1 [0] h1 rfl _ h2 m _).2 _ h3 rfl).2
      ⟨hm, rfl, 2, [0], _, rfl, rfl, by intro e he; simp at he; exact ⟨_, by rw [he]⟩⟩

/-- Cases with no checker, with a checker by name, with one from a file and with one that gets arguments. -/
example : let w : CheckerWorld := ⟨fun s => if s = "standard".toList ∨ s = "floats".toList then some ⟨7, true⟩ else none, fun _ => .ok ⟨8, true⟩⟩
    Silent [.dict []] [0] "checker".toList ∧ checker w [.dict []] [0] = .ok (⟨7, true⟩, none) ∧
    Says [.dict [(.str "checker".toList, .str "c.py".toList)]] [0] "checker".toList (.value (.str "c.py".toList)) ∧
    checker w [.dict [(.str "checker".toList, .str "c.py".toList)]] [0] = .ok (⟨8, true⟩, none) ∧
    checker w [.dict [(.str "checker".toList, .ref 1)], .dict [(.str "name".toList, .str "floats".toList), (.str "args".toList, .ref 2)],
      .list [.int 1]] [0] = .error .invalidInit := by
  refine ⟨?_, by rfl, .own (v := .str "c.py".toList) ⟨_, rfl, [], _, rfl, by simp⟩, by rfl, by rfl⟩
  intro x hx
  cases hx with
  | own h =>
    obtain ⟨l, hl, pre, post, hp, -⟩ := h
    cases hl
    cases pre <;> simp at hp

/-- A checker given as a dictionary without a name is not reported as an error of the configuration. -/
theorem C72_checker_name_fails : ∃ (heap : Heap), ∀ w, checker w heap [0] = .error .typeError ∧
    Says heap [0] "checker".toList (.node [1, 0]) :=
  ⟨[.dict [(.str "checker".toList, .ref 1)], .dict [(.str "nam".toList, .str "floats".toList)]],
    fun w => ⟨rfl, .own (v := .ref 1) ⟨_, rfl, [], _, rfl, by simp⟩⟩⟩

/-! ### Generators -/

private theorem attr_own {heap : Heap} {c : Chain} {s : Name} {x : Res} (h : Says heap c s x) (hx : x ≠ .value .null) :
    attr heap c s = x := by
  unfold attr
  rw [look_says h]
  split
  · rename_i h; exact absurd rfl hx
  · rfl

private theorem attr_silent {heap : Heap} {c : Chain} {s : Name} (h : Silent heap c s) (h' : Silent heap c (dashed s)) :
    attr heap c s = .value .null := by
  unfold attr
  rw [look_silent h]
  exact look_silent h'

/-- A generator given as a file name or a list of them is compiled and run with the judge's limits and the arguments
of the case. -/
theorem C72_gen_plain (env : GenEnv) (heap : Heap) (gen args : Res) (files a : List V)
    (hg : (∃ s, gen = .value (.str s) ∧ files = [.str s]) ∨ (∃ r c, gen = .node (r :: c) ∧ heap[r]? = some (.list files)))
    (ha : args = .value .null ∧ a = [] ∨ ∃ r c, args = .node (r :: c) ∧ heap[r]? = some (.list a)) :
    options env heap gen args = .ok
      { files := files, flags := [], args := a, time := .value (.int env.time), memory := .value (.int env.memory),
        compilerTime := .value (.int env.compilerTime), cached := .value (.bool true), lang := .value .null } := by
  have hx : extend heap [] args = .ok a := by
    rcases ha with ⟨rfl, rfl⟩ | ⟨r, c, rfl, hr⟩
    · rfl
    · unfold extend
      simp only [Res.truthy, nonEmpty, hr, Obj.len, elements]
      cases a with
      | nil => rfl
      | cons x a => rfl
  unfold options
  simp only [hx]
  rcases hg with ⟨s, rfl, rfl⟩ | ⟨r, c, rfl, hr⟩
  · rfl
  · simp only [hr]

/-- What `options` makes of a dictionary, if it does not fail. -/
private theorem options_dict {env : GenEnv} {heap : Heap} {r : Nat} {c : Chain} {l : List (Key × V)} {args : Res} {o : Options}
    (hr : heap[r]? = some (.dict l)) (h : options env heap (.node (r :: c)) args = .ok o) :
    fileNames heap (attr heap (r :: c) "source".toList) = .ok o.files ∧
    extend heap [] (attr heap (r :: c) "flags".toList) = .ok o.flags ∧
    (∃ a, extend heap [] args = .ok a ∧
      (a ≠ [] → o.args = a) ∧ (a = [] → extend heap [] (attr heap (r :: c) "args".toList) = .ok o.args)) ∧
    o.time = orElse heap (attr heap (r :: c) "time_limit".toList) (.value (.int env.time)) ∧
    o.memory = orElse heap (attr heap (r :: c) "memory_limit".toList) (.value (.int env.memory)) ∧
    o.compilerTime = orElse heap (attr heap (r :: c) "compiler_time_limit".toList) (.value (.int env.compilerTime)) ∧
    o.cached = getOr heap (r :: c) "cached".toList (.value (.bool true)) ∧
    o.lang = attr heap (r :: c) "language".toList := by
  unfold options at h
  simp only at h
  split at h
  · cases h
  · rename_i a ha
    simp only [hr] at h
    split at h
    · cases h
    · rename_i files hf
      split at h
      · cases h
      · rename_i flags hfl
        split at h
        · cases h
        · rename_i args' hargs
          cases h
          refine ⟨hf, hfl, ⟨a, ha, ?_, ?_⟩, rfl, rfl, rfl, rfl, rfl⟩
          · intro hne
            cases a with
            | nil => exact absurd rfl hne
            | cons x a => simp at hargs; exact hargs.symm
          · rintro rfl
            simpa using hargs

/-- Limits of a generator given as a dictionary: those configured for it, or for the case or problem around it; the
judge's where nothing is configured. -/
theorem C72_gen_limits (env : GenEnv) (heap : Heap) (r : Nat) (c : Chain) (l : List (Key × V)) (args : Res) (o : Options)
    (hr : heap[r]? = some (.dict l)) (h : options env heap (.node (r :: c)) args = .ok o)
    (s : Name) (f : Options → Res) (g : GenEnv → Int) (hm : (s, f, g) ∈ limits) :
    (∀ n, n ≠ 0 → Says heap (r :: c) s (.value (.int n)) → f o = .value (.int n)) ∧
    (Silent heap (r :: c) s → Silent heap (r :: c) (dashed s) → f o = .value (.int (g env))) ∧
    (Says heap (r :: c) s (.value (.int 0)) → f o = .value (.int (g env))) := by
  obtain ⟨-, -, -, h1, h2, h3, -, -⟩ := options_dict hr h
  have key : ∀ (s : Name) (d : Int) (x : Res), x = orElse heap (attr heap (r :: c) s) (.value (.int d)) →
      (∀ n, n ≠ 0 → Says heap (r :: c) s (.value (.int n)) → x = .value (.int n)) ∧
      (Silent heap (r :: c) s → Silent heap (r :: c) (dashed s) → x = .value (.int d)) ∧
      (Says heap (r :: c) s (.value (.int 0)) → x = .value (.int d)) := by
    rintro s d x rfl
    refine ⟨fun n hn hs => ?_, fun hs hs' => ?_, fun hs => ?_⟩
    · rw [attr_own hs (by simp)]; simp [orElse, Res.truthy, hn]
    · rw [attr_silent hs hs']; simp [orElse, Res.truthy]
    · rw [attr_own hs (by simp)]; simp [orElse, Res.truthy]
  simp only [limits, List.mem_cons, List.not_mem_nil, or_false, Prod.mk.injEq] at hm
  rcases hm with ⟨rfl, rfl, rfl⟩ | ⟨rfl, rfl, rfl⟩ | ⟨rfl, rfl, rfl⟩
  · exact key _ _ _ h1
  · exact key _ _ _ h2
  · exact key _ _ _ h3

/-- Files, flags, language and arguments of a generator given as a dictionary. The arguments of the case win over
those of the generator. -/
theorem C72_gen_dict (env : GenEnv) (heap : Heap) (r : Nat) (c : Chain) (l : List (Key × V)) (args : Res) (o : Options)
    (hr : heap[r]? = some (.dict l)) (h : options env heap (.node (r :: c)) args = .ok o) :
    (∀ s, Says heap (r :: c) "source".toList (.value (.str s)) → o.files = [.str s]) ∧
    (∀ q d x, Says heap (r :: c) "source".toList (.node (q :: d)) → heap[q]? = some (.list x) → o.files = x) ∧
    (∀ q d x, Says heap (r :: c) "flags".toList (.node (q :: d)) → heap[q]? = some (.list x) → o.flags = x) ∧
    (Silent heap (r :: c) "flags".toList → o.flags = []) ∧
    (∀ x, Says heap (r :: c) "language".toList x → o.lang = x ∨ x = .value .null) ∧
    (∀ q d x, args = .node (q :: d) → heap[q]? = some (.list x) → x ≠ [] → o.args = x) ∧
    (∀ q d x, args = .value .null → Says heap (r :: c) "args".toList (.node (q :: d)) → heap[q]? = some (.list x) →
      o.args = x) := by
  obtain ⟨h1, h2, ⟨a, h3, h4, h5⟩, -, -, -, -, h6⟩ := options_dict hr h
  have hex : ∀ q d x, heap[q]? = some (.list x) → extend heap [] (.node (q :: d)) = .ok x := by
    intro q d x hq
    unfold extend
    simp only [Res.truthy, nonEmpty, hq, Obj.len, elements]
    cases x with
    | nil => rfl
    | cons y x => rfl
  refine ⟨fun s hs => ?_, fun q d x hs hq => ?_, fun q d x hs hq => ?_, fun hs => ?_, fun x hs => ?_, fun q d x ha hq hx => ?_,
    fun q d x ha hs hq => ?_⟩
  · rw [attr_own hs (by simp)] at h1
    exact (Except.ok.inj (show Except.ok [V.str s] = Except.ok o.files from h1)).symm
  · rw [attr_own hs (by simp)] at h1
    simp only [fileNames, hq] at h1
    cases h1
    rfl
  · rw [attr_own hs (by simp), hex q d x hq] at h2
    cases h2
    rfl
  · rw [attr_silent hs hs] at h2
    exact (Except.ok.inj (show Except.ok [] = Except.ok o.flags from h2)).symm
  · by_cases hx : x = .value .null
    · exact Or.inr hx
    · rw [attr_own hs hx] at h6
      exact Or.inl h6
  · rw [ha, hex q d x hq] at h3
    cases h3
    exact h4 hx
  · rw [ha] at h3
    cases h3
    have := h5 rfl
    rw [attr_own hs (by simp), hex q d x hq] at this
    cases this
    rfl

/-- Flags that are a dictionary are its keys. -/
theorem C72_flags_dict (env : GenEnv) (heap : Heap) (r : Nat) (c : Chain) (l : List (Key × V)) (args : Res) (q : Nat) (d : Chain)
    (x : List (Key × V)) (hr : heap[r]? = some (.dict l)) (hs : Says heap (r :: c) "flags".toList (.node (q :: d)))
    (hq : heap[q]? = some (.dict x)) (o : Options) (h : options env heap (.node (r :: c)) args = .ok o) :
    o.flags.length = x.length ∧ ∀ (i : Nat) s v, x[i]? = some (Key.str s, v) → o.flags[i]? = some (V.str s) := by
  obtain ⟨-, h2, -⟩ := options_dict hr h
  rw [attr_own hs (by simp)] at h2
  have : extend heap [] (.node (q :: d)) = .ok (x.map fun e => match e.1 with
      | .str s => V.str s
      | .int n => V.int n) := by
    unfold extend
    simp only [Res.truthy, nonEmpty, hq, Obj.len, elements]
    cases x with
    | nil => rfl
    | cons y x => rfl
  rw [this] at h2
  injection h2 with h2
  rw [← h2]
  refine ⟨by simp, fun i s v hi => ?_⟩
  simp [hi]

/-- Flags that are one string are taken apart into its characters: `flags: -O2` gives the three flags `-`, `O` and `2`. -/
theorem C72_flags_string_fails (env : GenEnv) (heap : Heap) (r : Nat) (c : Chain) (l : List (Key × V)) (args : Res) (s : Name)
    (hr : heap[r]? = some (.dict l)) (hs : Says heap (r :: c) "flags".toList (.value (.str s)))
    (o : Options) (h : options env heap (.node (r :: c)) args = .ok o) : o.flags = s.map fun ch => .str [ch] := by
  obtain ⟨-, h2, -⟩ := options_dict hr h
  rw [attr_own hs (by simp)] at h2
  have : extend heap [] (.value (.str s)) = .ok (s.map fun ch => V.str [ch]) := by
    unfold extend
    cases s with
    | nil => rfl
    | cons y x => rfl
  rw [this] at h2
  injection h2 with h2
  rw [← h2]

example : ∃ o, options ⟨20, 65536, 30⟩ [.dict [(.str "source".toList, .str "g.cpp".toList), (.str "flags".toList, .str "-O2".toList)]]
    (.node [0]) (.value .null) = .ok o ∧ o.flags = [.str ['-'], .str ['O'], .str ['2']] :=
  ⟨_, rfl, rfl⟩

/-- A generator whose `source` is a dictionary is refused as an invalid declaration. -/
theorem C72_gen_invalid (env : GenEnv) (heap : Heap) (r : Nat) (c : Chain) (l : List (Key × V)) (q : Nat) (d : Chain) (x : List (Key × V))
    (hr : heap[r]? = some (.dict l)) (hs : Says heap (r :: c) "source".toList (.node (q :: d))) (hq : heap[q]? = some (.dict x)) :
    options env heap (.node (r :: c)) (.value .null) = .error .invalidInit := by
  have ha : attr heap (r :: c) "source".toList = .node (q :: d) := attr_own hs (by simp)
  have hx : extend heap [] (.value .null) = .ok [] := rfl
  unfold options
  simp only [hx, hr, ha, fileNames, hq]

example : Says [.dict [(.str "source".toList, .ref 1)], .dict []] [0] "source".toList (.node [1, 0]) ∧
    options ⟨20, 65536, 30⟩ [.dict [(.str "source".toList, .ref 1)], .dict []] (.node [0]) (.value .null) = .error .invalidInit :=
  ⟨.own (v := .ref 1) ⟨_, rfl, [], [], rfl, by simp⟩, rfl⟩

/-- A generator without `source`, or with a number, is not: there the judge fails with an internal error of another kind (`unwrap` of what is no
node). -/
theorem C72_gen_source_fails (env : GenEnv) (heap : Heap) (r : Nat) (c : Chain) (l : List (Key × V)) (hr : heap[r]? = some (.dict l))
    (hs : (∃ n, Says heap (r :: c) "source".toList (.value (.int n))) ∨ Silent heap (r :: c) "source".toList) :
    options env heap (.node (r :: c)) (.value .null) = .error .crash := by
  have hx : extend heap [] (.value .null) = .ok [] := rfl
  unfold options
  rcases hs with ⟨n, hs⟩ | hs
  · have ha : attr heap (r :: c) "source".toList = .value (.int n) := attr_own hs (by simp)
    simp only [hx, hr, ha, fileNames]
  · have ha : attr heap (r :: c) "source".toList = .value .null := attr_silent hs hs
    simp only [hx, hr, ha, fileNames]

/-- No declaration turns the caching of a generator off: `cached: false` counts as nothing (`get` gives the default
for values that count as false). -/
theorem C72_cached_fails (env : GenEnv) (heap : Heap) (gen args : Res) (o : Options)
    (h : options env heap gen args = .ok o) : o.cached.truthy heap = true := by
  have hget : ∀ c, (getOr heap c "cached".toList (.value (.bool true))).truthy heap = true := by
    intro c
    unfold getOr
    dsimp only
    split
    · assumption
    · rfl
  unfold options at h
  simp only at h
  split at h
  · cases h
  · split at h
    · cases h; rfl
    · split at h
      · cases h; rfl
      · split at h
        · cases h
        · split at h
          · cases h
          · split at h
            · cases h
            · cases h; exact hget _
    · cases h

example : ∃ o, options ⟨20, 65536, 30⟩
    [.dict [(.str "source".toList, .str "gen.cpp".toList), (.str "cached".toList, .bool false),
      (.str "time_limit".toList, .int 5)]] (.node [0]) (.value .null) = .ok o ∧ o.cached = .value (.bool true) ∧
      o.time = .value (.int 5) ∧ o.memory = .value (.int 65536) :=
  ⟨_, rfl, rfl, rfl, rfl⟩

/-! ### Programs of several files -/

private theorem put_new {α : Type} {k : Name} {v : α} {d : List (Name × α)} (h : k ∉ d.map (·.1)) : put k v d = d ++ [(k, v)] := by
  induction d with
  | nil => rfl
  | cons p d ih =>
    obtain ⟨a, b⟩ := p
    simp only [List.map_cons, List.mem_cons, not_or] at h
    rw [put, if_neg (fun e => h.1 e.symm), ih h.2]
    rfl

private theorem nodup_of_map {α β : Type} {l : List α} (f : α → β) (h : (l.map f).Nodup) : l.Nodup := by
  induction l with
  | nil => exact List.nodup_nil
  | cons a l ih =>
    rw [List.map_cons, List.nodup_cons] at h
    exact List.nodup_cons.2 ⟨fun hm => h.1 (List.mem_map_of_mem hm), ih h.2⟩

private theorem sources_ok {read : Name → Option (List UInt8)} {files : List Name} {d src : List (Name × List UInt8)}
    (h : sources read files d = .ok src) (hn : (d.map (·.1) ++ files.map basename).Nodup) :
    ∃ datas : List (List UInt8), files.map read = datas.map some ∧ src = d ++ (files.map basename).zip datas := by
  induction files generalizing d with
  | nil => cases h; exact ⟨[], rfl, by simp⟩
  | cons f fs ih =>
    rw [sources] at h
    split at h
    · cases h
    · rename_i data hd
      have hnew : basename f ∉ d.map (·.1) := by
        intro hm
        rw [List.nodup_append] at hn
        exact hn.2.2 _ hm _ (by simp) rfl
      rw [put_new hnew] at h
      obtain ⟨datas, h1, h2⟩ := ih h (by simpa [List.append_assoc] using hn)
      exact ⟨data :: datas, by simp [hd, h1], by simp [h2]⟩

private theorem createFiles_ok (ext : Name) (src dir : List (Name × List UInt8)) (paths : List Name)
    (hn : (dir.map (·.1) ++ src.map (fun e => disk ext e.1)).Nodup) :
    createFiles ext src (dir, paths) =
      (dir ++ src.map (fun e => (disk ext e.1, e.2)), paths ++ src.map (fun e => disk ext e.1)) := by
  induction src generalizing dir paths with
  | nil => simp [createFiles]
  | cons e src ih =>
    obtain ⟨name, data⟩ := e
    have hd : (if '.' ∈ name then name else name ++ '.' :: ext) = disk ext name := rfl
    rw [createFiles, hd]
    have hnew : disk ext name ∉ dir.map (·.1) := by
      intro hm
      rw [List.nodup_append] at hn
      exact hn.2.2 _ hm _ (by simp) rfl
    rw [put_new hnew, ih _ _ (by simpa [List.append_assoc] using hn)]
    simp

theorem takeWhile_front {α : Type} (p : α → Bool) (a b : List α) (ha : ∀ c ∈ a, p c = true) (hb : ∀ c t, b = c :: t → p c = false) :
    (a ++ b).takeWhile p = a := by
  induction a with
  | nil =>
    cases b with
    | nil => rfl
    | cons c t => simp [hb c t rfl]
  | cons c a ih => simp [ha c (by simp), ih fun x hx => ha x (List.mem_cons_of_mem _ hx)]

theorem cut {α : Type} (p : α → Bool) (l : List α) : ∃ a b, l = a ++ b ∧ l.takeWhile p = a ∧ (∀ c ∈ a, p c = true) ∧
    ∀ c t, b = c :: t → p c = false := by
  refine ⟨l.takeWhile p, l.dropWhile p, (List.takeWhile_append_dropWhile).symm, rfl, ?_, ?_⟩
  · intro c hc
    induction l with
    | nil => simp at hc
    | cons x l ih =>
      rw [List.takeWhile_cons] at hc
      split at hc
      · rcases List.mem_cons.1 hc with rfl | hc
        · assumption
        · exact ih hc
      · simp at hc
  · intro c t h
    induction l with
    | nil => simp at h
    | cons x l ih =>
      rw [List.dropWhile_cons] at h
      split at h
      · exact ih h
      · cases h; simp_all

theorem basename_iff (f b : Name) : basename f = b ↔ LastPart f b := by
  have front : ∀ d b : Name, '/' ∉ b → (d = [] ∨ ∃ d', d = d' ++ ['/']) → basename (d ++ b) = b := by
    intro d b hb hd
    unfold basename
    rw [List.reverse_append, takeWhile_front]
    · simp
    · intro c hc; simp at hc ⊢; rintro rfl; exact hb hc
    · rintro c t h
      rcases hd with rfl | ⟨d', rfl⟩
      · simp at h
      · simp at h; simp [← h.1]
  constructor
  · rintro rfl
    obtain ⟨a, b, h1, h2, h3, h4⟩ := cut (fun c => decide (c ≠ '/')) f.reverse
    have hf : f = b.reverse ++ a.reverse := by rw [← List.reverse_append, ← h1, List.reverse_reverse]
    have hb : basename f = a.reverse := by unfold basename; rw [h2]
    rw [hb]
    refine ⟨fun h => by simpa using h3 '/' (by simpa using h), ?_⟩
    cases b with
    | nil => left; simpa using hf
    | cons c t =>
      have := h4 c t rfl
      simp at this
      subst this
      right; exact ⟨t.reverse, by rw [hf]; simp⟩
  · rintro ⟨h1, h2 | ⟨d, h2⟩⟩
    · rw [h2]; exact front [] b h1 (Or.inl rfl)
    · rw [h2, show d ++ '/' :: b = (d ++ ['/']) ++ b from by simp]; exact front _ b h1 (Or.inr ⟨d, rfl⟩)

theorem hasExt_iff (f : Name) (e : String) (he : '.' ∉ e.toList) : HasExt f e ↔ extension f = '.' :: e.toList := by
  have h0 : HasExt f e ↔ ∃ stem, basename f = stem ++ '.' :: e.toList ∧ ∃ c ∈ stem, c ≠ '.' := by
    unfold HasExt
    simp only [basename_iff]
  rw [h0]
  unfold extension
  generalize basename f = b
  obtain ⟨x, y, h1, h2, h3, h4⟩ := cut (fun c => decide (c ≠ '.')) b.reverse
  have hb : b = y.reverse ++ x.reverse := by rw [← List.reverse_append, ← h1, List.reverse_reverse]
  dsimp only
  rw [h2, h1, List.drop_left]
  constructor
  · rintro ⟨stem, hb', c, hc, hc'⟩
    have hx : b.reverse.takeWhile (fun c => decide (c ≠ '.')) = e.toList.reverse := by
      rw [hb', show (stem ++ '.' :: e.toList).reverse = e.toList.reverse ++ '.' :: stem.reverse from by simp]
      exact takeWhile_front _ _ _ (by intro c hc; simp at hc ⊢; rintro rfl; exact he hc) (by rintro c t h; cases h; simp)
    have hxe : x = e.toList.reverse := by rw [← h2, hx]
    have hy : y = '.' :: stem.reverse := by
      rw [hb', hxe] at h1
      simpa using h1.symm
    subst hy
    dsimp only
    rw [if_neg, hxe, List.reverse_reverse]
    simp only [List.all_eq_true, decide_eq_true_eq, List.mem_reverse]
    exact fun h => hc' (h c hc)
  · intro h
    split at h
    · cases h
    · rename_i dot before
      split at h
      · cases h
      · rename_i hn
        injection h with hd hx
        subst hd
        refine ⟨before.reverse, by rw [hb, hx]; simp, ?_⟩
        simp only [List.all_eq_true, decide_eq_true_eq, Classical.not_forall] at hn
        obtain ⟨c, hc, hc'⟩ := hn
        exact ⟨c, by simpa using hc, hc'⟩

theorem ext_cpp (f : Name) : HasExt f "cpp" ↔ extension f = ".cpp".toList := hasExt_iff f "cpp" (by decide)
theorem ext_cc (f : Name) : HasExt f "cc" ↔ extension f = ".cc".toList := hasExt_iff f "cc" (by decide)
theorem ext_c (f : Name) : HasExt f "c" ↔ extension f = ".c".toList := hasExt_iff f "c" (by decide)

/-- The language of a helper program: the configured one, otherwise the best installed one of C++ if there is a C++
file among the sources, and of C if not. -/
theorem C73_lang (executors : List (Name × Exec)) (read : Name → Option (List UInt8)) (files flags : List Name)
    (lang : Option Name) (limit : Option Int) (cached : Bool) (b : Built)
    (h : auxiliary executors read files flags lang limit cached = .ok b) :
    (∃ x, executors.lookup b.lang = some x) ∧
    (∀ l, lang = some l → b.lang = l) ∧
    (lang = none → (∃ f ∈ files, HasExt f "cpp" ∨ HasExt f "cc") →
      Best (fun l => (executors.lookup l).isSome) (["CPP20", "CPP17", "CPP14", "CPP11", "CPP03"].map String.toList) b.lang) ∧
    (lang = none → (∀ f ∈ files, ¬HasExt f "cpp" ∧ ¬HasExt f "cc") →
      Best (fun l => (executors.lookup l).isSome) (["C11", "C"].map String.toList) b.lang) := by
  simp only [ext_cpp, ext_cc]
  unfold auxiliary at h
  split at h
  · cases h
  split at h
  · cases h
  rename_i l hl
  split at h
  · cases h
  rename_i x hx
  have hb : b.lang = l := by
    dsimp only at h
    split at h
    · split at h
      · cases h; rfl
      · cases h
    · split at h
      · cases h
      · split at h <;> cases h <;> rfl
      · cases h
  rw [hb]
  have best : ∀ cs : List Name, cs.find? (fun l => (executors.lookup l).isSome) = some l →
      Best (fun l => (executors.lookup l).isSome) cs l := by
    intro cs hc
    obtain ⟨h1, pre, post, h2, h3⟩ := List.find?_eq_some_iff_append.1 hc
    exact ⟨pre, post, h2, h1, fun y hy hi => by
      have h4 := h3 y hy
      rw [hi] at h4
      cases h4⟩
  refine ⟨⟨x, hx⟩, ?_, ?_, ?_⟩
  · rintro l' rfl; cases hl; rfl
  · rintro rfl ⟨f, hf, he⟩
    have hu : useCpp files = true := by
      simp only [useCpp, List.any_eq_true, Bool.or_eq_true, decide_eq_true_eq]
      exact ⟨f, hf, he⟩
    have hl' : (choices files).find? (fun l => (executors.lookup l).isSome) = some l := hl
    rw [choices, if_pos hu] at hl'
    exact best _ hl'
  · rintro rfl hf
    have hu : ¬ useCpp files = true := by
      simp only [useCpp, List.any_eq_true, Bool.or_eq_true, decide_eq_true_eq]
      rintro ⟨f, hm, he⟩
      rcases he with he | he
      · exact (hf f hm).1 he
      · exact (hf f hm).2 he
    have hl' : (choices files).find? (fun l => (executors.lookup l).isSome) = some l := hl
    rw [choices, if_neg hu] at hl'
    exact best _ hl'

/-- A C or C++ helper program is compiled from exactly the given files, each under its own name with its own content,
in the given order, if the names (without directories) differ. -/
theorem C73_sources_partial (executors : List (Name × Exec)) (read : Name → Option (List UInt8)) (files flags : List Name)
    (lang : Option Name) (limit : Option Int) (cached : Bool) (b : Built) (x : Exec)
    (h : auxiliary executors read files flags lang limit cached = .ok b) (hx : executors.lookup b.lang = some x)
    (hc : ∃ f ∈ files, HasExt f "cpp" ∨ HasExt f "cc" ∨ HasExt f "c")
    (hn : (files.map fun f => disk x.ext (basename f)).Nodup) :
    b.paths = (files.map fun f => disk x.ext (basename f)) ∧
    ∃ datas : List (List UInt8), files.map read = datas.map some ∧
      b.dir = (files.map fun f => disk x.ext (basename f)).zip datas := by
  simp only [ext_cpp, ext_cc, ext_c] at hc
  have hn' : (files.map basename).Nodup := by
    have : (files.map fun f => disk x.ext (basename f)) = (files.map basename).map (disk x.ext) := by simp
    rw [this] at hn
    exact nodup_of_map _ hn
  have huse : (useCpp files || useC files) = true := by
    obtain ⟨f, hf, he⟩ := hc
    simp only [useCpp, useC, Bool.or_eq_true, List.any_eq_true, decide_eq_true_eq]
    rcases he with he | he | he
    · exact Or.inl ⟨f, hf, Or.inl he⟩
    · exact Or.inl ⟨f, hf, Or.inr he⟩
    · exact Or.inr ⟨f, hf, he⟩
  unfold auxiliary at h
  split at h
  · cases h
  rename_i src hsrc
  split at h
  · cases h
  rename_i l hl
  split at h
  · cases h
  rename_i x' hx'
  dsimp only at h
  rw [if_pos huse] at h
  split at h
  · have hbl : b.lang = l := by cases h; rfl
    rw [hbl, hx'] at hx
    cases hx
    obtain ⟨datas, h1, h2⟩ := sources_ok hsrc (by simpa using hn')
    simp only [List.nil_append] at h2
    have hlen : files.length = datas.length := by simpa using congrArg List.length h1
    have hmap : ∀ g : Name → Name, ((files.map basename).zip datas).map (fun e => g e.1) = files.map (fun f => g (basename f)) := by
      intro g
      have h3 : ((files.map basename).zip datas).map (fun e => g e.1) = (((files.map basename).zip datas).map Prod.fst).map g := by
        simp
      rw [h3, List.map_fst_zip (by simp [hlen])]
      simp
    have hcf := createFiles_ok x.ext src [] [] (by rw [h2]; simpa [hmap] using hn)
    have hsd : sourceDict x.ext "_aux_file".toList none src = src := rfl
    rw [hsd, hcf] at h
    cases h
    refine ⟨?_, datas, h1, ?_⟩
    · simp only [List.nil_append]; rw [h2]; exact hmap _
    · simp only [List.nil_append]
      rw [h2]
      rw [List.zip_map_left, List.zip_map_left]
      simp
  · cases h

/-- Programs in other languages consist of one file. -/
theorem C73_single (executors : List (Name × Exec)) (read : Name → Option (List UInt8)) (f : Name) (flags : List Name)
    (lang : Option Name) (limit : Option Int) (cached : Bool) (b : Built)
    (h : auxiliary executors read [f] flags lang limit cached = .ok b)
    (hc : ¬HasExt f "cpp" ∧ ¬HasExt f "cc" ∧ ¬HasExt f "c") (hne : read f ≠ some []) :
    ∃ name data, read f = some data ∧ b.dir = [(name, data)] ∧ b.paths = [name] := by
  simp only [ext_cpp, ext_cc, ext_c] at hc
  have huse : (useCpp [f] || useC [f]) = false := by
    simp only [useCpp, useC, List.any_cons, List.any_nil, Bool.or_false, Bool.or_eq_false_iff, decide_eq_false_iff_not]
    exact ⟨⟨hc.1, hc.2.1⟩, hc.2.2⟩
  unfold auxiliary at h
  split at h
  · cases h
  rename_i src hsrc
  obtain ⟨datas, h1, h2⟩ := sources_ok hsrc (by simp)
  have hlen : datas.length = 1 := by simpa using (congrArg List.length h1).symm
  obtain ⟨data, rfl⟩ := List.length_eq_one_iff.1 hlen
  simp only [List.map_cons, List.map_nil, List.cons.injEq, and_true] at h1
  simp at h2
  subst h2
  split at h
  · cases h
  split at h
  · cases h
  rename_i x hx
  dsimp only at h
  rw [huse] at h
  simp only [Bool.false_eq_true, if_false] at h
  split at h
  · cases data with
    | nil => exact absurd h1 hne
    | cons y ys =>
      cases h
      exact ⟨_, _, h1, rfl, rfl⟩
  · cases h
    exact ⟨_, _, h1, rfl, rfl⟩

/-- Several files in another language are refused. -/
theorem C73_multi (executors : List (Name × Exec)) (read : Name → Option (List UInt8)) (files flags : List Name)
    (lang : Option Name) (limit : Option Int) (cached : Bool) (b : Built)
    (hc : ∀ f ∈ files, ¬HasExt f "cpp" ∧ ¬HasExt f "cc" ∧ ¬HasExt f "c")
    (hn : (files.map basename).Nodup) (hl : files.length ≠ 1) :
    auxiliary executors read files flags lang limit cached ≠ .ok b := by
  simp only [ext_cpp, ext_cc, ext_c] at hc
  intro h
  have huse : (useCpp files || useC files) = false := by
    simp only [useCpp, useC, Bool.or_eq_false_iff, List.any_eq_false, Bool.or_eq_true, decide_eq_true_eq, not_or]
    exact ⟨fun f hf => ⟨(hc f hf).1, (hc f hf).2.1⟩, fun f hf => (hc f hf).2.2⟩
  unfold auxiliary at h
  split at h
  · cases h
  rename_i src hsrc
  obtain ⟨datas, h1, h2⟩ := sources_ok hsrc (by simpa using hn)
  have hlen : files.length = datas.length := by simpa using congrArg List.length h1
  split at h
  · cases h
  split at h
  · cases h
  dsimp only at h
  rw [huse] at h
  simp only [Bool.false_eq_true, if_false] at h
  split at h
  · cases h
  · have : ((files.map basename).zip datas).length = 1 := by
      rw [List.nil_append] at h2; rw [← h2]; rfl
    simp [← hlen] at this
    exact hl this
  · cases h

/-- The condition of `C73_sources_partial` is needed: of two files of the same name in different directories, the first is
silently dropped. -/
theorem C73_sources_fails : ∃ (executors : List (Name × Exec)) (read : Name → Option (List UInt8)) (f g : Name) (b : Built),
    f ≠ g ∧ read f = some [1] ∧ read g = some [2] ∧
    auxiliary executors read [f, g] [] none none true = .ok b ∧ b.dir.map (·.2) = [[2]] :=
  ⟨[("CPP17".toList, ⟨true, true, "cpp".toList, some [], some 10⟩)],
    fun f => if f = "/p/a/x.cpp".toList then some [1] else some [2], "/p/a/x.cpp".toList, "/p/b/x.cpp".toList,
    ⟨"CPP17".toList, [("x.cpp".toList, [2])], ["x.cpp".toList], some [], some none, true⟩, by decide, rfl, rfl, rfl, rfl⟩

/-- Options of the executor: the given flags come before its own; the limit of the compiler is the given one, and is
taken away if none is given. -/
theorem C73_flags (executors : List (Name × Exec)) (read : Name → Option (List UInt8)) (files flags : List Name)
    (lang : Option Name) (limit : Option Int) (cached : Bool) (b : Built) (x : Exec)
    (h : auxiliary executors read files flags lang limit cached = .ok b) (hx : executors.lookup b.lang = some x) :
    (∀ own, x.flags = some own → b.flags = some (flags ++ own)) ∧ (x.compiled = true → b.limit = some limit) := by
  unfold auxiliary at h
  split at h
  · cases h
  split at h
  · cases h
  rename_i l hl
  split at h
  · cases h
  rename_i x' hx'
  dsimp only at h
  have fin : ∀ dir paths fl c, b = ⟨l, dir, paths, fl, (if x'.compiled then some limit else none), c⟩ →
      fl = x'.flags.map (fun f => flags ++ f) →
      (∀ own, x.flags = some own → b.flags = some (flags ++ own)) ∧ (x.compiled = true → b.limit = some limit) := by
    rintro dir paths fl c rfl rfl
    have : x' = x := by rw [hx'] at hx; exact Option.some.inj hx
    subst this
    exact ⟨fun own ho => by simp [ho], fun hc => by simp [hc]⟩
  split at h
  · split at h
    · exact fin _ _ _ _ (Except.ok.inj h).symm rfl
    · cases h
  · split at h
    · cases h
    · split at h
      · exact fin _ _ _ _ (Except.ok.inj h).symm rfl
      · exact fin _ _ _ _ (Except.ok.inj h).symm rfl
    · cases h

/-- A C or C++ helper program is kept for the next time exactly if this is asked for; others never are. -/
theorem C73_kept (executors : List (Name × Exec)) (read : Name → Option (List UInt8)) (files flags : List Name)
    (lang : Option Name) (limit : Option Int) (cached : Bool) (b : Built)
    (h : auxiliary executors read files flags lang limit cached = .ok b) :
    b.cached = true ↔ cached = true ∧ ∃ f ∈ files, HasExt f "cpp" ∨ HasExt f "cc" ∨ HasExt f "c" := by
  have huse : (∃ f ∈ files, HasExt f "cpp" ∨ HasExt f "cc" ∨ HasExt f "c") ↔ (useCpp files || useC files) = true := by
    simp only [ext_cpp, ext_cc, ext_c]
    simp only [useCpp, useC, Bool.or_eq_true, List.any_eq_true, decide_eq_true_eq]
    grind
  rw [huse]
  unfold auxiliary at h
  split at h
  · cases h
  split at h
  · cases h
  split at h
  · cases h
  dsimp only at h
  split at h
  · rename_i hu
    split at h
    · cases h; simp [hu]
    · cases h
  · rename_i hu
    split at h
    · cases h
    · split at h
      · cases h; simp [hu]
      · cases h; simp [hu]
    · cases h

/-- An interactor without a `compiler_time_limit` of its own is compiled without any limit, although its executor has
one. -/
theorem C73_interactor_limit_fails (executors : List (Name × Exec)) (read : Name → Option (List UInt8)) (files flags : List Name)
    (lang : Option Name) (cached : Bool) (b : Built) (x : Exec) (heap : Heap) (handler : Chain)
    (hs : Silent heap handler "compiler_time_limit".toList) (hs' : Silent heap handler "compiler-time-limit".toList)
    (h : auxiliary executors read files flags lang (interactorLimit heap handler) cached = .ok b)
    (hx : executors.lookup b.lang = some x) (hc : x.compiled = true) (n : Int) (_hl : x.limit = some n) :
    b.limit = some none := by
  have h1 : interactorLimit heap handler = none := by
    unfold interactorLimit
    rw [attr_silent hs (by
      have : dashed "compiler_time_limit".toList = "compiler-time-limit".toList := by decide
      rw [this]; exact hs')]
  rw [h1] at h
  exact (C73_flags executors read files flags lang none cached b x h hx).2 hc

example : ∃ b, auxiliary [("CPP17".toList, ⟨true, true, "cpp".toList, some ["-Wall".toList], some 10⟩)]
    (fun _ => some [65]) ["/p/interactor.cpp".toList, "/p/testlib.h".toList] ["-O3".toList] none
    (interactorLimit [.dict []] [0]) true = .ok b ∧ b.limit = some none ∧ b.flags = some ["-O3".toList, "-Wall".toList] ∧
    b.paths = ["interactor.cpp".toList, "testlib.h".toList] :=
  ⟨_, rfl, rfl, rfl, rfl⟩

/-- One source in another language, and two of them. -/
example : (∃ b, auxiliary [("PY3".toList, ⟨false, false, "py".toList, none, none⟩)] (fun _ => some [65]) ["/p/gen.py".toList] []
      (some "PY3".toList) none true = .ok b ∧ b.cached = false ∧ b.dir.length = 1) ∧
    (["/p/a.py".toList, "/p/b.py".toList].map basename).Nodup :=
  ⟨⟨_, rfl, rfl, rfl⟩, by decide +kernel⟩

/-! ### Signature grading -/

/-- Submissions in other languages are refused. -/
theorem C73_signature_lang (ext lang problem header : Name) (entry hd source : List UInt8) (allow : Bool) (uuid : Name) :
    signature ext lang problem header entry hd source allow uuid = none ↔
      lang ∉ ["C", "C11", "CPP03", "CPP11", "CPP14", "CPP17", "CPP20", "CLANG", "CLANGX"].map String.toList := by
  unfold signature
  split
  · rename_i h; simp only [reduceCtorEq, false_iff, Classical.not_not]; exact h
  · rename_i h; simp only [true_iff]; exact h

/-- With signature grading the compiler is given the submission, preceded by the include of the header and the renaming
of `main`, the header and the entry point of the problem, each in a file of its own, if the names of problem and header
are reasonable. -/
theorem C73_signature_partial (ext lang problem header : Name) (entry hd source : List UInt8) (allow : Bool) (uuid : Name)
    (hl : lang ∈ sigLanguages) (he : entry ≠ []) (hp : '.' ∉ problem) (hx : '.' ∉ ext) (hx' : ext ≠ "_submission".toList)
    (hh : '.' ∈ header) (h1 : header ≠ problem ++ "_submission.".toList ++ ext)
    (h2 : header ≠ problem ++ ext ++ '.' :: ext) :
    ∃ dir paths text, signature ext lang problem header entry hd source allow uuid = some (dir, paths) ∧
      Before header uuid allow text ∧
      paths = [problem ++ "_submission.".toList ++ ext, header, problem ++ ext ++ '.' :: ext] ∧
      dir = paths.zip [bytes text ++ source, hd, entry] := by
  have hpre : ∃ text, Before header uuid allow text ∧ prefixOf header allow uuid = bytes text := by
    cases allow with
    | true => exact ⟨_, ⟨fun _ => rfl, nofun⟩, by simp [prefixOf]⟩
    | false => exact ⟨_, ⟨nofun, fun _ => rfl⟩, by simp [prefixOf, bytes]⟩
  obtain ⟨text, ht, htext⟩ := hpre
  have hs : '.' ∉ problem ++ "_submission".toList := by
    intro h
    rcases List.mem_append.1 h with h | h
    · exact hp h
    · exact absurd h (by decide)
  have hm : '.' ∉ problem ++ ext := by
    intro h
    rcases List.mem_append.1 h with h | h
    · exact hp h
    · exact hx h
  have e1 : header ≠ problem ++ "_submission".toList := by rintro rfl; exact hs hh
  have e2 : problem ++ ext ≠ problem ++ "_submission".toList := fun h => hx' (List.append_cancel_left h)
  have e3 : problem ++ ext ≠ header := by rintro rfl; exact hm hh
  have d1 : disk ext (problem ++ "_submission".toList) = problem ++ "_submission.".toList ++ ext := by
    rw [disk, if_neg hs]
    have : "_submission.".toList = "_submission".toList ++ ['.'] := by decide
    rw [this]; simp
  have d2 : disk ext header = header := by rw [disk, if_pos hh]
  have d3 : disk ext (problem ++ ext) = problem ++ ext ++ '.' :: ext := by rw [disk, if_neg hm]
  have d4 : problem ++ "_submission.".toList ++ ext ≠ problem ++ ext ++ '.' :: ext := by
    rw [← d1, ← d3]
    rw [disk, if_neg hs, disk, if_neg hm]
    intro h
    exact e2 (List.append_cancel_right h).symm
  obtain ⟨y, ys, rfl⟩ := List.exists_cons_of_ne_nil he
  unfold signature
  rw [if_pos hl, htext]
  have hput : put header hd (put (problem ++ "_submission".toList) (bytes text ++ source) []) =
      [(problem ++ "_submission".toList, bytes text ++ source), (header, hd)] := by
    rw [put_new (by simp [put]; exact e1)]; rfl
  have hsd : sourceDict ext problem (some (y :: ys))
      (put header hd (put (problem ++ "_submission".toList) (bytes text ++ source) [])) =
      [(problem ++ "_submission".toList, bytes text ++ source), (header, hd), (problem ++ ext, y :: ys)] := by
    rw [hput, sourceDict, put_new]
    · rfl
    · simp only [List.map_cons, List.map_nil, List.mem_cons, List.not_mem_nil, or_false, not_or]
      exact ⟨e2, e3⟩
  dsimp only
  rw [hsd, createFiles_ok]
  · refine ⟨_, _, text, rfl, ht, ?_, ?_⟩
    · simp only [List.map_cons, List.map_nil, List.nil_append, d1, d2, d3]
    · simp only [List.map_cons, List.map_nil, List.nil_append, d1, d2, d3]; rfl
  · simp only [List.map_cons, List.map_nil, List.nil_append, d1, d2, d3, List.nodup_cons, List.mem_cons, List.not_mem_nil,
      or_false, not_or, not_false_eq_true, List.nodup_nil, and_true]
    exact ⟨⟨fun h => h1 h.symm, d4⟩, h2⟩

/-- The usual names meet the hypotheses. -/
example : "CPP17".toList ∈ sigLanguages ∧ '.' ∉ "aplusb".toList ∧ '.' ∉ "cpp".toList ∧ '.' ∈ "aplusb.h".toList ∧
    "aplusb.h".toList ≠ "aplusb".toList ++ "_submission.".toList ++ "cpp".toList ∧
    "aplusb.h".toList ≠ "aplusb".toList ++ "cpp".toList ++ '.' :: "cpp".toList := by
  decide +kernel

/-- The submission really is in the second file: a problem with a dot in its name has its submission and entry point
in files without an extension the compiler knows. -/
theorem C73_signature_dot_fails : ∃ dir paths, signature "cpp".toList "CPP17".toList "a.b".toList "a.h".toList [1] [2] [3] true [] =
    some (dir, paths) ∧ paths = ["a.b_submission".toList, "a.h".toList, "a.bcpp".toList] :=
  ⟨_, _, rfl, by decide +kernel⟩

/-- A header called like the file of the submission replaces it: the submission is not compiled at all. -/
theorem C73_signature_header_fails : ∃ dir paths, signature "cpp".toList "CPP17".toList "a".toList "a_submission.cpp".toList
    [1] [2] [3] true [] = some (dir, paths) ∧ dir.map (·.2) = [[2], [1]] :=
  ⟨_, _, rfl, by decide +kernel⟩

end Verif.Helpers
