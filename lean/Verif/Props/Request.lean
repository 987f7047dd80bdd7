import Verif.Props.Ansi
import Verif.Spec.Request
import Mathlib.Algebra.Order.Floor.Ring
import Mathlib.Data.Rat.Floor

/-!
# C92: the packets of the site, well-formed or not
-/

namespace Verif.Request
open Spec

/-! ## Helper lemmas -/

theorem get_iff (p : Json) (k : String) (v : Json) : p.get k.toList = some v ↔ Has p k v := by
  unfold Has
  cases p with
  | obj l =>
    simp only [Json.get, Json.obj.injEq]
    constructor
    · intro h
      obtain ⟨x, hx, rfl⟩ := Option.map_eq_some_iff.1 h
      obtain ⟨hk, as, bs, e, hb⟩ := List.find?_eq_some_iff_append.1 hx
      have hk : x.1 = k.toList := by simpa using hk
      refine ⟨bs.reverse, as.reverse, ?_, ?_⟩
      · have := congrArg List.reverse e
        rw [List.reverse_reverse] at this
        rw [this, ← hk]; simp
      · intro w hw
        have := hb (k.toList, w) (by simpa using hw)
        simp at this
    · rintro ⟨b, a, rfl, h⟩
      rw [List.reverse_append, List.reverse_cons, List.append_assoc, List.find?_append]
      have : a.reverse.find? (fun x => decide (x.1 = k.toList)) = none := by
        rw [List.find?_eq_none]
        rintro ⟨x, w⟩ hx
        simp only [List.mem_reverse] at hx
        simp only [decide_eq_true_eq]
        rintro rfl
        exact h w hx
      rw [this]
      simp
  | _ => simp [Json.get]

theorem get_none (p : Json) (k : String) : p.get k.toList = none ↔ ¬ ∃ v, Has p k v := by
  rw [Option.eq_none_iff_forall_ne_some]
  simp only [ne_eq, get_iff, not_exists]

theorem toFloat_iff (e : Env) (v : Json) (x : Num) : toFloat e v = some x ↔ ReadsFloat e v x := by
  constructor
  · intro h
    unfold toFloat at h
    split at h
    · rename_i b; cases b <;> (cases h; constructor)
    · exact .int _ _ h
    · cases h; exact .float _
    · exact .text _ _ h
    · exact nomatch h
  · intro h
    cases h <;> simp_all [toFloat]

theorem tdiv_down (q : Rat) (h : 0 ≤ q) : q.num.tdiv q.den = ⌊q⌋ := by
  have : 0 ≤ q.num := Rat.num_nonneg.2 h
  rw [Int.tdiv_eq_ediv_of_nonneg this]
  exact (Rat.floor_def q).symm

theorem tdiv_up (q : Rat) (h : q < 0) : q.num.tdiv q.den = ⌈q⌉ := by
  have h1 := tdiv_down (-q) (by linarith)
  rw [Rat.neg_num, Rat.neg_den, Int.neg_tdiv, Int.floor_neg] at h1
  linarith

theorem toInt_iff (e : Env) (v : Json) (i : Int) : toInt e v = some i ↔ ReadsInt e v i := by
  constructor
  · intro h
    unfold toInt at h
    split at h
    · rename_i b; cases b <;> (cases h; constructor)
    · cases h; exact .int _
    · rename_i q
      simp only [Option.some.injEq] at h
      rcases le_or_gt 0 q with h0 | h0
      · rw [tdiv_down q h0] at h
        exact .down q i h0 (Int.floor_eq_iff.1 h)
      · rw [tdiv_up q h0] at h
        exact .up q i h0 (Int.ceil_eq_iff.1 h)
    · exact nomatch h
    · exact .text _ _ h
    · exact nomatch h
  · intro h
    cases h with
    | down q i h0 h => simp only [toInt, tdiv_down q h0, Int.floor_eq_iff.2 h]
    | up q i h0 h => simp only [toInt, tdiv_up q h0, Int.ceil_eq_iff.2 h]
    | _ => simp_all [toInt]

theorem isText_iff (v : Json) (t : Str) : v.isText t = true ↔ v = .str t := by
  cases v <;> simp [Json.isText]

theorem submission_iff (e : Env) (p id : Json) (hid : Has p "submission-id" id) (s : Submission) :
    submission e p id = some s ↔ s.id = id ∧ Describes e p s := by
  unfold submission
  simp only [Option.bind_eq_bind, Option.bind_eq_some_iff, Option.pure_def, Option.some.injEq]
  constructor
  · rintro ⟨a, ha, b, hb, c, hc, t, ht, t', ht', m, hm, m', hm', sc, hsc, i, hi, rfl⟩
    exact ⟨rfl, hid, (get_iff ..).1 ha, (get_iff ..).1 hb, (get_iff ..).1 hc, ⟨t, (get_iff ..).1 ht, (toFloat_iff ..).1 ht'⟩,
      ⟨m, (get_iff ..).1 hm, (toInt_iff ..).1 hm'⟩, (get_iff ..).1 hsc, (get_iff ..).1 hi⟩
  · rintro ⟨rfl, h⟩
    obtain ⟨t, ht, ht'⟩ := h.time
    obtain ⟨m, hm, hm'⟩ := h.memory
    exact ⟨_, (get_iff ..).2 h.problem, _, (get_iff ..).2 h.language, _, (get_iff ..).2 h.source, t, (get_iff ..).2 ht, _, (toFloat_iff ..).2 ht',
      m, (get_iff ..).2 hm, _, (toInt_iff ..).2 hm', _, (get_iff ..).2 h.shortCircuit, _, (get_iff ..).2 h.info, rfl⟩

theorem good_before {p s : Str} (hp : Ansi.Harmless p) (h : Props.Ansi.AllGood s) (hs : ∀ r, s ≠ '(' :: r) : Props.Ansi.AllGood (p ++ s) := by
  induction p with
  | nil => exact h
  | cons c p ih =>
    refine Props.Ansi.good_cons (ih fun ⟨a, b, e⟩ => hp ⟨c :: a, b, by simp [e]⟩) ?_
    rintro rfl r hr
    cases p with
    | nil => exact hs r hr
    | cons d p =>
      have hd : d = '(' := by injection hr
      exact hp ⟨[], p, by simp [hd]⟩

theorem written_text (e : Env) (v : Json) (t : Str) : Written e v t ↔ t = text e v := by
  constructor
  · intro h
    cases h with
    | text => rfl
    | other v h => cases v <;> simp_all [text]
  · rintro rfl
    cases v with
    | str s => exact .text s
    | _ => exact .other _ (by simp)

theorem green_known : "green|bold".toList ∈ Props.Ansi.known := by decide +kernel
theorem yellow_known : "yellow".toList ∈ Props.Ansi.known := by decide +kernel
theorem in_plain : ']' ∉ " in ".toList := by decide +kernel
theorem open_plain : ']' ∉ "/#ansi[".toList := by decide +kernel
theorem start_plain : ']' ∉ "Start grading #ansi[".toList := by decide +kernel
theorem yellow_eq : "](yellow)/#ansi[".toList = ']' :: '(' :: ("yellow".toList ++ ')' :: "/#ansi[".toList) := by decide +kernel
theorem green_eq : "](green|bold) in ".toList = ']' :: '(' :: ("green|bold".toList ++ ')' :: " in ".toList) := by decide +kernel
theorem dots_eq : "...".toList = ['.', '.', '.'] := by decide +kernel

theorem styled_plain (e : Env) (s : Submission) (h : Plain e s) : (Ansi.style e.noAnsi (startLine e s)).isSome = true := by
  have hh : ∀ v ∈ [s.problem, s.id, s.language], Ansi.Harmless (text e v) := fun v hv => h v hv _ ((written_text e v _).2 rfl)
  have hg : Props.Ansi.AllGood (startLine e s) := by
    have h0 : Props.Ansi.AllGood ['.', '.', '.'] := Props.Ansi.good_noBracket (p := ['.', '.', '.']) (s := []) (by decide) Props.Ansi.good_nil
    have h1 := good_before (hh s.language (by simp)) h0 (by intro r hr; cases hr)
    have h2 := Props.Ansi.good_spec green_known (Props.Ansi.good_noBracket in_plain h1)
    have h3 := Props.Ansi.good_harmless (hh s.id (by simp)) h2
    have h4 := Props.Ansi.good_spec yellow_known (Props.Ansi.good_noBracket open_plain h3)
    have h5 := Props.Ansi.good_harmless (hh s.problem (by simp)) h4
    have h6 := Props.Ansi.good_noBracket start_plain h5
    unfold startLine
    rw [yellow_eq, green_eq, dots_eq]
    generalize "Start grading #ansi[".toList = a at h6 ⊢
    generalize "/#ansi[".toList = b at h6 ⊢
    generalize " in ".toList = c at h6 ⊢
    generalize "yellow".toList = d at h6 ⊢
    generalize "green|bold".toList = d' at h6 ⊢
    simpa only [List.append_assoc, List.cons_append] using h6
  generalize startLine e s = l at hg ⊢
  cases e.noAnsi with
  | true => exact Props.Ansi.style_plain l
  | false => exact Props.Ansi.style_good l hg

theorem decimal_iff (v : Json) : v.decimal = true ↔ Numeric v := by
  constructor
  · intro h
    unfold Json.decimal at h
    split at h <;> first | constructor | exact nomatch h
  · intro h; cases h <;> rfl

theorem named_iff (p : Json) (k : String) : Named p k ↔ ∃ n, p.get "name".toList = some n ∧ n.isText k.toList = true := by
  unfold Named
  rw [← get_iff]
  constructor
  · intro h; exact ⟨_, h, (isText_iff ..).2 rfl⟩
  · rintro ⟨n, h, hn⟩; rw [(isText_iff ..).1 hn] at h; exact h

theorem has_unique {p : Json} {k : String} {v w : Json} (h : Has p k v) (h' : Has p k w) : v = w := by
  rw [← get_iff] at h h'
  rw [h] at h'
  exact Option.some.inj h'

theorem named_unique {p : Json} {k l : String} (h : Named p k) (h' : Named p l) : k = l := by
  have := has_unique h h'
  simpa [String.toList_inj] using this

/-- The reactions by kind. -/
theorem receive_cases (e : Env) (r : Option Json) (p : Json) :
    ((¬ ∃ n, Has p "name" n) → receive e r p = [.exit 1]) ∧
    (Named p "ping" → receive e r p = match p.get "when".toList with | none => [.exit 1] | some w => [.pingResponse w]) ∧
    (Named p "get-current-submission" → receive e r p = match r with | none => [.exit 1] | some id => [.currentId id]) ∧
    (Named p "submission-request" → receive e r p = match p.get "submission-id".toList with
      | none => [.exit 1]
      | some id => .ack id :: match submission e p id with
        | none => [.exit 1]
        | some s => if starts e s then [.begin s] else [.exit 1]) ∧
    (Named p "terminate-submission" → receive e r p = abortGrading r) ∧
    (Named p "disconnect" → receive e r p = .close :: (abortGrading r ++ [.exit 0])) ∧
    ((∃ n, Has p "name" n) → (∀ k ∈ kinds, ¬ Named p k) → receive e r p = []) := by
  have key : ∀ k l : String, k ≠ l → (Json.str k.toList).isText l.toList = false := by
    intro k l h
    rw [Bool.eq_false_iff, Ne, isText_iff]
    simpa [String.toList_inj] using h
  have self : ∀ k : String, (Json.str k.toList).isText k.toList = true := fun k => (isText_iff ..).2 rfl
  refine ⟨fun h => ?_, fun h => ?_, fun h => ?_, fun h => ?_, fun h => ?_, fun h => ?_, fun ⟨n, h⟩ hk => ?_⟩
  · rw [← get_none] at h
    simp only [receive, h]
  all_goals
    have hn := (get_iff ..).2 h
    unfold receive
    rw [hn]
  · simp only [self, if_true]; rfl
  · simp only [key _ _ (show "get-current-submission" ≠ "ping" by decide), self, if_true, Bool.false_eq_true, if_false]; rfl
  · simp only [key _ _ (show "submission-request" ≠ "ping" by decide), key _ _ (show "submission-request" ≠ "get-current-submission" by decide), self, if_true,
      Bool.false_eq_true, if_false]; rfl
  · simp only [key _ _ (show "terminate-submission" ≠ "ping" by decide), key _ _ (show "terminate-submission" ≠ "get-current-submission" by decide),
      key _ _ (show "terminate-submission" ≠ "submission-request" by decide), self, if_true, Bool.false_eq_true, if_false]
  · simp only [key _ _ (show "disconnect" ≠ "ping" by decide), key _ _ (show "disconnect" ≠ "get-current-submission" by decide),
      key _ _ (show "disconnect" ≠ "submission-request" by decide), key _ _ (show "disconnect" ≠ "terminate-submission" by decide),
      self, if_true, Bool.false_eq_true, if_false]
  · have none : ∀ k ∈ kinds, n.isText k.toList = false := by
      intro k hk'
      rw [Bool.eq_false_iff, Ne, isText_iff]
      rintro rfl
      exact hk k hk' h
    simp only [none "ping" (by decide), none "get-current-submission" (by decide), none "submission-request" (by decide),
      none "terminate-submission" (by decide), none "disconnect" (by decide), Bool.false_eq_true, if_false]

/-! ## C92 -/

/-- **C92 (answers).** A ping is answered with the value it came with, a query with the submission being graded; a termination aborts that submission and does
nothing while there is none; a disconnect closes the connection, aborts and ends the judge with status 0; a packet of another kind is ignored. -/
theorem C92_answers (e : Env) (r : Option Json) (p : Json) :
    (∀ w, Named p "ping" → Has p "when" w → receive e r p = [.pingResponse w]) ∧
    (∀ id, Named p "get-current-submission" → r = some id → receive e r p = [.currentId id]) ∧
    (Named p "terminate-submission" → (r = none → receive e r p = []) ∧ ∀ id, r = some id → receive e r p = [.abort id]) ∧
    (Named p "disconnect" → (r = none → receive e r p = [.close, .exit 0]) ∧ ∀ id, r = some id → receive e r p = [.close, .abort id, .exit 0]) ∧
    ((∃ n, Has p "name" n) → (∀ k ∈ kinds, ¬ Named p k) → receive e r p = []) := by
  obtain ⟨_, h2, h3, _, h5, h6, h7⟩ := receive_cases e r p
  refine ⟨fun w hp hw => ?_, fun id hp hr => ?_, fun hp => ⟨fun hr => ?_, fun id hr => ?_⟩, fun hp => ⟨fun hr => ?_, fun id hr => ?_⟩, h7⟩
  · rw [h2 hp, (get_iff ..).2 hw]
  · rw [h3 hp, hr]
  · rw [h5 hp, hr]; rfl
  · rw [h5 hp, hr]; rfl
  · rw [h6 hp, hr]; rfl
  · rw [h6 hp, hr]; rfl

/-- **C92 (requests).** A request that describes a submission whose names are plain and whose id is a number is acknowledged with its id, and that submission is then graded: every field
is the packet's. -/
theorem C92_request (e : Env) (r : Option Json) (p : Json) (s : Submission) (hp : Named p "submission-request") (hs : Describes e p s) (hl : Plain e s)
    (hid : Numeric s.id) : receive e r p = [.ack s.id, .begin s] := by
  obtain ⟨_, _, _, h4, _⟩ := receive_cases e r p
  rw [h4 hp, (get_iff ..).2 hs.id]
  simp only [(submission_iff e p s.id hs.id s).2 ⟨rfl, hs⟩, starts, styled_plain e s hl, (decimal_iff _).2 hid, Bool.and_true, if_true]

/-- **C92 (nothing else is graded).** Whatever is graded was described by the packet being handled, a request, and has just been acknowledged under its own id. -/
theorem C92_only (e : Env) (r : Option Json) (p : Json) (s : Submission) (h : .begin s ∈ receive e r p) :
    Named p "submission-request" ∧ Describes e p s ∧ receive e r p = [.ack s.id, .begin s] := by
  obtain ⟨h1, h2, h3, h4, h5, h6, h7⟩ := receive_cases e r p
  by_cases hn : ∃ n, Has p "name" n
  swap
  · simp [h1 hn] at h
  by_cases hk : ∀ k ∈ kinds, ¬ Named p k
  · simp [h7 hn hk] at h
  have ha : .begin s ∉ abortGrading r := by cases r <;> simp [abortGrading]
  simp only [kinds, List.mem_cons, List.not_mem_nil, or_false, forall_eq_or_imp, forall_eq, not_and_or, not_not] at hk
  rcases hk with hk | hk | hk | hk | hk
  · rw [h2 hk] at h; split at h <;> simp at h
  · rw [h3 hk] at h; split at h <;> simp at h
  · rw [h4 hk] at h ⊢
    cases hi : p.get "submission-id".toList with
    | none => rw [hi] at h; simp at h
    | some id =>
      rw [hi] at h
      have hid := (get_iff ..).1 hi
      cases hs : submission e p id with
      | none => simp [hs] at h
      | some s' =>
        obtain ⟨e1, e2⟩ := (submission_iff e p id hid s').1 hs
        simp only [hs] at h ⊢
        split at h
        · simp only [List.mem_cons, reduceCtorEq, Out.begin.injEq, List.not_mem_nil, or_false, false_or] at h
          subst h
          rename_i hst
          exact ⟨hk, e2, by rw [if_pos hst, e1]⟩
        · simp at h
  · rw [h5 hk] at h; exact absurd h ha
  · rw [h6 hk] at h; simp [ha] at h

/-- **C92 (what ends the judge).** Exactly these packets: with status 0 a disconnect; with status 1 one that is no dictionary or has no name, a ping without a
time, a query while nothing is graded, and a request that does not describe a submission,
or whose names upset the log, or whose id is no number. -/
theorem C92_ends (e : Env) (r : Option Json) (p : Json) :
    (.exit 0 ∈ receive e r p ↔ Named p "disconnect") ∧
    (.exit 1 ∈ receive e r p ↔ (¬ ∃ n, Has p "name" n) ∨ (Named p "ping" ∧ ¬ ∃ w, Has p "when" w) ∨
      (Named p "get-current-submission" ∧ r = none) ∨
      (Named p "submission-request" ∧ ∀ s, Describes e p s → Ansi.style e.noAnsi (startLine e s) = none ∨ ¬ Numeric s.id)) ∧
    ∀ c, .exit c ∈ receive e r p → c = 0 ∨ c = 1 := by
  obtain ⟨h1, h2, h3, h4, h5, h6, h7⟩ := receive_cases e r p
  have ne : ∀ {k l : String}, Named p k → Named p l → k = l := fun a b => named_unique a b
  by_cases hn : ∃ n, Has p "name" n
  swap
  · have no : ∀ k, ¬ Named p k := fun k h => hn ⟨_, h⟩
    rw [h1 hn]
    simp [hn, no]
  by_cases hk : ∀ k ∈ kinds, ¬ Named p k
  · rw [h7 hn hk]
    have no : ∀ k ∈ kinds, ¬ Named p k := hk
    simp [hn, no "disconnect" (by decide), no "ping" (by decide), no "get-current-submission" (by decide), no "submission-request" (by decide)]
  have ha : ∀ c, .exit c ∉ abortGrading r := by intro c; cases r <;> simp [abortGrading]
  simp only [kinds, List.mem_cons, List.not_mem_nil, or_false, forall_eq_or_imp, forall_eq, not_and_or, not_not] at hk
  have other : ∀ k, Named p k → ∀ l, k ≠ l → ¬ Named p l := fun k h l hl h' => hl (ne h h')
  rcases hk with hk | hk | hk | hk | hk
  · have o := other _ hk
    rw [h2 hk]
    simp only [hn, hk, o "disconnect" (by decide), o "get-current-submission" (by decide), o "submission-request" (by decide), not_true, false_or, true_and,
      false_and, or_false, iff_false]
    rw [← get_none]
    cases p.get "when".toList <;> simp
  · have o := other _ hk
    rw [h3 hk]
    simp only [hn, hk, o "disconnect" (by decide), o "ping" (by decide), o "submission-request" (by decide), not_true, false_or, true_and,
      false_and, or_false, iff_false]
    cases r <;> simp
  · have o := other _ hk
    rw [h4 hk]
    simp only [hn, hk, o "disconnect" (by decide), o "ping" (by decide), o "get-current-submission" (by decide), not_true, false_or, true_and,
      false_and, iff_false]
    cases hi : p.get "submission-id".toList with
    | none =>
      have : ∀ s, ¬ Describes e p s := fun s h => by
        have := (get_iff ..).2 h.id
        rw [hi] at this
        cases this
      simp [this]
    | some id =>
      have hid := (get_iff ..).1 hi
      have hd : ∀ s, Describes e p s ↔ submission e p id = some s := fun s => by
        rw [submission_iff e p id hid]
        exact ⟨fun h => ⟨has_unique h.id hid, h⟩, fun h => h.2⟩
      simp only [hd]
      cases submission e p id with
      | none => simp
      | some s =>
        simp only [← decimal_iff]
        cases h : Ansi.style e.noAnsi (startLine e s) <;> cases h' : s.id.decimal <;> simp [starts, h, h']
  · have o := other _ hk
    rw [h5 hk]
    simp [hn, o "disconnect" (by decide), o "ping" (by decide), o "get-current-submission" (by decide), o "submission-request" (by decide), ha]
  · have o := other _ hk
    rw [h6 hk]
    simp only [hn, hk, o "ping" (by decide), o "get-current-submission" (by decide), o "submission-request" (by decide)]
    simp [ha]

theorem receive_shape (e : Env) (r : Option Json) (p : Json) :
    (∃ s, receive e r p = [.ack s.id, .begin s]) ∨ (∃ id, receive e r p = [.ack id, .exit 1]) ∨
    ∀ o ∈ receive e r p, (∀ id, o ≠ .ack id) ∧ ∀ s, o ≠ .begin s := by
  obtain ⟨h1, h2, h3, h4, h5, h6, h7⟩ := receive_cases e r p
  by_cases hn : ∃ n, Has p "name" n
  swap
  · rw [h1 hn]; simp
  by_cases hk : ∀ k ∈ kinds, ¬ Named p k
  · rw [h7 hn hk]; simp
  simp only [kinds, List.mem_cons, List.not_mem_nil, or_false, forall_eq_or_imp, forall_eq, not_and_or, not_not] at hk
  rcases hk with hk | hk | hk | hk | hk
  · rw [h2 hk]; split <;> simp
  · rw [h3 hk]; split <;> simp
  · rw [h4 hk]
    cases hi : p.get "submission-id".toList with
    | none => simp
    | some id =>
      have hid := (get_iff ..).1 hi
      cases hs : submission e p id with
      | none => exact .inr (.inl ⟨id, by simp only [hs]⟩)
      | some s =>
        have := ((submission_iff e p id hid s).1 hs).1
        by_cases hst : starts e s = true
        · left; exact ⟨s, by simp only [hs, hst, this, if_true]⟩
        · right; left; exact ⟨id, by simp only [hs, hst, if_false]; simp⟩
  · rw [h5 hk]; cases r <;> simp [abortGrading]
  · rw [h6 hk]; cases r <;> simp [abortGrading]

theorem split_plain (R T : List Out) (hR : ∀ o ∈ R, (∀ id, o ≠ .ack id) ∧ ∀ s, o ≠ .begin s) (pre post : List Out) (x : Out)
    (hx : (∃ id, x = .ack id) ∨ ∃ s, x = .begin s) (h : R ++ T = pre ++ x :: post) : ∃ pre', pre = R ++ pre' ∧ T = pre' ++ x :: post := by
  rcases List.append_eq_append_iff.1 h with ⟨a, rfl, h2⟩ | ⟨a, h1, h2⟩
  · exact ⟨a, rfl, h2⟩
  · cases a with
    | nil => exact ⟨[], by simpa using h1.symm, by simpa using h2.symm⟩
    | cons y a =>
      have : x = y := by injection h2
      have := hR x (by rw [h1, this]; simp)
      rcases hx with ⟨id, rfl⟩ | ⟨s, rfl⟩
      · exact absurd rfl (this.1 id)
      · exact absurd rfl (this.2 s)

/-- **C92 (histories).** Over any sequence of packets: whatever is graded was described by a request among them, and acknowledged under its id just before;
after an acknowledgement that submission is graded or the judge ends. -/
theorem C92_history (e : Env) (ps : List (Option Json × Json)) (pre post : List Out) :
    (∀ s, serve e ps = pre ++ .begin s :: post → (∃ pre', pre = pre' ++ [.ack s.id]) ∧
      ∃ r p, (r, p) ∈ ps ∧ Named p "submission-request" ∧ Describes e p s) ∧
    (∀ id, serve e ps = pre ++ .ack id :: post → (∃ s post', post = .begin s :: post' ∧ s.id = id) ∨ post = [.exit 1]) := by
  induction ps generalizing pre with
  | nil => simp [serve]
  | cons x ps ih =>
    obtain ⟨r, p⟩ := x
    simp only [serve]
    rcases receive_shape e r p with ⟨s, hs⟩ | ⟨id, hi⟩ | hR
    · have hd := C92_only e r p s (by rw [hs]; simp)
      rw [hs]
      simp only [List.any_cons, Out.ends, List.any_nil, Bool.or_self, Bool.false_eq_true, if_false, List.cons_append, List.nil_append]
      match pre with
      | [] =>
        refine ⟨fun s' h => by simp at h, fun id h => ?_⟩
        simp only [List.nil_append, List.cons.injEq, Out.ack.injEq] at h
        exact .inl ⟨s, _, h.2.symm, h.1⟩
      | [y] =>
        refine ⟨fun s' h => ?_, fun id h => by simp at h⟩
        simp only [List.cons_append, List.nil_append, List.cons.injEq, Out.begin.injEq] at h
        obtain ⟨h1, h2, h3⟩ := h
        subst h2
        exact ⟨⟨[], by rw [← h1]; rfl⟩, r, p, List.mem_cons_self, hd.1, hd.2.1⟩
      | y :: z :: pre =>
        refine ⟨fun s' h => ?_, fun id h => ?_⟩
        · simp only [List.cons_append, List.cons.injEq] at h
          obtain ⟨⟨pre', e1⟩, r', p', h1, h2⟩ := (ih pre).1 s' h.2.2
          exact ⟨⟨y :: z :: pre', by rw [e1]; rfl⟩, r', p', List.mem_cons_of_mem _ h1, h2⟩
        · simp only [List.cons_append, List.cons.injEq] at h
          exact (ih pre).2 id h.2.2
    · rw [hi]
      simp only [List.any_cons, Out.ends, List.any_nil, Bool.or_false, Bool.or_true, if_true, List.append_nil]
      match pre with
      | [] =>
        refine ⟨fun s' h => by simp at h, fun id h => ?_⟩
        simp only [List.nil_append, List.cons.injEq] at h
        exact .inr h.2.symm
      | [y] => exact ⟨fun s' h => by simp at h, fun id h => by simp at h⟩
      | y :: z :: pre => exact ⟨fun s' h => by simp at h, fun id h => by simp at h⟩
    · refine ⟨fun s h => ?_, fun id h => ?_⟩
      · obtain ⟨pre', rfl, h'⟩ := split_plain _ _ hR pre post _ (.inr ⟨s, rfl⟩) h
        split at h'
        · simp at h'
        · obtain ⟨⟨a, rfl⟩, r', p', h1, h2⟩ := (ih pre').1 s h'
          exact ⟨⟨receive e r p ++ a, by simp⟩, r', p', List.mem_cons_of_mem _ h1, h2⟩
      · obtain ⟨pre', rfl, h'⟩ := split_plain _ _ hR pre post _ (.inl ⟨id, rfl⟩) h
        split at h'
        · simp at h'
        · exact (ih pre').2 id h'

/-- **C92 (the end).** After a packet that ends the judge no other is handled; any other packet leaves it handling the rest as if it were the first. -/
theorem C92_stops (e : Env) (r : Option Json) (p : Json) (ps : List (Option Json × Json)) :
    ((∃ c, .exit c ∈ receive e r p) → serve e ((r, p) :: ps) = receive e r p) ∧
    ((¬ ∃ c, .exit c ∈ receive e r p) → serve e ((r, p) :: ps) = receive e r p ++ serve e ps) := by
  have : (receive e r p).any Out.ends = true ↔ ∃ c, .exit c ∈ receive e r p := by
    rw [List.any_eq_true]
    constructor
    · rintro ⟨o, h1, h2⟩
      cases o <;> simp [Out.ends] at h2
      exact ⟨_, h1⟩
    · rintro ⟨c, h⟩
      exact ⟨_, h, rfl⟩
  rw [← this]
  constructor
  · intro h; simp [serve, h]
  · intro h; simp [serve, h]

/-! ## Where it fails -/

/-- A Python for the examples. -/
def sampleEnv : Env := ⟨fun i => some (.fin i), fun _ => none, fun _ => none, fun _ => "1".toList, false⟩

/-- A request of the site, with a problem, a time limit and the rest of the keys. -/
def sampleRequest (problem : String) (time : Json) : Json :=
  .obj [("name".toList, .str "submission-request".toList), ("submission-id".toList, .int 7), ("problem-id".toList, .str problem.toList),
    ("language".toList, .str "C".toList), ("source".toList, .str "x".toList), ("time-limit".toList, time), ("memory-limit".toList, .float (.fin (3 / 2))),
    ("short-circuit".toList, .bool true), ("meta".toList, .obj [])]

/-- What it asks for. -/
def sampleSubmission (problem : String) (time : Num) : Submission :=
  ⟨.int 7, .str problem.toList, .str "C".toList, .str "x".toList, time, 1, .bool true, .obj []⟩

private theorem has_of_get {p : Json} {k : String} {v : Json} (h : p.get k.toList = some v) : Has p k v := (get_iff ..).1 h

theorem sample_describes (problem : String) (time : Json) (t : Num) (ht : ReadsFloat sampleEnv time t) :
    Named (sampleRequest problem time) "submission-request" ∧ Describes sampleEnv (sampleRequest problem time) (sampleSubmission problem t) := by
  refine ⟨has_of_get rfl, ⟨has_of_get rfl, has_of_get rfl, has_of_get rfl, has_of_get rfl, ⟨time, has_of_get rfl, ht⟩,
    ⟨.float (.fin (3 / 2)), has_of_get rfl, .down _ _ (by norm_num) ?_⟩, has_of_get rfl, has_of_get rfl⟩⟩
  simp only [sampleSubmission]
  norm_num

/-- **C92, where it fails.** An acknowledged submission need not be graded or reported: the acknowledgement goes out before the rest of the packet is looked at,
and the judge ends. -/
theorem C92_ack_fails (e : Env) (r : Option Json) (id : Json) (ps : List (Option Json × Json)) :
    serve e ((r, .obj [("name".toList, .str "submission-request".toList), ("submission-id".toList, id)]) :: ps) = [.ack id, .exit 1] := by
  simp [serve, receive, Json.get, Json.isText, submission, Out.ends]

/-- **C92, where it fails.** A termination names the submission it is for, but aborts whichever is being graded when it arrives. -/
theorem C92_terminate_fails (e : Env) (a b : Json) :
    receive e (some b) (.obj [("name".toList, .str "terminate-submission".toList), ("submission-id".toList, a)]) = [.abort b] := by
  simp [receive, Json.get, Json.isText, abortGrading]

theorem sample_plain (t : Num) : Plain sampleEnv (sampleSubmission "aplusb" t) := by
  intro v hv w hw
  rw [written_text] at hw
  subst hw
  have harm : ∀ t : Str, ']' ∉ t → Ansi.Harmless t := by
    rintro t h ⟨a, b, rfl⟩; simp at h
  apply harm
  simp only [sampleSubmission, List.mem_cons, List.not_mem_nil, or_false] at hv
  rcases hv with rfl | rfl | rfl <;> (simp only [text, sampleEnv]; decide)

/-- **C92, where it fails.** Limits are not looked at: no number at all is a time limit, and so is a negative one. -/
theorem C92_limits_fails :
    receive sampleEnv none (sampleRequest "aplusb" (.float .nan)) = [.ack (.int 7), .begin (sampleSubmission "aplusb" .nan)] ∧
    receive sampleEnv none (sampleRequest "aplusb" (.int (-1))) = [.ack (.int 7), .begin (sampleSubmission "aplusb" (.fin (-1)))] := by
  constructor
  · obtain ⟨h1, h2⟩ := sample_describes "aplusb" (.float .nan) .nan (.float _)
    exact C92_request _ _ _ _ h1 h2 (sample_plain _) (.int _)
  · obtain ⟨h1, h2⟩ := sample_describes "aplusb" (.int (-1)) (.fin (-1)) (.int _ _ (by simp [sampleEnv]))
    exact C92_request _ _ _ _ h1 h2 (sample_plain _) (.int _)

/-- **C92, where it fails.** A request for a problem whose name looks like the end of a coloured text ends the judge, before it finds that it has no such
problem. -/
theorem C92_problem_fails : Ansi.style false (startLine sampleEnv (sampleSubmission "a](b)" (.fin 1))) = none ∧
    .exit 1 ∈ receive sampleEnv none (sampleRequest "a](b)" (.int 1)) := by
  have h : Ansi.style false (startLine sampleEnv (sampleSubmission "a](b)" (.fin 1))) = none := by
    decide +kernel
  refine ⟨h, (C92_ends ..).2.1.2 (.inr (.inr (.inr ?_)))⟩
  obtain ⟨h1, h2⟩ := sample_describes "a](b)" (.int 1) (.fin 1) (.int _ _ (by simp [sampleEnv]))
  refine ⟨h1, fun s hs => ?_⟩
  have e1 := (submission_iff _ _ _ h2.id _).2 ⟨rfl, h2⟩
  have e2 := (submission_iff _ _ _ h2.id s).2 ⟨has_unique hs.id h2.id, hs⟩
  rw [e1] at e2
  cases e2
  exact .inl h

/-- **C92, where it fails.** So does one whose id is a text: it is acknowledged, and then the name of the worker process cannot be made. -/
theorem C92_id_fails (e : Env) (r : Option Json) (p : Json) (t : Str) (hp : Named p "submission-request") (ht : Has p "submission-id" (.str t)) :
    receive e r p = [.ack (.str t), .exit 1] := by
  obtain ⟨_, _, _, h4, _⟩ := receive_cases e r p
  rw [h4 hp, (get_iff ..).2 ht]
  cases hs : submission e p (.str t) with
  | none => simp only [hs]
  | some s =>
    have : s.id = .str t := ((submission_iff e p _ ht s).1 hs).1
    simp only [hs, starts, this, Json.decimal, Bool.and_false, Bool.false_eq_true, if_false]

/-! ## Examples -/

/-- The hypotheses of the theorems are met. -/
example : serve sampleEnv [(none, sampleRequest "aplusb" (.int 2)), (some (.int 7), .obj [("name".toList, .str "ping".toList), ("when".toList, .int 3)]),
    (some (.int 7), .obj [("name".toList, .str "hello".toList)]), (some (.int 7), .arr []), (none, sampleRequest "aplusb" (.int 2))] =
    [.ack (.int 7), .begin (sampleSubmission "aplusb" (.fin 2)), .pingResponse (.int 3), .exit 1] := by
  obtain ⟨h1, h2⟩ := sample_describes "aplusb" (.int 2) (.fin 2) (.int _ _ (by simp [sampleEnv]))
  have h := C92_request _ none _ _ h1 h2 (sample_plain _) (.int _)
  simp only [serve, h]
  rfl

end Verif.Request
