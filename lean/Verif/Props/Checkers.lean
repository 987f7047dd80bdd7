import Verif.Lemmas.Checkers

/-!
# C01-C06: the built-in checkers

The specification vocabulary (`lines`, `tokens`, `tokenLines`, `trim`, ...) is in
`Verif/Spec/Checkers.lean`.
-/

namespace Verif.Props
open Verif Spec Checkers

/-! ## Character classes -/

/-- The six ASCII whitespace bytes, and the two line breaks. -/
theorem C01_charClasses (c : Byte) :
    (isWhite c = true ↔ c ∈ [9, 10, 11, 12, 13, 32]) ∧ (isLine c = true ↔ c ∈ [10, 13]) := by
  simp only [isWhite, isLine, Bool.or_eq_true, beq_iff_eq, List.mem_cons, List.not_mem_nil, or_false]
  tauto

/-! ## C01: standard checker -/

/-- C01.  The standard checker, for every pair of outputs, terminates without reading outside its
buffers (the result is never `none`) and accepts exactly when both outputs have the same non-blank
lines, compared token by token. -/
theorem C01_standard_spec (process judge : Bytes) :
    standard process judge = some (decide (tokenLines process = tokenLines judge)) := by
  obtain ⟨r, e, h⟩ := standardC_total judge process
  rw [standard, e]
  congr 1
  rw [Bool.eq_iff_iff, h, decide_eq_true_iff]
  exact eq_comm

example : standard (b "1  2\r\n\n 3\n") (b "1 2\n3") = some true := by
  rw [C01_standard_spec]; decide
example : standard (b "1\n2") (b "1 2") = some false := by
  rw [C01_standard_spec]; decide

/-- C01.  Acceptance is reflexive. -/
theorem C01_standard_refl (s : Bytes) : standard s s = some true := by
  simp [C01_standard_spec]

/-- C01.  Acceptance is symmetric in the two outputs. -/
theorem C01_standard_symm (s t : Bytes) : standard s t = standard t s := by
  simp only [C01_standard_spec]
  congr 1
  exact decide_eq_decide.2 eq_comm

/-- C01.  Acceptance is transitive. -/
theorem C01_standard_trans (s t u : Bytes) (h1 : standard s t = some true)
    (h2 : standard t u = some true) : standard s u = some true := by
  simp only [C01_standard_spec, Option.some.injEq, decide_eq_true_eq] at *
  exact h1.trans h2

example : standard (b "a b") (b " a\tb ") = some true ∧ standard (b " a\tb ") (b "a  b\n") = some true := by
  simp only [C01_standard_spec]; decide

/-- C01.  Whitespace before and after the whole process output is irrelevant. -/
theorem C01_standard_pad (w1 s w2 judge : Bytes) (h1 : ∀ c ∈ w1, isWhite c = true)
    (h2 : ∀ c ∈ w2, isWhite c = true) :
    standard (w1 ++ s ++ w2) judge = standard s judge := by
  have e : tokenLines (w1 ++ s ++ w2) = tokenLines s := by
    rw [tokenLines_trail _ _ h2]
    clear h2
    induction w1 with
    | nil => rfl
    | cons c w ih =>
      rw [List.cons_append, tokenLines_white (h1 c (by simp))]
      exact ih (fun y hy => h1 y (by simp [hy]))
  simp only [C01_standard_spec, e]

example : ∀ c ∈ b " \t\n", isWhite c = true := by decide

/-- C01.  Inside the output any blank run without line break is as good as one space, and any blank
run with a line break (hence any number of blank lines, or `\r\n`) is as good as one newline. -/
theorem C01_standard_runs (x w y judge : Bytes) (hw : ∀ c ∈ w, isWhite c = true) (hne : w ≠ []) :
    standard (x ++ w ++ y) judge =
      standard (x ++ [if w.any isLine then 10 else 32] ++ y) judge := by
  have e : tokenLines (x ++ w ++ y) = tokenLines (x ++ [if w.any isLine then 10 else 32] ++ y) := by
    rw [List.append_assoc, List.append_assoc]
    by_cases h : w.any isLine = true
    · simp only [h, if_true]
      refine ((sameView_newline w y hw ?_).append x).tokenLines_eq
      simpa using h
    · simp only [h, Bool.false_eq_true, if_false]
      refine ((sameView_space w y hw ?_ hne).append x).tokenLines_eq
      simpa using h
  simp only [C01_standard_spec, e]

example : (∀ c ∈ b "\r\n\n", isWhite c = true) ∧ b "\r\n\n" ≠ [] := by decide

/-- C01.  Different tokens are never confused: outputs without whitespace are accepted only if they
are byte for byte equal. -/
theorem C01_standard_token (s t : Bytes) (hs : ∀ c ∈ s, isWhite c = false)
    (ht : ∀ c ∈ t, isWhite c = false) : standard s t = some true ↔ s = t := by
  rw [C01_standard_spec, Option.some.injEq, decide_eq_true_iff]
  constructor
  · intro h
    have one : ∀ u : Bytes, (∀ c ∈ u, isWhite c = false) → u ≠ [] → tokenLines u = [[u]] := by
      intro u hu hne
      have := tokenLines_token u [] hu hne (by simp) (h := []) (tl := []) (by simp [lines])
      simpa [tokens_nil] using this
    by_cases hs' : s = [] <;> by_cases ht' : t = []
    · rw [hs', ht']
    · rw [hs', tokenLines_nil, one t ht ht'] at h; cases h
    · rw [ht', tokenLines_nil, one s hs hs'] at h; cases h
    · rw [one s hs hs', one t ht ht'] at h; simpa using h
  · intro h; rw [h]

example : (∀ c ∈ b "abc", isWhite c = false) ∧ (∀ c ∈ b "abd", isWhite c = false) := by decide

/-! ## C02: sorted and unordered checkers -/

/-- C02.  Lines mode: multiset equality of the token lists of the non-empty lines. -/
theorem C02_sorted_lines (process judge : Bytes) :
    Checkers.sorted process judge "lines" = .ok true ↔
      ((neLines process).map tokens).Perm ((neLines judge).map tokens) := by
  have hp : ∀ s, dropEmpty (splitBy isLine s) = neLines s := by
    intro s; rw [dropEmpty_eq, splitBy_eq]; rfl
  have hm : ∀ x : List Bytes, x.map pySplit = x.map tokens := by
    intro x; exact List.map_congr_left (fun s _ => pySplit_eq s)
  simp only [Checkers.sorted, if_true, hp, hm]
  by_cases hl : (neLines process).length = (neLines judge).length
  · simp only [hl, ne_eq, not_true_eq_false, if_false, Except.ok.injEq]
    exact sortCompare_iff _ bytesListLe_total bytesListLe_antisymm bytesListLe_trans _ _ (by simpa using hl)
  · simp only [ne_eq, hl, not_false_eq_true, if_true, Except.ok.injEq, Bool.false_eq_true, false_iff]
    intro h
    have := h.length_eq
    simp only [List.length_map] at this
    exact hl this

/-- C02.  Whitespace mode (and `unordered`): multiset equality of the tokens. -/
theorem C02_sorted_whitespace (process judge : Bytes) :
    Checkers.sorted process judge "whitespace" = .ok true ↔ (tokens process).Perm (tokens judge) := by
  have hp : ∀ s, dropEmpty (splitBy isWhite s) = tokens s := by
    intro s; rw [dropEmpty_eq, splitBy_eq]; rfl
  simp only [Checkers.sorted, if_true, hp, show ("whitespace" : String) = "lines" ↔ False by decide, if_false]
  by_cases hl : (tokens process).length = (tokens judge).length
  · simp only [hl, ne_eq, not_true_eq_false, if_false, Except.ok.injEq]
    exact sortCompare_iff _ bytesLe_total bytesLe_antisymm bytesLe_trans _ _ hl
  · simp only [ne_eq, hl, not_false_eq_true, if_true, Except.ok.injEq, Bool.false_eq_true, false_iff]
    intro h
    exact hl h.length_eq

/-- C02.  The deprecated `unordered` checker is the whitespace mode. -/
theorem C02_unordered (process judge : Bytes) :
    unordered process judge = .ok true ↔ (tokens process).Perm (tokens judge) :=
  C02_sorted_whitespace process judge

/-- C02.  An error escapes exactly for an unknown mode, whatever the outputs. -/
theorem C02_sorted_error (process judge : Bytes) (mode : String) :
    (∃ e, Checkers.sorted process judge mode = .error e) ↔ mode ≠ "lines" ∧ mode ≠ "whitespace" := by
  unfold Checkers.sorted
  by_cases h1 : mode = "lines"
  · simp only [h1, if_true, ne_eq, not_true_eq_false, false_and, iff_false, not_exists]
    intro e; split <;> simp
  · by_cases h2 : mode = "whitespace"
    · subst h2
      simp only [h1, if_false, if_true, ne_eq, not_true_eq_false, and_false, iff_false, not_exists]
      intro e; split <;> simp
    · simp [h1, h2]

example : ((neLines (b "2 1\n3")).map tokens).Perm ((neLines (b "3\n2  1\n")).map tokens) := by decide
example : ¬ (tokens (b "1 1 2")).Perm (tokens (b "1 2 2")) := by decide

/-! ## C03: easy checker -/

theorem lowerByte_eq : ∀ c : Byte, lowerByte c = asciiLower c := by
  have h : ∀ n : Fin 256, lowerByte (UInt8.ofNat n.val) = asciiLower (UInt8.ofNat n.val) := by
    decide +kernel
  intro c
  have := h ⟨c.toNat, c.toNat_lt⟩
  simpa using this

/-- C03.  The easy checker is permutation equality of the significant bytes. -/
theorem C03_easy_spec (process judge : Bytes) :
    easy process judge = true ↔ (significant process).Perm (significant judge) := by
  have : ∀ s : Bytes, (s.filter (fun c => !isWhite c)).map lowerByte = significant s := by
    intro s; exact List.map_congr_left (fun c _ => lowerByte_eq c)
  simp only [easy, this]
  exact Counter.ofBytes_eq_iff _ _

example : easy (b "Hello World") (b "dlrow\nOLLEH") = true := by
  rw [C03_easy_spec]; decide
example : ¬ easy (b "aab") (b "abb") = true := by
  rw [C03_easy_spec]; decide

/-! ## C04: rstripped checker -/

/-- C04.  Without the filter: same lines up to trailing whitespace. -/
theorem C04_rstripped_spec (process judge : Bytes) :
    rstripped process judge false = true ↔
      (lines process).map trimRight = (lines judge).map trimRight := by
  simp only [rstripped, splitBy_eq, Bool.false_eq_true, if_false]
  change (if (lines process).length ≠ (lines judge).length then false else _) = true ↔ _
  by_cases hl : (lines process).length = (lines judge).length
  · simp only [hl, ne_eq, not_true_eq_false, if_false]
    exact rstrippedLoop_iff _ _ hl
  · simp only [ne_eq, hl, not_false_eq_true, if_true, Bool.false_eq_true, false_iff]
    intro h
    have := congrArg List.length h
    simp only [List.length_map] at this
    exact hl this

/-- C04.  With the filter: same non-empty lines up to trailing whitespace. -/
theorem C04_rstripped_filter_spec (process judge : Bytes) :
    rstripped process judge true = true ↔
      (neLines process).map trimRight = (neLines judge).map trimRight := by
  have hp : ∀ s, dropEmpty (splitBy isLine s) = neLines s := by
    intro s; rw [dropEmpty_eq, splitBy_eq]; rfl
  simp only [rstripped, if_true, hp]
  by_cases hl : (neLines process).length = (neLines judge).length
  · simp only [hl, ne_eq, not_true_eq_false, if_false]
    exact rstrippedLoop_iff _ _ hl
  · simp only [ne_eq, hl, not_false_eq_true, if_true, Bool.false_eq_true, false_iff]
    intro h
    have := congrArg List.length h
    simp only [List.length_map] at this
    exact hl this

/-- C04.  Acceptance is an equivalence relation. -/
theorem C04_rstripped_equivalence (f : Bool) :
    Equivalence (fun s t => rstripped s t f = true) := by
  cases f
  · exact ⟨fun s => (C04_rstripped_spec s s).2 rfl,
      fun h => (C04_rstripped_spec _ _).2 ((C04_rstripped_spec _ _).1 h).symm,
      fun h k => (C04_rstripped_spec _ _).2
        (((C04_rstripped_spec _ _).1 h).trans ((C04_rstripped_spec _ _).1 k))⟩
  · exact ⟨fun s => (C04_rstripped_filter_spec s s).2 rfl,
      fun h => (C04_rstripped_filter_spec _ _).2 ((C04_rstripped_filter_spec _ _).1 h).symm,
      fun h k => (C04_rstripped_filter_spec _ _).2
        (((C04_rstripped_filter_spec _ _).1 h).trans ((C04_rstripped_filter_spec _ _).1 k))⟩

example : rstripped (b "a \nb") (b "a\nb\t") false = true := by rw [C04_rstripped_spec]; decide
example : ¬ rstripped (b " a") (b "a") false = true := by rw [C04_rstripped_spec]; decide
example : ¬ rstripped (b "a\n\nb") (b "a\nb") false = true := by rw [C04_rstripped_spec]; decide
example : rstripped (b "a\n\nb") (b "a\nb") true = true := by rw [C04_rstripped_filter_spec]; decide

/-! ## C05: identical checker -/

/-- C05.  Passes exactly on byte equality; never awards points otherwise; reports a presentation
error exactly when allowed and the outputs have the same token lines; never faults. -/
theorem C05_identical_spec (process judge : Bytes) (peAllowed : Bool) :
    identical process judge peAllowed =
      some (if process = judge then .bool true
        else .result false 0
          (if peAllowed = true ∧ tokenLines process = tokenLines judge then some "Presentation Error, check your whitespace" else none)) := by
  unfold identical peFeedback
  by_cases h : process = judge
  · simp [h]
  · have h' : ¬ judge = process := fun e => h e.symm
    simp only [h, h', if_false]
    cases peAllowed
    · simp
    · have := C01_standard_spec process judge
      rw [standard] at this
      simp only [this, if_true, true_and, decide_eq_true_eq]

example : identical (b "1 2") (b "1  2") true = some (.result false 0 (some peFeedback)) := by
  rw [C05_identical_spec]; decide

/-! ## C06: linecount checker -/

/-- Number of positions at which both outputs have the same trimmed non-empty line. -/
def lineMatches (process judge : Bytes) : Nat :=
  (List.zip (neLines process) (neLines judge)).countP (fun q => trim q.1 = trim q.2)

theorem strip_eq (s : Bytes) : strip s = trim s := rfl

theorem neLines_eq (s : Bytes) : dropEmpty (splitBy isLine s) = neLines s := by
  rw [dropEmpty_eq, splitBy_eq]; rfl

/-- C06.  Exact outcome of the linecount checker. -/
theorem C06_linecount_spec (process judge : Bytes) (value : Rat) (fb : Bool) :
    linecount process judge value fb =
      if (neLines judge).length < (neLines process).length then .bool false
      else if neLines judge = [] then .bool true
      else .result (decide (lineMatches process judge = (neLines judge).length))
        (value * ((lineMatches process judge : Rat) / ((neLines judge).length : Rat)))
        (some (if fb then String.ofList ((List.range (neLines judge).length).map (fun i =>
          match (neLines process)[i]?, (neLines judge)[i]? with
          | some p, some j => if trim p = trim j then '✓' else '✗'
          | _, _ => '✗')) else "")) := by
  unfold linecount
  simp only [neLines_eq]
  by_cases hl : (neLines judge).length < (neLines process).length
  · simp [hl]
  · simp only [hl, if_false]
    by_cases hn : neLines judge = []
    · simp [hn]
    · have hne : (neLines judge).isEmpty = false := by simpa using hn
      simp only [hn, hne, Bool.false_eq_true, if_false]
      have hc : (linecountLoop (neLines process) (neLines judge)).2 = lineMatches process judge :=
        linecountLoop_count _ _
      have hm := linecountLoop_marks (neLines process) (neLines judge) (by omega)
      rw [hc, hm]
      rfl

/-- C06.  The award is within `[0, value]`, it is the full value iff all judge lines are matched
(for a positive value), and passing means all lines matched. -/
theorem C06_linecount_range (process judge : Bytes) (value : Rat) (hv : 0 ≤ value) (fb : Bool)
    (passed : Bool) (pts : Rat) (msg : Option String)
    (h : linecount process judge value fb = .result passed pts msg) :
    0 ≤ pts ∧ pts ≤ value ∧ (passed = true → pts = value) ∧
      (0 < value → passed = false → pts < value) ∧
      (fb = true → ∃ m, msg = some m ∧ m.length = (neLines judge).length) := by
  rw [C06_linecount_spec] at h
  split at h
  · cases h
  · rename_i hl
    split at h
    · cases h
    · rename_i hn
      have hpos : 0 < (neLines judge).length := List.length_pos_iff.2 hn
      have hposQ : (0 : Rat) < ((neLines judge).length : Rat) := by exact_mod_cast hpos
      have hle : lineMatches process judge ≤ (neLines judge).length := by
        unfold lineMatches
        refine le_trans List.countP_le_length ?_
        rw [List.length_zip]; exact Nat.min_le_right _ _
      have hleQ : (lineMatches process judge : Rat) ≤ ((neLines judge).length : Rat) := by
        exact_mod_cast hle
      have h0Q : (0 : Rat) ≤ (lineMatches process judge : Rat) := by positivity
      have hd0 : (0 : Rat) ≤ (lineMatches process judge : Rat) / ((neLines judge).length : Rat) := by
        positivity
      have hd1 : (lineMatches process judge : Rat) / ((neLines judge).length : Rat) ≤ 1 := by
        rw [div_le_one hposQ]; exact hleQ
      simp only [Outcome.result.injEq] at h
      obtain ⟨rfl, rfl, rfl⟩ := h
      refine ⟨by positivity, ?_, ?_, ?_, ?_⟩
      · calc value * _ ≤ value * 1 := mul_le_mul_of_nonneg_left hd1 hv
          _ = value := mul_one _
      · intro hp
        rw [decide_eq_true_iff] at hp
        rw [hp, div_self (ne_of_gt hposQ), mul_one]
      · intro hv' hp
        rw [decide_eq_false_iff_not] at hp
        have hlt : lineMatches process judge < (neLines judge).length := by omega
        have hltQ : (lineMatches process judge : Rat) < ((neLines judge).length : Rat) := by
          exact_mod_cast hlt
        have : (lineMatches process judge : Rat) / ((neLines judge).length : Rat) < 1 := by
          rw [div_lt_one hposQ]; exact hltQ
        calc value * _ < value * 1 := mul_lt_mul_of_pos_left this hv'
          _ = value := mul_one _
      · intro hf
        subst hf
        exact ⟨_, rfl, by simp⟩

example : linecount (b "1\n5\n3") (b "1\n2\n3\n4") 8 true = .result false 4 (some "✓✗✓✗") := by
  decide +kernel
example : linecount (b "1\n2\n3") (b "1\n2") 8 true = .bool false := by decide +kernel

end Verif.Props
