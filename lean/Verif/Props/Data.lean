import Verif.Model.Problem

/-! # C25, C27, C28, C31: test data -/

namespace Verif.Props
open Verif Problem

/-! ## C25 -/

private theorem crlf_append : ∀ (a b : Bytes), ¬ (a.getLast? = some 13 ∧ b.head? = some 10) →
    crlfToCr (a ++ b) = crlfToCr a ++ crlfToCr b
  | [], b, _ => by simp [crlfToCr]
  | [c], b, h => by
    cases b with
    | nil => simp [crlfToCr]
    | cons d r =>
      have : ¬ (c = 13 ∧ d = 10) := by simpa using h
      simp [crlfToCr, this]
  | c :: d :: r, b, h => by
    have ih1 := crlf_append r b
    have ih2 := crlf_append (d :: r) b
    simp only [List.cons_append, crlfToCr]
    split
    · rename_i hcd
      rw [ih1 (by
        rintro ⟨h1, h2⟩
        apply h
        cases r with
        | nil => simp at h1
        | cons x r => simpa using ⟨h1, h2⟩)]
      simp
    · rw [← List.cons_append, ih2 (by simpa using h)]
      simp

private theorem crlf_id : ∀ (a : Bytes), (13 : UInt8) ∉ a → crlfToCr a = a
  | [], _ => rfl
  | [c], _ => rfl
  | c :: d :: r, h => by
    have hc : c ≠ 13 := by rintro rfl; simp at h
    rw [crlfToCr, if_neg (by simp [hc]), crlf_id (d :: r) (by simp at h ⊢; exact h.2)]

private theorem crToLf_append (a b : Bytes) : crToLf (a ++ b) = crToLf a ++ crToLf b := by simp [crToLf]

private theorem crToLf_id (a : Bytes) (h : (13 : UInt8) ∉ a) : crToLf a = a := by
  have : crToLf a = a.map id := by
    apply List.map_congr_left
    intro c hc
    rw [if_neg (by rintro rfl; exact h hc), id]
  rw [this, List.map_id]

private theorem no_cr (a : Bytes) : (13 : UInt8) ∉ crToLf a := by
  simp only [crToLf, List.mem_map, not_exists, not_and]
  intro c _
  split
  · decide
  · assumption

private theorem crlf_nil : ∀ (a : Bytes), crlfToCr a = [] → a = []
  | [], _ => rfl
  | [c], h => by simp [crlfToCr] at h
  | c :: d :: r, h => by rw [crlfToCr] at h; split at h <;> simp at h

private theorem norm_text (s : Bytes) (h : s ≠ []) : normalize false (some s) =
    if (crToLf (crlfToCr s)).getLast? = some 10 then crToLf (crlfToCr s)
    else crToLf (crlfToCr s) ++ [10] := by
  have : s.isEmpty = false := by cases s <;> simp_all
  simp [normalize, this]

/-- C25.  Normalised text has no carriage return. -/
theorem C25_no_cr (data : Option Bytes) : (13 : UInt8) ∉ normalize false data := by
  cases data with
  | none => simp [normalize]
  | some s =>
    by_cases hs : s = []
    · simp [normalize, hs]
    · rw [norm_text s hs]
      split
      · exact no_cr _
      · simp [no_cr]

/-- C25.  Normalised non-empty text ends in a line feed. -/
theorem C25_ends (s : Bytes) (h : s ≠ []) : (normalize false (some s)).getLast? = some 10 := by
  rw [norm_text s h]
  split
  · assumption
  · simp

private theorem crlf_content : ∀ (s : Bytes), (crToLf (crlfToCr s)).filter (fun c => !isLine c) =
    s.filter (fun c => !isLine c)
  | [] => rfl
  | [c] => by
    simp only [crlfToCr, crToLf, List.map_cons, List.map_nil]
    split
    · rename_i h; subst h; rfl
    · rfl
  | c :: d :: r => by
    rw [crlfToCr]
    split
    · rename_i h
      obtain ⟨rfl, rfl⟩ := h
      simpa [crToLf, isLine] using crlf_content r
    · have ih := crlf_content (d :: r)
      simp only [crToLf, List.map_cons, List.filter_cons] at ih ⊢
      by_cases hc : c = 13
      · subst hc; simpa [isLine] using ih
      · simp only [hc, if_false]; split <;> simp [ih]

/-- C25.  All bytes other than newlines are kept, in order. -/
theorem C25_content (s : Bytes) : (normalize false (some s)).filter (fun c => !isLine c) =
    s.filter (fun c => !isLine c) := by
  by_cases hs : s = []
  · simp [normalize, hs]
  · rw [norm_text s hs]
    split
    · exact crlf_content s
    · rw [List.filter_append, crlf_content s]; simp [isLine]

/-- C25.  Text that already uses line feeds only and ends in one is unchanged. -/
theorem C25_unchanged (s : Bytes) (h : (13 : UInt8) ∉ s) (he : s.getLast? = some 10) :
    normalize false (some s) = s := by
  have hs : s ≠ [] := by rintro rfl; simp at he
  rw [norm_text s hs, crlf_id s h, crToLf_id s h, if_pos he]

/-- C25.  Idempotent, for text and binary data. -/
theorem C25_idempotent (binary : Bool) (data : Option Bytes) :
    normalize binary (some (normalize binary data)) = normalize binary data := by
  cases binary with
  | true => simp [normalize]
  | false =>
    cases data with
    | none => simp [normalize]
    | some s =>
      by_cases hs : s = []
      · simp [normalize, hs]
      · exact C25_unchanged _ (C25_no_cr _) (C25_ends s hs)

/-- C25.  Each newline convention anywhere in a text counts as one line feed: `\r\n` (when the `\r` is
not the second of `\r\r\n`'s prefix) and `\r` (when no `\n` follows). -/
theorem C25_newline (a b : Bytes) (ha : a.getLast? ≠ some 13) :
    normalize false (some (a ++ [13, 10] ++ b)) = normalize false (some (a ++ [10] ++ b)) ∧
    (b.head? ≠ some 10 →
      normalize false (some (a ++ [13] ++ b)) = normalize false (some (a ++ [10] ++ b))) := by
  have e2 : crlfToCr (a ++ [10] ++ b) = crlfToCr a ++ [10] ++ crlfToCr b := by
    rw [List.append_assoc, crlf_append a _ (by simp [ha]), crlf_append [10] b (by simp)]
    simp [crlfToCr]
  constructor
  · have e1 : crlfToCr (a ++ [13, 10] ++ b) = crlfToCr a ++ [13] ++ crlfToCr b := by
      rw [List.append_assoc, crlf_append a _ (by simp), crlf_append [13, 10] b (by simp)]
      simp [crlfToCr]
    rw [norm_text _ (by simp), norm_text _ (by simp), e1, e2]
    simp only [crToLf_append]
    rfl
  · intro hb
    have e1 : crlfToCr (a ++ [13] ++ b) = crlfToCr a ++ [13] ++ crlfToCr b := by
      rw [List.append_assoc, crlf_append a _ (by simp), crlf_append [13] b (by simp [hb])]
      simp [crlfToCr]
    rw [norm_text _ (by simp), norm_text _ (by simp), e1, e2]
    simp only [crToLf_append]
    rfl

/-- C25.  A file written with any one of the three newline conventions is turned into the same lines
terminated by line feeds; a last line without terminator gets one. -/
theorem C25_conventions (nl : Bytes) (hnl : nl = [13, 10] ∨ nl = [13] ∨ nl = [10]) (lines : List Bytes)
    (last : Bytes) (hl : ∀ l ∈ lines, ∀ c ∈ l, isLine c = false) (hlast : ∀ c ∈ last, isLine c = false) :
    normalize false (some ((lines.map (· ++ nl)).flatten ++ last)) =
      (lines.map (· ++ [10])).flatten ++ (if last = [] then [] else last ++ [10]) := by
  have notCr : ∀ l : Bytes, (∀ c ∈ l, isLine c = false) → (13 : UInt8) ∉ l := by
    intro l h hc; have := h 13 hc; simp [isLine] at this
  have head : ∀ (lines : List Bytes), (∀ l ∈ lines, ∀ c ∈ l, isLine c = false) → nl.getLast? = some 13 →
      ((lines.map (· ++ nl)).flatten ++ last).head? ≠ some 10 := by
    intro lines hl hn he
    have hnl' : nl.head? = some 13 := by rcases hnl with rfl | rfl | rfl <;> simp_all
    cases lines with
    | nil =>
      cases last with
      | nil => simp at he
      | cons c r => simp at he; have := hlast c (by simp); simp [he, isLine] at this
    | cons l ls =>
      cases l with
      | nil => cases nl <;> simp_all
      | cons c r => simp at he; have := hl (c :: r) (by simp) c (by simp); simp [he, isLine] at this
  have key : ∀ lines : List Bytes, (∀ l ∈ lines, ∀ c ∈ l, isLine c = false) →
      crToLf (crlfToCr ((lines.map (· ++ nl)).flatten ++ last)) =
        (lines.map (· ++ [10])).flatten ++ last := by
    intro lines
    induction lines with
    | nil =>
      intro _
      simp only [List.map_nil, List.flatten_nil, List.nil_append]
      rw [crlf_id _ (notCr _ hlast), crToLf_id _ (notCr _ hlast)]
    | cons l ls ih =>
      intro h
      have hl1 := h l (by simp)
      have ih := ih (fun x hx => h x (by simp [hx]))
      have hd := head ls (fun x hx => h x (by simp [hx]))
      simp only [List.map_cons, List.flatten_cons, List.append_assoc]
      rw [crlf_append l _ (by
        rintro ⟨h1, -⟩
        exact notCr l hl1 (List.mem_of_getLast? h1)),
        crlf_append nl _ (by rintro ⟨h1, h2⟩; exact hd h1 (by simpa using h2)),
        crToLf_append, crToLf_append, crlf_id l (notCr l hl1), crToLf_id l (notCr l hl1)]
      have hn : crToLf (crlfToCr nl) = [10] := by rcases hnl with rfl | rfl | rfl <;> rfl
      rw [hn, ih]
  have hk := key lines hl
  by_cases he : (lines.map (· ++ nl)).flatten ++ last = []
  · have h1 : last = [] := (List.append_eq_nil_iff.1 he).2
    have h2 : lines = [] := by
      cases lines with
      | nil => rfl
      | cons l ls =>
        rcases hnl with rfl | rfl | rfl <;> simp at he
    simp [h1, h2, normalize]
  · rw [norm_text _ he, hk]
    by_cases h1 : last = []
    · subst h1
      have : lines ≠ [] := by rintro rfl; simp at he
      have hne : (lines.map (· ++ [10])).flatten.getLast? = some (10 : UInt8) := by
        rcases List.eq_nil_or_concat lines with h | ⟨xs, x, rfl⟩
        · exact absurd h this
        · simp
      simp [hne]
    · rw [if_neg h1, if_neg]
      · simp
      · intro hlast10
        obtain ⟨x, hx⟩ : ∃ x, last.getLast? = some x := by
          cases hl : last.getLast? with
          | none => exact absurd (List.getLast?_eq_none_iff.1 hl) h1
          | some x => exact ⟨x, rfl⟩
        simp only [List.getLast?_append, hx, Option.some_or, Option.some.injEq] at hlast10
        have := hlast x (List.mem_of_getLast? hx)
        simp [hlast10, isLine] at this

/-- C25.  Binary data, empty data and missing data are left alone. -/
theorem C25_binary (s : Bytes) :
    normalize true (some s) = s ∧ normalize false (some []) = [] ∧ ∀ binary, normalize binary none = [] := by
  refine ⟨by simp [normalize], rfl, fun binary => ?_⟩
  cases binary <;> rfl

example : normalize false (some (b "a\r\n\rb\nc")) = b "a\n\nb\nc\n" := by decide +kernel
example : ∃ lines : List Bytes, lines = [b "x", b "", b "y z"] ∧ (∀ l ∈ lines, ∀ c ∈ l, isLine c = false) :=
  ⟨_, rfl, by decide +kernel⟩

/-! ## C27 -/

private theorem ensure_eq (w : DataWorld) (c : CaseCfg) (s : CaseState) :
    ∃ g, (ensure w c s).1.generated = some g ∧
      (s.generated = some g ∧ (ensure w c s).1 = s ∧ (ensure w c s).2 = .ok () ∨
       s.generated = none ∧ (ensure w c s).1.runs = s.runs + 1 ∧
         g = (normalize c.binary (w.run s.runs).stdout, normalize c.binary (w.run s.runs).stderr) ∧
         ((ensure w c s).2 = .ok () ↔ (w.run s.runs).bad = false)) := by
  unfold ensure
  cases h : s.generated with
  | some g => exact ⟨g, h, .inl ⟨rfl, rfl, rfl⟩⟩
  | none =>
    refine ⟨_, rfl, .inr ⟨rfl, rfl, rfl, ?_⟩⟩
    simp only [runGenerator]
    cases (w.run s.runs).bad <;> simp

/-- State after an access. -/
private theorem input_state (w : DataWorld) (c : CaseCfg) (s : CaseState) :
    (inputData w c s).1 = s ∨
      c.generator = true ∧ (c.out = none ∨ c.inp = none) ∧ (inputData w c s).1 = (ensure w c s).1 := by
  unfold inputData
  split
  · rename_i h
    right
    refine ⟨by simp_all, ?_, ?_⟩
    · simp only [Bool.and_eq_true, Bool.or_eq_true, Option.isNone_iff_eq_none] at h; exact h.2
    · rcases he : ensure w c s with ⟨s1, e | u⟩
      · rfl
      · simp only []
        split
        · split <;> rfl
        · rfl
  · exact .inl rfl

private theorem output_state (w : DataWorld) (c : CaseCfg) (s : CaseState) :
    (outputData w c s).1 = s ∨
      c.generator = true ∧ c.out = none ∧ (outputData w c s).1 = (ensure w c s).1 := by
  unfold outputData
  split
  · exact .inl rfl
  · rename_i ho
    split
    · rename_i hg
      right
      refine ⟨hg, ho, ?_⟩
      rcases he : ensure w c s with ⟨s1, e | u⟩
      · rfl
      · simp only []
        split <;> rfl
    · exact .inl rfl

/-- C27.  Between two `free_data` calls the generator runs at most once, whatever the order of the
accesses and whether or not it fails. -/
theorem C27_at_most_once (w : DataWorld) (c : CaseCfg) (s : CaseState) (as : List Access)
    (h : .free ∉ as) :
    (accesses w c s as).1.runs ≤ s.runs + 1 ∧
    (s.generated.isSome = true → (accesses w c s as).1 = s) := by
  induction as generalizing s with
  | nil => exact ⟨Nat.le_succ _, fun _ => rfl⟩
  | cons a as ih =>
    have ih := fun s => ih s (fun hm => h (List.mem_cons_of_mem _ hm))
    have step : ∀ s1 : CaseState, (s1 = s ∨ s1 = (ensure w c s).1) →
        (accesses w c s1 as).1.runs ≤ s.runs + 1 ∧
        (s.generated.isSome = true → (accesses w c s1 as).1 = s) := by
      rintro s1 (rfl | rfl)
      · exact ih s1
      · obtain ⟨g, hg, h1 | h1⟩ := ensure_eq w c s
        · rw [h1.2.1]; exact ih s
        · have := (ih (ensure w c s).1).2 (by simp [hg])
          rw [this]
          exact ⟨by omega, fun hs => by simp [h1.1] at hs⟩
    cases a with
    | free => exact absurd List.mem_cons_self h
    | input =>
      simp only [accesses]
      apply step
      rcases input_state w c s with h | h
      · exact .inl h
      · exact .inr h.2.2
    | output =>
      simp only [accesses]
      apply step
      rcases output_state w c s with h | h
      · exact .inl h
      · exact .inr h.2.2

/-- C27.  With both files configured the generator is never run, and the answers are the normalised
files. -/
theorem C27_explicit (w : DataWorld) (c : CaseCfg) (s : CaseState) (as : List Access) (i o : String)
    (hi : c.inp = some i) (ho : c.out = some o) :
    (accesses w c s as).1.runs = s.runs ∧
    ∀ p ∈ (accesses w c s as).2,
      (p.1 = .input ∧ p.2 = (w.files i).elim (.error .missing) (fun d => .ok (normalize c.binary (some d)))) ∨
      (p.1 = .output ∧ p.2 = (w.files o).elim (.error .missing) (fun d => .ok (normalize c.binary (some d)))) := by
  have hread : ∀ f, readFile w c f =
      (w.files f).elim (.error .missing) (fun d => .ok (normalize c.binary (some d))) := by
    intro f; unfold readFile; cases w.files f <;> rfl
  have h1 : ∀ s, inputData w c s = (s, readFile w c i) := by
    intro s; simp [inputData, hi, ho, inFile]
  have h2 : ∀ s, outputData w c s = (s, readFile w c o) := by
    intro s; simp [outputData, ho]
  induction as generalizing s with
  | nil => simp [accesses]
  | cons a as ih =>
    cases a with
    | input =>
      simp only [accesses, h1]
      refine ⟨(ih s).1, ?_⟩
      intro p hp
      rcases List.mem_cons.1 hp with rfl | hp
      · exact .inl ⟨rfl, hread i⟩
      · exact (ih s).2 p hp
    | output =>
      simp only [accesses, h2]
      refine ⟨(ih s).1, ?_⟩
      intro p hp
      rcases List.mem_cons.1 hp with rfl | hp
      · exact .inr ⟨rfl, hread o⟩
      · exact (ih s).2 p hp
    | free => exact ih (freeData s)

/-- C27.  The expected output is the configured output file whenever there is one: in every state, and
without running anything. -/
theorem C27_output_file (w : DataWorld) (c : CaseCfg) (s : CaseState) (o : String) (ho : c.out = some o)
    (d : Bytes) (hd : w.files o = some d) : outputData w c s = (s, .ok (normalize c.binary (some d))) := by
  simp [outputData, ho, readFile, hd]

/-- C27.  Without a generator, a case that names no input file runs on empty input, and one that names no output file expects no output. -/
theorem C27_no_files (w : DataWorld) (c : CaseCfg) (s : CaseState) (hg : c.generator = false) :
    (c.inp = none → inputData w c s = (s, .ok [])) ∧ (c.out = none → outputData w c s = (s, .ok [])) := by
  constructor
  · intro hi; simp [inputData, hg, inFile, hi]
  · intro ho; simp [outputData, hg, ho]

example : ∃ c : CaseCfg, c.generator = false ∧ c.inp = none ∧ c.out = some "1.out" := ⟨⟨false, none, some "1.out", false⟩, rfl, rfl, rfl⟩

/-- C27.  Input and expected output of a generated case come from one and the same generator run,
however often and in which order they are asked for. -/
theorem C27_same_run (w : DataWorld) (c : CaseCfg) (n : Nat) (as : List Access) (h : .free ∉ as)
    (hg : c.generator = true) (ho : c.out = none) (hok : (w.run n).bad = false)
    (hne : normalize c.binary (w.run n).stdout ≠ []) :
    ∀ p ∈ (accesses w c ⟨none, n⟩ as).2,
      (p.1 = .input ∧ p.2 = .ok (normalize c.binary (w.run n).stdout)) ∨
      (p.1 = .output ∧ p.2 = .ok (normalize c.binary (w.run n).stderr)) := by
  -- once generated, the answers are fixed
  have fixed : ∀ (as : List Access) (s : CaseState), .free ∉ as → s.generated =
      some (normalize c.binary (w.run n).stdout, normalize c.binary (w.run n).stderr) →
      ∀ p ∈ (accesses w c s as).2,
      (p.1 = .input ∧ p.2 = .ok (normalize c.binary (w.run n).stdout)) ∨
      (p.1 = .output ∧ p.2 = .ok (normalize c.binary (w.run n).stderr)) := by
    intro as
    induction as with
    | nil => intro s _ _ p hp; simp [accesses] at hp
    | cons a as ih =>
      intro s hf hs p hp
      have hf' : .free ∉ as := fun hm => hf (List.mem_cons_of_mem _ hm)
      cases a with
      | free => exact absurd List.mem_cons_self hf
      | input =>
        have : inputData w c s = (s, .ok (normalize c.binary (w.run n).stdout)) := by
          simp [inputData, hg, ho, ensure, hs, hne]
        simp only [accesses, this] at hp
        rcases List.mem_cons.1 hp with rfl | hp
        · exact .inl ⟨rfl, rfl⟩
        · exact ih s hf' hs p hp
      | output =>
        have : outputData w c s = (s, .ok (normalize c.binary (w.run n).stderr)) := by
          simp [outputData, hg, ho, ensure, hs]
        simp only [accesses, this] at hp
        rcases List.mem_cons.1 hp with rfl | hp
        · exact .inr ⟨rfl, rfl⟩
        · exact ih s hf' hs p hp
  intro p hp
  cases as with
  | nil => simp [accesses] at hp
  | cons a as =>
    have hf' : .free ∉ as := fun hm => h (List.mem_cons_of_mem _ hm)
    cases a with
    | free => exact absurd List.mem_cons_self h
    | input =>
      have : inputData w c ⟨none, n⟩ = ((ensure w c ⟨none, n⟩).1, .ok (normalize c.binary (w.run n).stdout)) := by
        simp [inputData, hg, ho, ensure, runGenerator, hok, hne]
      simp only [accesses, this] at hp
      rcases List.mem_cons.1 hp with rfl | hp
      · exact .inl ⟨rfl, rfl⟩
      · exact fixed as _ hf' rfl p hp
    | output =>
      have : outputData w c ⟨none, n⟩ = ((ensure w c ⟨none, n⟩).1, .ok (normalize c.binary (w.run n).stderr)) := by
        simp [outputData, hg, ho, ensure, runGenerator, hok]
      simp only [accesses, this] at hp
      rcases List.mem_cons.1 hp with rfl | hp
      · exact .inr ⟨rfl, rfl⟩
      · exact fixed as _ hf' rfl p hp

/-- C27.  Freed data is gone: the next generated access runs the generator again. -/
theorem C27_freed (w : DataWorld) (c : CaseCfg) (s : CaseState) (as : List Access)
    (hg : c.generator = true) (ho : c.out = none) :
    (accesses w c s (as ++ [.free])).1.generated = none ∧
    (accesses w c s (as ++ [.free, .output])).1.runs = (accesses w c s as).1.runs + 1 := by
  have app : ∀ (as bs : List Access) s, (accesses w c s (as ++ bs)).1 = (accesses w c (accesses w c s as).1 bs).1 := by
    intro as
    induction as with
    | nil => intro bs s; rfl
    | cons a as ih =>
      intro bs s
      cases a <;> simp [accesses, ih]
  constructor
  · rw [app]; rfl
  · rw [app]
    simp only [accesses, outputData, ho, hg, freeData]
    simp only [ensure, runGenerator]
    cases (w.run (accesses w c s as).1.runs).bad <;> simp

/-- C27.  A failing generator is reported only once: the access that ran it raises, the next one
answers with the output of the failed run. -/
theorem C27_failed_run_fails : ∃ (w : DataWorld) (c : CaseCfg),
    (accesses w c ⟨none, 0⟩ [.input, .input]).2 =
      [(.input, .error .generator), (.input, .ok (b "x\n"))] :=
  ⟨⟨fun _ => none, fun _ => ⟨some (b "x"), none, true⟩⟩, ⟨true, none, none, false⟩, by rfl⟩

example : (accesses ⟨fun _ => none, fun _ => ⟨some (b "1"), some (b "2"), false⟩⟩
    ⟨true, none, none, false⟩ ⟨none, 0⟩ [.input, .output, .input]).2 =
    [(.input, .ok (b "1\n")), (.output, .ok (b "2\n")), (.input, .ok (b "1\n"))] := by rfl

/-! ## C28 -/

/-- C28.  Memory wins over the directory, the directory over the archive; the lookup fails exactly
when none of them has the file. -/
theorem C28_lookup (mem dir : String → Option Bytes) (archive : Option (String → Option Bytes))
    (key : String) (d : Bytes) :
    (dataLookup mem dir archive key = .found d ↔
      mem key = some d ∨ (mem key = none ∧ dir key = some d) ∨
      (mem key = none ∧ dir key = none ∧ ∃ z, archive = some z ∧ z key = some d)) ∧
    (dataLookup mem dir archive key = .keyError ↔
      mem key = none ∧ dir key = none ∧ ∀ z, archive = some z → z key = none) := by
  unfold dataLookup
  cases hm : mem key with
  | some x => simp
  | none =>
    cases hd : dir key with
    | some x => simp
    | none =>
      cases archive with
      | none => simp
      | some z => cases hz : z key <;> simp [hz]

example : dataLookup (fun _ => none) (fun k => if k = "a" then some [1] else none)
    (some fun _ => some [2]) "a" = .found [1] := by decide +kernel

/-! ## C31 -/

/-- C31.  If some configured root has the problem, the returned root has it too; it is the cached one if
that still has the problem, otherwise the first configured one. -/
theorem C31_root_partial {R : Type} (has : R → String → Bool) (roots : List R) (cache : RootCache R)
    (id : String) (h : ∃ r ∈ roots, has r id = true) :
    ∃ r, (getProblemRoot has roots cache id).2 = some r ∧ has r id = true ∧
      (cache.lookup id = some r ∨
        (∃ pre post, roots = pre ++ r :: post ∧ ∀ q ∈ pre, has q id = false)) := by
  have hf : ∃ r, roots.find? (has · id) = some r := by
    cases hf : roots.find? (has · id) with
    | some r => exact ⟨r, rfl⟩
    | none =>
      obtain ⟨r, hr, hh⟩ := h
      exact absurd hh (by simpa using List.find?_eq_none.1 hf r hr)
  obtain ⟨r, hf⟩ := hf
  have hfirst : has r id = true ∧ ∃ pre post, roots = pre ++ r :: post ∧ ∀ q ∈ pre, has q id = false := by
    obtain ⟨h1, pre, post, h2, h3⟩ := List.find?_eq_some_iff_append.1 hf
    exact ⟨h1, pre, post, h2, fun q hq => by simpa using h3 q hq⟩
  unfold getProblemRoot
  cases hc : cache.lookup id with
  | none => exact ⟨r, by simp [hf], hfirst.1, .inr hfirst.2⟩
  | some q =>
    by_cases hq : has q id = true
    · exact ⟨q, by simp [hq, hc], hq, .inl rfl⟩
    · exact ⟨r, by simp [hq, hf], hfirst.1, .inr hfirst.2⟩

/-- C31.  A problem that no root has, and that was never found before, is an error. -/
theorem C31_unknown {R : Type} (calls : List ((R → String → Bool) × List R × String)) (id : String)
    (h : ∀ c ∈ calls, c.2.2 = id → ∀ r ∈ c.2.1, c.1 r id = false)
    (has : R → String → Bool) (roots : List R) (hn : ∀ r ∈ roots, has r id = false) :
    (getProblemRoot has roots (rootCalls [] calls) id).2 = none := by
  have hfind : ∀ (has : R → String → Bool) (roots : List R), (∀ r ∈ roots, has r id = false) →
      roots.find? (has · id) = none := by
    intro has roots hn
    rw [List.find?_eq_none]
    intro r hr; simp [hn r hr]
  have one : ∀ (has : R → String → Bool) (roots : List R) (cache : RootCache R) (id' : String),
      cache.lookup id = none → (id' = id → ∀ r ∈ roots, has r id = false) →
      (getProblemRoot has roots cache id').1.lookup id = none := by
    intro has roots cache id' hc hn
    have hkeep : ∀ r, id' ≠ id → List.lookup id ((id', r) :: cache) = none := by
      intro r hne
      rw [List.lookup_cons]
      have : (id == id') = false := by simpa using Ne.symm hne
      simp [this, hc]
    by_cases he : id' = id
    · subst he
      simp [getProblemRoot, hc, hfind has roots (hn rfl)]
    · unfold getProblemRoot
      simp only
      cases cache.lookup id' with
      | none => cases roots.find? (has · id') <;> simp [hc, hkeep _ he]
      | some q => by_cases hq : has q id' = true <;> simp only [hq, if_true] <;>
          first | exact hc | (cases roots.find? (has · id') <;> simp [hc, hkeep _ he])
  have all : ∀ (calls : List ((R → String → Bool) × List R × String)) (cache : RootCache R),
      (∀ c ∈ calls, c.2.2 = id → ∀ r ∈ c.2.1, c.1 r id = false) → cache.lookup id = none →
      (rootCalls cache calls).lookup id = none := by
    intro calls
    induction calls with
    | nil => exact fun _ _ h => h
    | cons c calls ih =>
      intro cache hc h0
      exact ih _ (fun x hx => hc x (List.mem_cons_of_mem _ hx))
        (one c.1 c.2.1 cache c.2.2 h0 (hc c List.mem_cons_self))
  have := one has roots (rootCalls [] calls) id (all calls [] h rfl) (fun _ => hn)
  simpa [getProblemRoot] using this

/-- C31.  A problem that has disappeared from all roots is still "found" in its old place. -/
theorem C31_stale_fails : ∃ (calls : List ((Nat → String → Bool) × List Nat × String)),
    (getProblemRoot (fun _ _ => false) [0, 1] (rootCalls [] calls) "aplusb").2 = some 1 :=
  ⟨[(fun r _ => r == 1, [0, 1], "aplusb")], by decide +kernel⟩

example : ∃ r ∈ [0, 1, 2], (fun (r : Nat) (_ : String) => decide (r ≥ 1)) r "p" = true := ⟨1, by decide⟩
example : (getProblemRoot (fun (r : Nat) _ => decide (r ≥ 1)) [0, 1, 2] [("p", 0)] "p").2 = some 1 := by
  decide +kernel

end Verif.Props
