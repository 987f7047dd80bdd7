import Verif.Spec.Verdict
import Verif.Model.Checkers
import Verif.Lemmas.Partial
import Mathlib.Data.Nat.Bitwise
import Mathlib.Data.List.Nodup
import Mathlib.Tactic.Linarith
import Mathlib.Algebra.Order.Field.Rat
import Mathlib.Algebra.Order.Field.Basic
import Mathlib.Tactic.Positivity

/-! # C08, C09, C10, C42, C52, C53: verdicts and points -/

namespace Verif.Props
open Verif Spec Verif.Process Verif.Grading Verif.Result

/-! ## C08 -/

private theorem hasCode_pow (flag : Int) (k : Nat) : hasCode flag (2 ^ k) = flag.testBit k := by
  unfold hasCode
  cases flag with
  | ofNat m =>
    have : Int.land (Int.ofNat m) ((2 ^ k : Nat) : Int) = ((m &&& 2 ^ k : Nat) : Int) := rfl
    rw [this, Nat.and_two_pow]
    show _ = m.testBit k
    have h2 : 2 ^ k ≠ 0 := by positivity
    cases h : m.testBit k <;> simp
  | negSucc m =>
    have : Int.land (Int.negSucc m) ((2 ^ k : Nat) : Int) = ((Nat.ldiff (2 ^ k) m : Nat) : Int) := rfl
    rw [this]
    show _ = !(m.testBit k)
    cases h : m.testBit k with
    | true =>
      have : Nat.ldiff (2 ^ k) m = 0 := by
        apply Nat.eq_of_testBit_eq
        intro i
        rw [Nat.testBit_ldiff, Nat.testBit_two_pow]
        by_cases hik : k = i
        · subst hik; simp [h]
        · simp [hik]
      simp [this]
    | false =>
      have : Nat.ldiff (2 ^ k) m ≠ 0 := by
        intro h0
        have := Nat.testBit_ldiff (2 ^ k) m k
        rw [h0, Nat.testBit_two_pow, h] at this
        simp at this
      simpa using this

private theorem displayOrder_eq : displayOrder = priority.map (fun c => (c.1, 2 ^ c.2)) := by decide

private theorem mainLoop_eq (flag : Int) (l : List (String × Nat)) :
    mainLoop flag (l.map (fun c => (c.1, 2 ^ c.2))) =
      match l.filter (fun c => flag.testBit c.2) with
      | [] => 0
      | c :: _ => 2 ^ c.2 := by
  induction l with
  | nil => rfl
  | cons c l ih =>
    simp only [List.map_cons, mainLoop, hasCode_pow]
    cases h : flag.testBit c.2 <;> simp [h, ih]

private theorem readableLoop_eq (flag : Int) (l : List (String × Nat)) :
    readableLoop flag (l.map (fun c => (c.1, 2 ^ c.2))) =
      (l.filter (fun c => flag.testBit c.2)).map Prod.fst := by
  induction l with
  | nil => rfl
  | cons c l ih =>
    simp only [List.map_cons, readableLoop, hasCode_pow]
    cases h : flag.testBit c.2 <;> simp [h, ih]

/-- C08.  The main code is that of the most important code present, and 0 (AC) if none is. -/
theorem C08_main_code (flag : Int) :
    getMainCode flag =
      match presentCodes flag with
      | [] => 0
      | c :: _ => 2 ^ c.2 := by
  rw [getMainCode, displayOrder_eq, mainLoop_eq]; rfl

/-- C08.  AC exactly if no code is present. -/
theorem C08_ac_iff (flag : Int) : getMainCode flag = 0 ↔ ∀ c ∈ priority, flag.testBit c.2 = false := by
  rw [C08_main_code]
  cases h : presentCodes flag with
  | nil =>
    simp only [true_iff]
    simpa [presentCodes, List.filter_eq_nil_iff] using h
  | cons c l =>
    have hc : c ∈ presentCodes flag := by rw [h]; simp
    simp only [presentCodes, List.mem_filter] at hc
    constructor
    · intro h0; simp at h0
    · intro hall; rw [hall c hc.1] at hc; simp at hc

/-- C08.  The readable list is exactly the codes present, in order of priority, or `AC` alone. -/
theorem C08_readable (flag : Int) :
    readableCodes flag =
      if presentCodes flag = [] then ["AC"] else (presentCodes flag).map Prod.fst := by
  rw [readableCodes, displayOrder_eq, readableLoop_eq]
  change (match (presentCodes flag).map Prod.fst with | [] => ["AC"] | l => l) = _
  cases presentCodes flag <;> simp

/-- C08.  It is never empty, has no duplicates, and is headed by the main code. -/
theorem C08_readable_shape (flag : Int) :
    readableCodes flag ≠ [] ∧ (readableCodes flag).Nodup ∧
    (getMainCode flag = 0 ∧ readableCodes flag = ["AC"] ∨
      ∃ c ∈ priority, getMainCode flag = 2 ^ c.2 ∧ (readableCodes flag).head? = some c.1) := by
  have hnd : ((presentCodes flag).map Prod.fst).Nodup := by
    have : (priority.map Prod.fst).Nodup := by decide
    exact this.sublist (List.Sublist.map _ List.filter_sublist)
  rw [C08_readable, C08_main_code]
  cases h : presentCodes flag with
  | nil => simp
  | cons c l =>
    have hc : c ∈ presentCodes flag := by rw [h]; simp
    refine ⟨by simp, ?_, Or.inr ⟨c, (List.mem_filter.1 hc).1, rfl, by simp⟩⟩
    rw [h] at hnd; simpa using hnd

example : readableCodes 0b1000110 = ["TLE", "OLE", "RTE"] ∧ getMainCode 0b1000110 = 4 := by decide
example : readableCodes 0 = ["AC"] ∧ readableCodes (-1) = priority.map Prod.fst := by decide +kernel

/-! ## C42 -/

private theorem testBit_ite_or (c : Bool) (f g k : Nat) :
    (if c then f ||| g else f).testBit k = (f.testBit k || (c && g.testBit k)) := by
  cases c <;> simp

private theorem isTle_iff (p : Proc) : p.isTle = true ↔ TimeExceeded p := by
  simp only [Proc.isTle, TimeExceeded, Bool.or_eq_true, Bool.and_eq_true, decide_eq_true_eq,
    Nat.pos_iff_ne_zero, or_assoc, gt_iff_lt]

private theorem isMle_iff (p : Proc) : p.isMle = true ↔ MemoryExceeded p := by
  simp only [Proc.isMle, MemoryExceeded, Bool.and_eq_true, decide_eq_true_eq, Nat.pos_iff_ne_zero,
    gt_iff_lt]

/-- C42.  Exactly the prescribed bits are added, each exactly under its condition. -/
theorem C42_flag_bits (p : Proc) (flag0 k : Nat) :
    (p.flags flag0).testBit k = true ↔
      flag0.testBit k = true ∨
      (k = 4 ∧ 0 < p.returncode) ∨ (k = 1 ∧ p.returncode < 0) ∨ (k = 6 ∧ p.markedOle = true) ∨
      (k = 2 ∧ TimeExceeded p) ∨ (k = 3 ∧ MemoryExceeded p) := by
  simp only [Proc.flags, testBit_ite_or, Bool.or_eq_true, Bool.and_eq_true, isTle_iff, isMle_iff, or_assoc]
  have e : ∀ j, (1 <<< j).testBit k = true ↔ k = j := by
    intro j; rw [Nat.one_shiftLeft, Nat.testBit_two_pow]; simp [eq_comm]
  simp only [IR, RTE, OLE, TLE, MLE, e, Proc.isIr, Proc.isRte, Proc.isOle, decide_eq_true_eq]
  tauto

/-- C42.  A process gets no flag exactly when it exited with 0 inside all limits. -/
theorem C42_clean_iff (p : Proc) : p.flags 0 = 0 ↔ Clean p := by
  constructor
  · intro h
    have hk : ∀ k, ¬ (p.flags 0).testBit k = true := by intro k; rw [h]; simp
    simp only [C42_flag_bits] at hk
    have h4 := hk 4; have h1 := hk 1; have h6 := hk 6; have h2 := hk 2; have h3 := hk 3
    simp [TimeExceeded, MemoryExceeded] at h4 h1 h6 h2 h3
    refine ⟨by omega, h2.1, h2.2.1, ?_, ?_, h6⟩
    · rcases Nat.eq_zero_or_pos p.timeLimit with h | h
      · exact Or.inl h
      · exact Or.inr (h2.2.2 h)
    · rcases Nat.eq_zero_or_pos p.memLimit with h | h
      · exact Or.inl h
      · exact Or.inr (h3 h)
  · intro ⟨h1, h2, h3, h4, h5, h6⟩
    apply Nat.eq_of_testBit_eq
    intro k
    rw [Nat.zero_testBit, ← Bool.not_eq_true, C42_flag_bits]
    simp only [TimeExceeded, MemoryExceeded, h1, h2, h3, h6, Nat.zero_testBit]
    simp only [Bool.false_eq_true, lt_irrefl, and_false, false_or, not_or, not_and]
    refine ⟨fun _ _ => by omega, fun _ _ => by omega⟩

/-- C42.  The Mono executor adds only MLE, and only for an allocation failure reported by a process
that exited nonzero. -/
theorem C42_mono (p : Proc) (gc : Bool) (flag0 k : Nat) :
    (p.monoFlags gc flag0).testBit k = true ↔
      (p.flags flag0).testBit k = true ∨ (k = 3 ∧ gc = true ∧ 0 < p.returncode) := by
  have e : (MLE).testBit k = true ↔ k = 3 := by
    rw [MLE, Nat.one_shiftLeft, Nat.testBit_two_pow]; simp [eq_comm]
  simp only [Proc.monoFlags]
  rw [testBit_ite_or]
  simp only [Bool.or_eq_true, Bool.and_eq_true, e, Proc.isIr, decide_eq_true_eq]
  tauto

/-- A clean process. -/
def okProc : Proc := ⟨0, 10, 5, 10, 5, false, false, false, false⟩
/-- A process killed by a signal. -/
def crashed : Proc := { okProc with returncode := -11 }

example : Clean okProc := ⟨rfl, rfl, rfl, by decide, by decide, rfl⟩
example : ({ okProc with execTime := 11, maxMemory := 11, returncode := 3 } : Proc).flags 0
    = TLE ||| MLE ||| IR := by decide

/-! ## C09 -/

private theorem finish_ok {flag : Nat} {pf : String} {casePoints : Rat} {a : CheckAns} {r : CaseResult}
    (h : finish flag pf casePoints a = .ok r) :
    ∃ q, verdict casePoints a = some q ∧ a ≠ .unicodeError ∧ r.points = q.2 ∧
      r.flag = flag ||| (if q.1 then 0 else 1) := by
  cases a with
  | bool v =>
    cases v <;> (simp only [finish, toCheckerResult] at h; cases h; refine ⟨_, rfl, by simp, rfl, rfl⟩)
  | result p pts fb =>
    simp only [finish, toCheckerResult] at h; cases h; exact ⟨_, rfl, by simp, rfl, rfl⟩
  | other t => simp [finish, toCheckerResult] at h
  | unicodeError => simp [finish, toCheckerResult] at h
  | raised => simp [finish, toCheckerResult] at h

private theorem or_wa_eq_zero (f : Nat) (q : Bool) : (f ||| (if q then 0 else 1)) = 0 ↔ f = 0 ∧ q = true := by
  cases q <;> simp

private theorem testBit_or_wa (f : Nat) (q : Bool) (k : Nat) :
    (f ||| (if q then 0 else 1)).testBit k = true ↔ f.testBit k = true ∨ (k = 0 ∧ q = false) := by
  cases q
  · have : (1 : Nat).testBit k = true ↔ k = 0 := by
      rw [show (1 : Nat) = 2 ^ 0 from rfl, Nat.testBit_two_pow]; simp [eq_comm]
    simp only [Nat.testBit_or, Bool.or_eq_true, Bool.false_eq_true, if_false, this, and_true]
  · simp

/-- C09.  If the process did something wrong and the checker does not ask to be run on errors, the
case gets 0 points and WA besides the process's flags, whatever the checker would do. -/
theorem C09_error_not_checked (p : Proc) (pf : String) (value : Rat) (checker : Nat → CheckAns)
    (h : ¬ Clean p) :
    gradeStandard p pf value false checker = .ok ⟨p.flags 0 ||| WA, 0, pf⟩ := by
  rw [← C42_clean_iff] at h
  simp [gradeStandard, checkResult, h, finish, toCheckerResult, orFeedback]

/-- C09.  Otherwise the case is graded by what the checker says about it: an illegal answer or an
exception is an error, else points are the checker's and WA is added exactly if it failed. -/
theorem C09_checked (p : Proc) (pf : String) (value : Rat) (runOnError : Bool)
    (checker : Nat → CheckAns) (h : Clean p ∨ runOnError = true) :
    match verdict value (checker (p.flags 0)) with
    | none => ∃ e, gradeStandard p pf value runOnError checker = .error e
    | some (passed, points) =>
      ∃ fb, gradeStandard p pf value runOnError checker =
        .ok ⟨p.flags 0 ||| (if passed then 0 else 1), points, fb⟩ := by
  have hc : (p.flags 0 = 0 || runOnError) = true := by
    rcases h with h | h
    · simp [(C42_clean_iff p).2 h]
    · simp [h]
  simp only [gradeStandard, checkResult]
  rw [if_pos hc]
  cases hk : checker (p.flags 0) with
  | bool v => cases v <;> exact ⟨_, rfl⟩
  | result q pts fb => exact ⟨_, rfl⟩
  | other t => exact ⟨_, rfl⟩
  | unicodeError => exact ⟨_, rfl⟩
  | raised => exact ⟨_, rfl⟩

/-- C09.  A graded case is AC exactly when the process did nothing wrong and the checker passed. -/
theorem C09_ac_iff (p : Proc) (pf : String) (value : Rat) (runOnError : Bool)
    (checker : Nat → CheckAns) (r : CaseResult)
    (h : gradeStandard p pf value runOnError checker = .ok r) :
    r.flag = 0 ↔ Clean p ∧ ∃ pts, verdict value (checker 0) = some (true, pts) := by
  by_cases hc : Clean p
  · have hf := (C42_clean_iff p).2 hc
    have := C09_checked p pf value runOnError checker (Or.inl hc)
    rw [hf] at this
    cases hv : verdict value (checker 0) with
    | none => rw [hv] at this; obtain ⟨e, he⟩ := this; rw [h] at he; cases he
    | some q =>
      rw [hv] at this
      obtain ⟨fb, he⟩ := this
      rw [h] at he; cases he
      obtain ⟨q1, q2⟩ := q
      cases q1 <;> simp [hc]
  · simp only [hc, false_and, iff_false]
    have hf := (C42_clean_iff p).not.2 hc
    obtain ⟨q, _, _, _, hq⟩ := finish_ok h
    rw [hq, or_wa_eq_zero]
    tauto

/-- C09.  The verdict of a case always contains every flag of its process. -/
theorem C09_flags_kept (p : Proc) (pf : String) (value : Rat) (runOnError : Bool)
    (checker : Nat → CheckAns) (r : CaseResult) (k : Nat)
    (h : gradeStandard p pf value runOnError checker = .ok r)
    (hk : (p.flags 0).testBit k = true) : r.flag.testBit k = true := by
  obtain ⟨q, _, _, _, hq⟩ := finish_ok h
  rw [hq, testBit_or_wa]; exact Or.inl hk

/-- C09.  The text shown with a case is the checker's if it gives one that is not empty, otherwise what is known of the
process; a checker that chokes on the output's encoding says so. -/
theorem C09_feedback (p : Proc) (pf : String) (value : Rat) (runOnError : Bool) (checker : Nat → CheckAns) (r : CaseResult)
    (h : gradeStandard p pf value runOnError checker = .ok r) :
    (Clean p ∨ runOnError = true →
      (∀ q pts t, checker (p.flags 0) = .result q pts (some t) → t ≠ "" → r.feedback = t) ∧
      (∀ q pts, checker (p.flags 0) = .result q pts (some "") → r.feedback = pf) ∧
      (∀ q pts, checker (p.flags 0) = .result q pts none → r.feedback = pf) ∧
      (∀ q, checker (p.flags 0) = .bool q → r.feedback = pf) ∧
      (checker (p.flags 0) = .unicodeError → r.feedback = "invalid unicode" ∧ r.points = 0)) ∧
    (¬ Clean p → runOnError = false → r.feedback = pf) := by
  refine ⟨fun hc => ?_, fun hc hr => ?_⟩
  · have hc : (p.flags 0 = 0 || runOnError) = true := by
      rcases hc with h | h
      · simp [(C42_clean_iff p).2 h]
      · simp [h]
    simp only [gradeStandard, checkResult] at h
    rw [if_pos hc] at h
    refine ⟨fun q pts t e ht => ?_, fun q pts e => ?_, fun q pts e => ?_, fun q e => ?_, fun e => ?_⟩ <;>
      (rw [e] at h; simp only [finish, toCheckerResult, orFeedback] at h; cases h; simp_all)
  · subst hr
    rw [C09_error_not_checked p pf value checker hc] at h
    cases h
    rfl

example : gradeStandard okProc "exit" 5 false (fun _ => .result true 5 (some "fine")) = .ok ⟨0, 5, "fine"⟩ := by decide +kernel
example : gradeStandard okProc "exit" 5 false (fun _ => .result true 5 (some "")) = .ok ⟨0, 5, "exit"⟩ := by decide +kernel

example : gradeStandard okProc "" 5 false (fun _ => .bool true) = .ok ⟨0, 5, ""⟩ := by decide +kernel
example : ¬ Clean crashed := fun h => by cases h.exit
example : gradeStandard crashed "" 5 false (fun _ => .bool true) = .ok ⟨RTE ||| WA, 0, ""⟩ := by
  decide +kernel

/-- The linecount checker as a `CheckAns`. -/
def linecountAns (process judge : Bytes) (value : Rat) : CheckAns :=
  match Checkers.linecount process judge value true with
  | .bool v => .bool v
  | .result p pts fb => .result p pts fb

/-- C09 fails for a checker that asks to be run on errors: with the linecount checker, a process that crashed on a case with an empty reference
output gets all points of it, and is not marked wrong. -/
theorem C09_linecount_fails (value : Rat) : ∃ (p : Proc) (r : CaseResult), ¬ Clean p ∧
    gradeStandard p "" value Checkers.linecountRunOnError (fun _ => linecountAns (b "") (b "") value) = .ok r ∧
      r.points = value ∧ r.flag.testBit 0 = false := by
  have h1 : ¬ Clean crashed := fun h => by cases h.exit
  have h2 : linecountAns (b "") (b "") value = .bool true := rfl
  have h3 : crashed.flags 0 = RTE := by decide
  refine ⟨crashed, { flag := RTE, points := value, feedback := "" }, h1, ?_, rfl, by show RTE.testBit 0 = false; decide⟩
  simp [h2, h3, gradeStandard, Checkers.linecountRunOnError, checkResult, finish, toCheckerResult, orFeedback, AC]

/-! ## C52 -/

/-- C52.  The cause reported is the first applicable one of: time limit, memory limit, protection
fault, exit code, signal. -/
theorem C52_priority (p : Proc) :
    (TimeExceeded p → Contrib.parseHelperFileError p = some .timeLimit) ∧
    (¬ TimeExceeded p → MemoryExceeded p → Contrib.parseHelperFileError p = some .memoryLimit) ∧
    (¬ TimeExceeded p → ¬ MemoryExceeded p → p.protectionFault = true →
      Contrib.parseHelperFileError p = some .protectionFault) ∧
    (¬ TimeExceeded p → ¬ MemoryExceeded p → p.protectionFault = false →
      (0 < p.returncode → Contrib.parseHelperFileError p = some .exitCode) ∧
      (p.returncode < 0 → Contrib.parseHelperFileError p = some .signal) ∧
      (p.returncode = 0 → Contrib.parseHelperFileError p = none)) := by
  rw [← isTle_iff, ← isMle_iff]
  unfold Contrib.parseHelperFileError
  refine ⟨?_, ?_, ?_, ?_⟩
  · intro h; simp [h]
  · intro h h'; simp [h, h']
  · intro h h' h''; simp [h, h', h'']
  · intro h h' h''
    refine ⟨?_, ?_, ?_⟩
    · intro h1; simp [h, h', h'', h1]; omega
    · intro h1; simp [h, h', h'']; omega
    · intro h1; simp [h, h', h'', h1]

/-- C52.  Where the outcome of a helper is not decided by its exit code (generators), nothing is
ignored: no error is raised only if the helper exited with 0 within its limits and without a
protection fault. -/
theorem C52_nothing_ignored (p : Proc) :
    Contrib.parseHelperFileError p = none ↔
      ¬ TimeExceeded p ∧ ¬ MemoryExceeded p ∧ p.protectionFault = false ∧ p.returncode = 0 := by
  rw [← isTle_iff, ← isMle_iff]
  unfold Contrib.parseHelperFileError
  cases p.isTle <;> cases p.isMle <;> cases p.protectionFault <;> simp
  constructor
  · intro h; by_contra h0
    have := h h0
    split at this <;> simp at this
  · intro h; simp [h]

/-- C52.  For checkers and interactors a helper that used more than its limits but exited with a
recognised code is silently accepted. -/
theorem C52_protocol_ignores_limits_fails :
    ∃ p : Proc, TimeExceeded p ∧ MemoryExceeded p ∧
      Contrib.default p 5 "" = .ok (some (.result true 5 "")) ∧
      Contrib.testlib p 5 "" [] = .ok (some (.result true 5 "")) :=
  ⟨{ okProc with execTime := 11, maxMemory := 11 }, by unfold TimeExceeded; decide,
    by unfold MemoryExceeded; decide, by decide +kernel, by decide +kernel⟩

/-- C52 (part).  A helper that was killed, or exited with an unrecognised code, is never accepted by
the default protocol.  Missing for the full property: recognised exit codes 0 and 1. -/
theorem C52_default_partial (p : Proc) (value : Rat) (fb : String) (a : Option Contrib.Answer)
    (h : Contrib.default p value fb = .ok a) : p.returncode = 0 ∨ p.returncode = 1 := by
  unfold Contrib.default at h
  split at h
  · left; assumption
  · split at h
    · right; assumption
    · rename_i h0 _
      unfold Contrib.fallthrough at h
      cases hp : Contrib.parseHelperFileError p with
      | none => exact absurd ((C52_nothing_ignored p).1 hp).2.2.2 h0
      | some c => rw [hp] at h; cases h

example : Contrib.parseHelperFileError { okProc with execTime := 11, returncode := -9 }
    = some .timeLimit := by decide
example : Contrib.parseHelperFileError { okProc with returncode := -9 } = some .signal := by decide

/-! ## C10 -/

/-- An acceptable outcome of a protocol for a case of the given value: an internal error, a pass
with points in range, or a fail with 0 points. -/
def GoodOutcome (value : Rat) : Except Contrib.HelperErr (Option Contrib.Answer) → Prop
  | .error _ => True
  | .ok none => False
  | .ok (some (.bool _)) => True
  | .ok (some (.result true pts _)) => 0 ≤ pts ∧ pts ≤ value
  | .ok (some (.result false pts _)) => pts = 0

/-- Whether a protocol outcome is an error. -/
def IsErr (r : Except Contrib.HelperErr (Option Contrib.Answer)) : Prop := ∃ e, r = .error e

private theorem fallthrough_err (p : Proc) (h : p.returncode ≠ 0) : IsErr (Contrib.fallthrough p) := by
  unfold Contrib.fallthrough IsErr
  cases hp : Contrib.parseHelperFileError p with
  | none => exact absurd ((C52_nothing_ignored p).1 hp).2.2.2 h
  | some c => exact ⟨_, rfl⟩

private theorem good_of_err {value : Rat} {r} (h : IsErr r) : GoodOutcome value r := by
  obtain ⟨e, rfl⟩ := h; trivial

/-- C10, default protocol. -/
theorem C10_default (p : Proc) (value : Rat) (fb : String) (hv : 0 ≤ value) :
    GoodOutcome value (Contrib.default p value fb) ∧
    (p.returncode = 0 → Contrib.default p value fb = .ok (some (.result true value fb))) ∧
    (p.returncode = 1 → Contrib.default p value fb = .ok (some (.result false 0 fb))) ∧
    (p.returncode ≠ 0 → p.returncode ≠ 1 → IsErr (Contrib.default p value fb)) := by
  unfold Contrib.default
  refine ⟨?_, ?_, ?_, ?_⟩
  · split
    · exact ⟨hv, le_refl _⟩
    · split
      · rfl
      · exact good_of_err (fallthrough_err p ‹_›)
  · intro h; simp [h]
  · intro h; simp [h]
  · intro h h'; simp only [h, h', if_false]; exact fallthrough_err p h

/-- C10, testlib protocol. -/
theorem C10_testlib (p : Proc) (value : Rat) (fb : String) (stderr : Bytes) (hv : 0 ≤ value) :
    GoodOutcome value (Contrib.testlib p value fb stderr) ∧
    (p.returncode = 0 → Contrib.testlib p value fb stderr = .ok (some (.result true value fb))) ∧
    (p.returncode = 1 ∨ p.returncode = 2 →
      ∃ fb', Contrib.testlib p value fb stderr = .ok (some (.result false 0 fb'))) ∧
    (p.returncode ∉ [0, 1, 2, 7] → IsErr (Contrib.testlib p value fb stderr)) := by
  unfold Contrib.testlib
  refine ⟨?_, ?_, ?_, ?_⟩
  · split
    · exact ⟨hv, le_refl _⟩
    · split
      · split
        · trivial
        · split
          · trivial
          · rename_i h; simp only [not_not] at h; exact h
      · split
        · rfl
        · split
          · rfl
          · split
            · trivial
            · exact good_of_err (fallthrough_err p ‹_›)
  · intro h; simp [h]
  · rintro (h | h) <;> simp [h]
  · intro h
    simp only [List.mem_cons, List.not_mem_nil, or_false, not_or] at h
    obtain ⟨h0, h1, h2, h7⟩ := h
    simp only [h0, h1, h2, h7, if_false]
    split
    · exact ⟨_, rfl⟩
    · exact fallthrough_err p h0

private theorem digit_ge (x : Byte) (h : Contrib.isDigit x = true) : 48 ≤ x.toNat := by
  simp only [Contrib.isDigit, Bool.and_eq_true, decide_eq_true_eq] at h
  exact UInt8.le_iff_toNat_le.1 h.1

private theorem foldl_digits_pos (s : Bytes) (n : Nat)
    (h : 0 < n ∨ ∃ x ∈ s, Contrib.isDigit x = true ∧ x ≠ 48) :
    0 < s.foldl (fun n c => n * 10 + (c.toNat - 48)) n := by
  induction s generalizing n with
  | nil => simpa using h
  | cons c s ih =>
    rw [List.foldl_cons]
    apply ih
    rcases h with h | ⟨x, hx, hd, hne⟩
    · left; omega
    · rcases List.mem_cons.1 hx with rfl | hx
      · left
        have := digit_ge x hd
        have : x.toNat ≠ 48 := fun h => hne (UInt8.toNat_inj.1 h)
        omega
      · right; exact ⟨x, hx, hd, hne⟩

/-- C10.  The coci protocol never divides by zero. -/
theorem coci_denominator (stderr : Bytes) (n d : Nat)
    (h : Contrib.searchFraction stderr = some (n, d)) : d ≠ 0 := by
  unfold Contrib.searchFraction at h
  obtain ⟨line, _, hl⟩ := List.exists_of_findSome?_eq_some h
  unfold Contrib.matchFraction at hl
  split at hl
  · rename_i dd _
    dsimp only at hl
    split at hl
    · split at hl
      · rename_i hcond
        simp only [Option.some.injEq, Prod.mk.injEq] at hl
        obtain ⟨_, rfl⟩ := hl
        obtain ⟨x, hx, hx2⟩ := List.any_eq_true.1 hcond.2.2.2
        simp only [Bool.and_eq_true, bne_iff_ne] at hx2
        have := foldl_digits_pos _ 0 (Or.inr ⟨x, hx, hx2.1, hx2.2⟩)
        unfold Contrib.digitsVal
        omega
      · cases hl
    · cases hl
  · cases hl

/-- C10, coci protocol. -/
theorem C10_coci (p : Proc) (value : Rat) (fb : String) (stderr : Bytes) (hv : 0 ≤ value) :
    GoodOutcome value (Contrib.coci p value fb stderr) ∧
    (p.returncode = 0 → Contrib.coci p value fb stderr = .ok (some (.result true value fb))) ∧
    (p.returncode = 1 ∨ p.returncode = 2 →
      ∃ fb', Contrib.coci p value fb stderr = .ok (some (.result false 0 fb'))) ∧
    (p.returncode ∉ [0, 1, 2, 7] → IsErr (Contrib.coci p value fb stderr)) := by
  by_cases h7 : p.returncode = 7
  · have h0 : p.returncode ≠ 0 := by omega
    refine ⟨?_, fun h => absurd h h0, fun h => by omega, fun h => by simp [h7] at h⟩
    unfold Contrib.coci
    simp only [h7, if_true]
    split
    · trivial
    · split
      · trivial
      · rename_i h
        simp only [not_not] at h
        exact ⟨mul_nonneg h.1 hv, mul_le_of_le_one_left hv h.2⟩
  · have := C10_testlib p value fb stderr hv
    unfold Contrib.coci
    simpa only [h7, if_false] using this

open Contrib.Spec in
/-- C10, partial credit: an exit code 7 awards exactly the points of the first `points N` line
(testlib) or that fraction of the value (coci), provided it is in range, and is otherwise an error. -/
theorem C10_partial_credit (p : Proc) (value : Rat) (fb : String) (stderr : Bytes)
    (h : p.returncode = 7) :
    (∀ n, First PointsLine stderr n → (n : Rat) ≤ value →
      Contrib.testlib p value fb stderr = .ok (some (.result true n fb))) ∧
    (∀ n, First PointsLine stderr n → value < n → IsErr (Contrib.testlib p value fb stderr)) ∧
    ((∀ n, ¬ First PointsLine stderr n) → IsErr (Contrib.testlib p value fb stderr)) ∧
    (∀ n d, First FractionLine stderr (n, d) → n ≤ d →
      Contrib.coci p value fb stderr = .ok (some (.result true ((n / d : Rat) * value) fb))) ∧
    (∀ n d, First FractionLine stderr (n, d) → d < n → IsErr (Contrib.coci p value fb stderr)) ∧
    ((∀ x, ¬ First FractionLine stderr x) → IsErr (Contrib.coci p value fb stderr)) := by
  have e1 : (∀ n, ¬ First PointsLine stderr n) ↔ Contrib.searchPoints stderr = none := by
    simp only [← Contrib.searchPoints_iff, Option.eq_none_iff_forall_ne_some]
  have e2 : (∀ x, ¬ First FractionLine stderr x) ↔ Contrib.searchFraction stderr = none := by
    simp only [← Contrib.searchFraction_iff, Option.eq_none_iff_forall_ne_some]
  rw [e1, e2]
  simp only [← Contrib.searchPoints_iff, ← Contrib.searchFraction_iff]
  unfold Contrib.testlib Contrib.coci
  simp only [h, if_true, show (7 : Int) ≠ 0 by decide, if_false]
  refine ⟨?_, ?_, ?_, ?_, ?_, ?_⟩
  · intro n hn hle
    have : (0 : Rat) ≤ n := Nat.cast_nonneg n
    simp [hn, hle, this]
  · intro n hn hlt
    simp only [hn, not_le.2 hlt, and_false, not_false_eq_true, if_true]
    exact ⟨_, rfl⟩
  · intro hn; simp only [hn]; exact ⟨_, rfl⟩
  · intro n d hn hle
    have hd : (0 : Rat) < d := by
      have := coci_denominator stderr n d hn
      exact_mod_cast Nat.pos_of_ne_zero this
    have h1 : (0 : Rat) ≤ n / d := div_nonneg (Nat.cast_nonneg n) hd.le
    have h2 : (n : Rat) / d ≤ 1 := by rw [div_le_one hd]; exact_mod_cast hle
    simp [hn, h1, h2]
  · intro n d hn hlt
    have hd : (0 : Rat) < d := by
      have := coci_denominator stderr n d hn
      exact_mod_cast Nat.pos_of_ne_zero this
    have h2 : ¬ (n : Rat) / d ≤ 1 := by rw [div_le_one hd, not_le]; exact_mod_cast hlt
    simp only [hn, h2, and_false, not_false_eq_true, if_true]
    exact ⟨_, rfl⟩
  · intro hn; simp only [hn]; exact ⟨_, rfl⟩

private theorem pegLoop_pos (parse : String → Option Rat) (l : List String) (r : Rat)
    (h : Contrib.pegLoop parse l = some r) : 0 < r := by
  induction l with
  | nil => simp [Contrib.pegLoop] at h
  | cons a t ih =>
    cases t with
    | nil => simp [Contrib.pegLoop] at h
    | cons c t =>
      rw [Contrib.pegLoop] at h
      split at h
      · split at h
        · exact ih h
        · split at h
          · cases h; assumption
          · exact ih h
      · exact ih h

/-- C10 (part), peg protocol: points are never negative, and unrecognised exit codes are errors.
Missing: the upper bound, which fails. -/
theorem C10_peg_partial (parse : String → Option Rat) (p : Proc) (value : Rat) (l : List String)
    (hv : 0 ≤ value) :
    (∀ pts fb, Contrib.peg parse p value l = .ok (some (.result true pts fb)) → 0 ≤ pts) ∧
    (∀ pts fb, Contrib.peg parse p value l ≠ .ok (some (.result false pts fb))) ∧
    (p.returncode ≠ 0 → p.returncode ≠ 1 → IsErr (Contrib.peg parse p value l)) := by
  unfold Contrib.peg
  refine ⟨?_, ?_, ?_⟩
  · intro pts fb h
    split at h
    · simp at h
    · split at h
      · split at h
        · rename_i r hr
          simp only [Except.ok.injEq, Option.some.injEq, Contrib.Answer.result.injEq, true_and] at h
          rw [← h.1]
          exact mul_nonneg hv (pegLoop_pos parse l r hr).le
        · simp at h
      · obtain ⟨e, he⟩ := fallthrough_err p ‹_›
        rw [he] at h; cases h
  · intro pts fb h
    split at h
    · simp at h
    · split at h
      · split at h <;> simp at h
      · obtain ⟨e, he⟩ := fallthrough_err p ‹_›
        rw [he] at h; cases h
  · intro h h'; simp only [h, h', if_false]; exact fallthrough_err p h

/-- C10.  The peg protocol can award more than the value of the case: feedback `3` over `2`. -/
theorem C10_peg_overaward_fails :
    ∃ pts fb, Contrib.peg (fun s => if s = "3" then some 3 else if s = "2" then some 2 else none)
      { okProc with returncode := 1 } 10 ["3", "2"] = .ok (some (.result true pts fb)) ∧ 10 < pts :=
  ⟨15, "", by decide +kernel, by decide⟩

example : Contrib.testlib { okProc with returncode := 7 } 10 "" (b "hello\npoints 7\n")
    = .ok (some (.result true 7 "")) := by decide +kernel
example : Contrib.coci { okProc with returncode := 7 } 10 "" (b "partial 3/4\n")
    = .ok (some (.result true (15/2) "")) := by decide +kernel
example : Contrib.searchFraction (b "partial 3/0\n") = none := by decide +kernel
example : Contrib.Spec.First Contrib.Spec.PointsLine (b "hello\npoints 7\npoints 8\n") 7 :=
  (Contrib.searchPoints_iff _ _).mp (by decide +kernel)
example : Contrib.Spec.First Contrib.Spec.FractionLine (b "partial 3/0\npartial 3/04") (3, 4) :=
  (Contrib.searchFraction_iff _ _).mp (by decide +kernel)

/-! ## C53 -/

/-- C53.  In interactive grading a case is AC exactly if the process did nothing wrong and the
interaction ended with a passing answer. -/
theorem C53_interactive_ac (p : Proc) (pf : String) (value : Rat) (e : InteractEnd) (r : CaseResult)
    (h : gradeInteractive p pf value e = .ok r) :
    r.flag = 0 ↔ Clean p ∧ ∃ a pts, e = .ret a ∧ verdict value a = some (true, pts) := by
  unfold gradeInteractive at h
  rw [← C42_clean_iff]
  by_cases hf : p.flags 0 = 0
  · cases e with
    | ret a =>
      cases a with
      | bool v =>
        cases v <;>
          (simp [interactState, interactiveCheck, hf, finish, toCheckerResult] at h; subst h;
           simp [hf, verdict, AC, WA])
      | result q pts fb =>
        cases q <;>
          (simp [interactState, interactiveCheck, hf, finish, toCheckerResult] at h; subst h;
           simp [hf, verdict, AC, WA])
      | other t => simp [interactState, interactiveCheck, hf] at h
      | unicodeError => simp [interactState, interactiveCheck, hf] at h
      | raised => simp [interactState, interactiveCheck, hf] at h
    | wrongAnswer m =>
      simp [interactState, interactiveCheck, hf, finish, toCheckerResult] at h; subst h; simp [WA]
    | ioError =>
      simp [interactState, interactiveCheck, hf, finish, toCheckerResult] at h; subst h; simp [WA]
    | raised => simp [interactState] at h
  · cases hs : interactState e with
    | error x => rw [hs] at h; cases h
    | ok q =>
      obtain ⟨c, fb⟩ := q
      rw [hs] at h
      simp [interactiveCheck, hf, finish, toCheckerResult] at h
      subst h
      simp [hf]

/-- C53.  If the process did something wrong the case gets 0 points and WA besides its flags,
whatever the interaction said (unless the interaction itself raised). -/
theorem C53_interactive_error (p : Proc) (pf : String) (value : Rat) (e : InteractEnd)
    (h : ¬ Clean p) (he : e ≠ .raised) :
    gradeInteractive p pf value e = .ok ⟨p.flags 0 ||| WA, 0, pf⟩ := by
  rw [← C42_clean_iff] at h
  cases e <;>
    simp_all [gradeInteractive, interactState, interactiveCheck, finish, toCheckerResult, orFeedback]

/-- C53.  A wrong answer raised by the interaction is WA with 0 points and that message. -/
theorem C53_interactive_wrong (p : Proc) (pf m : String) (value : Rat) (h : Clean p) (hm : m ≠ "") :
    gradeInteractive p pf value (.wrongAnswer m) = .ok ⟨WA, 0, m⟩ := by
  rw [← C42_clean_iff] at h
  simp [gradeInteractive, interactState, interactiveCheck, finish, toCheckerResult, orFeedback, h, hm]

/-- C53.  An interactor failure is always an internal error, whatever the process did. -/
theorem C53_bridged_interactor_error (p : Proc) (pf : String) (value : Rat) (e : Contrib.HelperErr) :
    gradeBridged p pf value (.error e) = .error (.inl e) := rfl

/-- C53.  With a working interactor, a process that did something wrong gets 0 points whatever the
interactor said. -/
theorem C53_bridged_error (p : Proc) (pf : String) (value : Rat) (a : Option Contrib.Answer)
    (h : ¬ Clean p) : gradeBridged p pf value (.ok a) = .ok ⟨p.flags 0 ||| WA, 0, pf⟩ := by
  rw [← C42_clean_iff] at h
  simp [gradeBridged, bridgedCheck, h, finish, toCheckerResult, orFeedback]

/-- C53.  An interactor whose exit the protocol gives no answer for never gets a submission accepted: that is an internal error. -/
theorem C53_bridged_silent (p : Proc) (pf : String) (value : Rat) (h : Clean p) :
    ∃ e, gradeBridged p pf value (.ok none) = .error e := by
  rw [← C42_clean_iff] at h
  exact ⟨.inr .assertion, by simp [gradeBridged, bridgedCheck, h, ofContrib, finish, toCheckerResult]⟩

/-- C53.  What the interactor says decides otherwise: the points are those of its answer, and the case is right exactly if it says so. -/
theorem C53_bridged_answer (p : Proc) (pf : String) (value : Rat) (a : Contrib.Answer) (h : Clean p) :
    ∃ r, gradeBridged p pf value (.ok (some a)) = .ok r ∧
      match a with
      | .bool v => (r.flag = 0 ↔ v = true) ∧ r.points = (if v then value else 0) ∧ r.feedback = pf
      | .result v pts fb => (r.flag = 0 ↔ v = true) ∧ r.points = pts ∧ (fb ≠ "" → r.feedback = fb) ∧ (fb = "" → r.feedback = pf) := by
  rw [← C42_clean_iff] at h
  cases a with
  | bool v =>
    refine ⟨⟨if v then 0 else 1, if v then value else 0, pf⟩, ?_, ?_, rfl, rfl⟩
    · cases v <;> simp [gradeBridged, bridgedCheck, h, ofContrib, finish, toCheckerResult, orFeedback, AC, WA]
    · cases v <;> simp
  | result v pts fb =>
    refine ⟨⟨if v then 0 else 1, pts, if fb = "" then pf else fb⟩, ?_, ?_, rfl, ?_, ?_⟩
    · cases v <;> simp [gradeBridged, bridgedCheck, h, ofContrib, finish, toCheckerResult, orFeedback, AC, WA]
    · cases v <;> simp
    · exact fun hf => if_neg hf
    · exact fun hf => if_pos hf

/-- C53.  End to end with the default protocol: a case is AC exactly if the process did nothing
wrong and the interactor exited with 0, and then gets the full value; exit 1 is WA with 0 points;
any other exit code of the interactor is an internal error. -/
theorem C53_bridged_default (p i : Proc) (pf fb : String) (value : Rat) :
    (Clean p → i.returncode = 0 →
      ∃ f, gradeBridged p pf value (Contrib.default i value fb) = .ok ⟨0, value, f⟩) ∧
    (Clean p → i.returncode = 1 →
      ∃ f, gradeBridged p pf value (Contrib.default i value fb) = .ok ⟨1, 0, f⟩) ∧
    (¬ Clean p → i.returncode = 0 ∨ i.returncode = 1 →
      gradeBridged p pf value (Contrib.default i value fb) = .ok ⟨p.flags 0 ||| 1, 0, pf⟩) ∧
    (i.returncode ≠ 0 → i.returncode ≠ 1 →
      ∃ e, gradeBridged p pf value (Contrib.default i value fb) = .error (.inl e)) := by
  refine ⟨?_, ?_, ?_, ?_⟩
  · intro hc h0
    rw [← C42_clean_iff] at hc
    refine ⟨orFeedback (some fb) pf, ?_⟩
    simp [Contrib.default, h0, gradeBridged, bridgedCheck, hc, ofContrib, finish, toCheckerResult, AC,
      WA]
  · intro hc h1
    rw [← C42_clean_iff] at hc
    refine ⟨orFeedback (some fb) pf, ?_⟩
    simp [Contrib.default, h1, gradeBridged, bridgedCheck, hc, ofContrib, finish, toCheckerResult, AC,
      WA]
  · intro hc h01
    rcases h01 with h | h <;> simp only [Contrib.default, h] <;> exact C53_bridged_error p pf value _ hc
  · intro h0 h1
    simp only [Contrib.default, h0, h1, if_false]
    obtain ⟨e, he⟩ := fallthrough_err i h0
    rw [he]
    exact ⟨e, rfl⟩

example : gradeBridged okProc "" 5 (Contrib.default { okProc with returncode := 2 } 5 "")
    = .error (.inl (.helper .exitCode)) := by decide +kernel
example : gradeInteractive okProc "" 5 (.ret (.bool true)) = .ok ⟨0, 5, ""⟩ := by decide +kernel

end Verif.Props
