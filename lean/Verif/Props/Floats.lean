import Verif.Model.Floats
import Verif.Lemmas.Checkers
import Verif.Spec.Floats
import Mathlib.Tactic.Ring
import Mathlib.Tactic.Linarith
import Mathlib.Tactic.FieldSimp
import Mathlib.Tactic.NormNum
import Mathlib.Algebra.Order.AbsoluteValue.Basic

/-! # C07: the float checker -/

namespace Verif.Props
open Verif Spec Checkers Checkers.FloatOps

variable {F : Type}

private theorem tokenLoop_iff (o : FloatOps F) (verify : F → F → F → Except ArithErr Bool) (eps : F)
    (pt jt : List Bytes) (hl : pt.length = jt.length) :
    o.tokenLoop verify eps pt jt = .ok true ↔
      List.Forall₂ (TokenMatch o.parse (fun p j => verify p j eps = .ok true)) pt jt := by
  induction pt generalizing jt with
  | nil =>
    cases jt with
    | nil => simp [tokenLoop]
    | cons j jt => simp at hl
  | cons p pt ih =>
    cases jt with
    | nil => simp at hl
    | cons j jt =>
      simp only [List.length_cons, Nat.add_right_cancel_iff] at hl
      rw [List.forall₂_cons, ← ih jt hl]
      simp only [tokenLoop, TokenMatch]
      cases hj : o.parse j with
      | none => by_cases h : p = j <;> simp [h]
      | some jf =>
        cases hp : o.parse p with
        | none => simp
        | some pf =>
          cases hv : verify pf jf eps with
          | error e => simp [hv]
          | ok r => cases r <;> simp [hv]

private theorem lineLoop_iff (o : FloatOps F) (verify : F → F → F → Except ArithErr Bool) (eps : F)
    (pl jl : List Bytes) (hl : pl.length = jl.length) :
    o.lineLoop verify eps pl jl = .ok true ↔
      List.Forall₂ (fun p j => List.Forall₂
        (TokenMatch o.parse (fun p j => verify p j eps = .ok true)) (tokens p) (tokens j)) pl jl := by
  induction pl generalizing jl with
  | nil =>
    cases jl with
    | nil => simp [lineLoop]
    | cons j jl => simp at hl
  | cons p pl ih =>
    cases jl with
    | nil => simp at hl
    | cons j jl =>
      simp only [List.length_cons, Nat.add_right_cancel_iff] at hl
      rw [List.forall₂_cons, ← ih jl hl]
      simp only [lineLoop, pySplit_eq]
      by_cases hlen : (tokens p).length = (tokens j).length
      · simp only [hlen, ne_eq, not_true_eq_false, if_false]
        rw [← tokenLoop_iff o verify eps _ _ hlen]
        cases h : o.tokenLoop verify eps (tokens p) (tokens j) with
        | error e => simp
        | ok r => cases r <;> simp
      · simp only [ne_eq, hlen, not_false_eq_true, if_true, Except.ok.injEq, Bool.false_eq_true,
          false_iff, not_and]
        intro h
        exact absurd h.length_eq hlen

/-- The verification function selected by a mode, on the specification side. -/
def modeVerify (o : FloatOps F) (mode : String) : Option (F → F → F → Except ArithErr Bool) :=
  if mode = "absolute" then some o.verifyAbsolute
  else if mode = "relative" then some o.verifyRelative
  else if mode = "default" then some o.verifyDefault
  else none

private theorem verifyFloat_eq (o : FloatOps F) (mode : String) :
    o.verifyFloat mode = modeVerify o mode := by
  unfold verifyFloat modeVerify
  split <;> simp_all

/-- C07.  For any float arithmetic and any valid mode the checker accepts exactly when lines and
tokens match up, non-numeric judge tokens literally, numeric ones by a numeric token that the
tolerance test accepts. -/
theorem C07_float_structure (o : FloatOps F) (process judge : Bytes) (prec : Int) (mode : String)
    (verify : F → F → F → Except ArithErr Bool) (hm : modeVerify o mode = some verify) :
    o.check process judge prec mode = .ok true ↔
      FloatMatch o.parse (fun p j => verify p j (o.eps prec) = .ok true) process judge := by
  have hp : ∀ s, dropEmpty (splitBy isLine s) = neLines s := by
    intro s; rw [dropEmpty_eq, splitBy_eq]; rfl
  simp only [FloatOps.check, hp, verifyFloat_eq, hm, FloatMatch]
  by_cases hl : (neLines process).length = (neLines judge).length
  · simp only [hl, ne_eq, not_true_eq_false, if_false]
    rw [← lineLoop_iff o verify (o.eps prec) _ _ hl]
    cases o.lineLoop verify (o.eps prec) (neLines process) (neLines judge) <;> simp
  · simp only [ne_eq, hl, not_false_eq_true, if_true, Except.ok.injEq, Bool.false_eq_true, false_iff]
    intro h; exact hl h.length_eq

/-- C07.  No exception escapes for a valid mode: malformed numbers and division errors reject. -/
theorem C07_float_total (o : FloatOps F) (process judge : Bytes) (prec : Int) (mode : String)
    (hm : mode = "absolute" ∨ mode = "relative" ∨ mode = "default") :
    ∃ r, o.check process judge prec mode = .ok r := by
  have : ∃ v, o.verifyFloat mode = some v := by
    rcases hm with rfl | rfl | rfl <;> exact ⟨_, rfl⟩
  obtain ⟨v, hv⟩ := this
  unfold FloatOps.check
  simp only [hv]
  split
  · exact ⟨_, rfl⟩
  · split <;> exact ⟨_, rfl⟩

/-- C07.  An invalid mode is an internal error (when the numbers of lines agree). -/
theorem C07_float_bad_mode (o : FloatOps F) (process judge : Bytes) (prec : Int) (mode : String)
    (hm : mode ≠ "absolute" ∧ mode ≠ "relative" ∧ mode ≠ "default")
    (hl : (neLines process).length = (neLines judge).length) :
    ∃ e, o.check process judge prec mode = .error e := by
  have hp : ∀ s, dropEmpty (splitBy isLine s) = neLines s := by
    intro s; rw [dropEmpty_eq, splitBy_eq]; rfl
  simp [FloatOps.check, hp, verifyFloat_eq, modeVerify, hm.1, hm.2.1, hm.2.2, hl]

/-- The IEEE laws about NaN that matter here. -/
structure NaNLaws (o : FloatOps F) (isNaN : F → Prop) : Prop where
  sub_left : ∀ x y, isNaN x → isNaN (o.sub x y)
  sub_right : ∀ x y, isNaN y → isNaN (o.sub x y)
  mul_left : ∀ x y, isNaN x → isNaN (o.mul x y)
  div_left : ∀ x y z, isNaN x → o.div x y = .ok z → isNaN z
  div_right : ∀ x y z, isNaN y → o.div x y = .ok z → isNaN z
  abs : ∀ x, isNaN x → isNaN (o.abs x)
  le_left : ∀ x y, isNaN x → o.le x y = false
  le_right : ∀ x y, isNaN y → o.le x y = false

/-- C07.  NaN never passes the tolerance test, in any mode, on either side. -/
theorem C07_nan_rejected (o : FloatOps F) (isNaN : F → Prop) (L : NaNLaws o isNaN) (mode : String)
    (verify : F → F → F → Except ArithErr Bool) (hm : modeVerify o mode = some verify) (p j eps : F)
    (h : isNaN p ∨ isNaN j) : verify p j eps ≠ .ok true := by
  have habs : o.le (o.abs (o.sub p j)) eps = false := by
    apply L.le_left
    apply L.abs
    rcases h with h | h
    · exact L.sub_left _ _ h
    · exact L.sub_right _ _ h
  unfold modeVerify at hm
  split at hm
  · cases hm; simp [verifyAbsolute, habs]
  · split at hm
    · cases hm
      simp only [verifyRelative, ne_eq, Except.ok.injEq, Bool.and_eq_true, not_and, Bool.not_eq_true]
      intro h1
      rcases h with h | h
      · rw [L.le_right _ _ h] at h1; cases h1
      · have h2 : isNaN (o.pmin (o.mul j (o.sub o.one eps)) (o.mul j (o.add o.one eps))) := by
          unfold pmin; split <;> exact L.mul_left _ _ h
        rw [L.le_left _ _ h2] at h1; cases h1
    · split at hm
      · cases hm
        simp only [verifyDefault, habs, Bool.false_eq_true, if_false]
        split
        · cases hd : o.div p j with
          | error e => simp
          | ok q =>
            have : isNaN q := by
              rcases h with h | h
              · exact L.div_left _ _ _ h hd
              · exact L.div_right _ _ _ h hd
            simp [L.le_left _ _ (L.abs _ (L.sub_right o.one _ this))]
        · simp
      · cases hm

/-- C07.  Consequently an output containing NaN where the judge has a number is rejected: if a
numeric judge token is answered by NaN the outputs do not match. -/
theorem C07_nan_output_rejected (o : FloatOps F) (isNaN : F → Prop) (L : NaNLaws o isNaN)
    (mode : String) (hm : mode = "absolute" ∨ mode = "relative" ∨ mode = "default") (prec : Int)
    (pt jt : Bytes) (hp : ∀ c ∈ pt, isWhite c = false) (hj : ∀ c ∈ jt, isWhite c = false)
    (hpn : pt ≠ []) (hjn : jt ≠ []) (x y : F) (hx : o.parse pt = some x) (hy : o.parse jt = some y)
    (hnan : isNaN x) : o.check pt jt prec mode = .ok false := by
  obtain ⟨r, hr⟩ := C07_float_total o pt jt prec mode hm
  cases r with
  | false => exact hr
  | true =>
    exfalso
    have : ∃ v, modeVerify o mode = some v := by
      rcases hm with rfl | rfl | rfl <;> exact ⟨_, rfl⟩
    obtain ⟨v, hv⟩ := this
    rw [C07_float_structure o pt jt prec mode v hv] at hr
    have one : ∀ t : Bytes, (∀ c ∈ t, isWhite c = false) → t ≠ [] → neLines t = [t] ∧ tokens t = [t] := by
      intro t ht hne
      constructor
      · have := lines_append t [] (fun c hc => not_isLine_of_not_isWhite (ht c hc))
        simp only [List.append_nil] at this
        have h0 : lines ([] : Bytes) = [[]] := rfl
        rw [h0] at this
        simp [neLines, this, hne]
      · have := tokens_token t [] ht hne (by simp)
        simpa [tokens_nil] using this
    unfold FloatMatch at hr
    rw [(one pt hp hpn).1, (one jt hj hjn).1] at hr
    simp only [List.forall₂_cons, List.Forall₂.nil, and_true] at hr
    rw [(one pt hp hpn).2, (one jt hj hjn).2] at hr
    simp only [List.forall₂_cons, List.Forall₂.nil, and_true, TokenMatch, hy, hx, Option.some.injEq,
      exists_eq_left'] at hr
    exact C07_nan_rejected o isNaN L mode v hv x y _ (Or.inl hnan) hr

/-! ### Exact arithmetic -/

/-- The exact model satisfies the NaN laws. -/
theorem XRat.nanLaws (parse : Bytes → Option XRat) : NaNLaws (XRat.ops parse) (· = .nan) where
  sub_left x y h := by subst h; rfl
  sub_right x y h := by subst h; cases x <;> rfl
  mul_left x y h := by subst h; rfl
  div_left x y z h hd := by
    subst h
    cases y with
    | nan => cases hd; rfl
    | inf s => cases hd; rfl
    | fin q =>
      simp only [XRat.ops, XRat.div] at hd
      split at hd
      · cases hd
      · cases hd; rfl
  div_right x y z h hd := by subst h; cases x <;> (cases hd; rfl)
  abs x h := by subst h; rfl
  le_left x y h := by subst h; rfl
  le_right x y h := by subst h; cases x <;> rfl

private theorem abs_fin (q : Rat) : XRat.abs (.fin q) = .fin |q| := by
  simp only [XRat.abs]
  split
  · rename_i h; rw [abs_of_neg h]
  · rename_i h; rw [abs_of_nonneg (not_lt.1 h)]

private theorem sub_fin (p q : Rat) : XRat.sub (.fin p) (.fin q) = .fin (p - q) := by
  simp only [XRat.sub, XRat.neg, XRat.add, sub_eq_add_neg]

private theorem le_fin (p q : Rat) : XRat.le (.fin p) (.fin q) = decide (p ≤ q) := rfl

private theorem lt_fin (p q : Rat) : XRat.lt (.fin p) (.fin q) = decide (p < q) := by
  simp only [XRat.lt, le_fin]
  by_cases h : p < q
  · simp [h, h.le]
  · simp only [h, decide_false]; simp [not_lt.1 h]

private theorem pmin_fin (parse : Bytes → Option XRat) (p q : Rat) :
    (XRat.ops parse).pmin (.fin p) (.fin q) = .fin (min p q) := by
  simp only [pmin, XRat.ops, lt_fin]
  by_cases h : q < p
  · simp [h, min_eq_right h.le]
  · simp [h, min_eq_left (not_lt.1 h)]

private theorem pmax_fin (parse : Bytes → Option XRat) (p q : Rat) :
    (XRat.ops parse).pmax (.fin p) (.fin q) = .fin (max p q) := by
  simp only [pmax, XRat.ops, lt_fin]
  by_cases h : p < q
  · simp [h, max_eq_right h.le]
  · simp [h, max_eq_left (not_lt.1 h)]

/-- C07.  Absolute mode on exact finite numbers. -/
theorem C07_absolute_exact (parse : Bytes → Option XRat) (p j eps : Rat) :
    (XRat.ops parse).verifyAbsolute (.fin p) (.fin j) (.fin eps) = .ok true ↔ withinAbs eps p j := by
  simp only [verifyAbsolute, XRat.ops, sub_fin, abs_fin, le_fin, withinAbs, Except.ok.injEq,
    decide_eq_true_eq]

/-- C07.  Relative mode on exact finite numbers. -/
theorem C07_relative_exact (parse : Bytes → Option XRat) (p j eps : Rat) (he : 0 ≤ eps) :
    (XRat.ops parse).verifyRelative (.fin p) (.fin j) (.fin eps) = .ok true ↔ withinRel eps p j := by
  have e1 : (XRat.ops parse).mul (.fin j) ((XRat.ops parse).sub (XRat.ops parse).one (.fin eps))
      = .fin (j - eps * j) := by
    show XRat.mul (.fin j) (XRat.sub (.fin 1) (.fin eps)) = _
    rw [sub_fin]; show XRat.fin _ = _; congr 1; ring
  have e2 : (XRat.ops parse).mul (.fin j) ((XRat.ops parse).add (XRat.ops parse).one (.fin eps))
      = .fin (j + eps * j) := by
    show XRat.mul (.fin j) (XRat.add (.fin 1) (.fin eps)) = _
    show XRat.fin _ = _; congr 1; ring
  simp only [verifyRelative, e1, e2, pmin_fin, pmax_fin]
  show Except.ok (decide _ && decide _) = _ ↔ _
  simp only [Except.ok.injEq, Bool.and_eq_true, decide_eq_true_eq, withinRel, abs_le]
  rcases le_total 0 j with hj | hj
  · have hm : 0 ≤ eps * j := mul_nonneg he hj
    rw [abs_of_nonneg hj, min_eq_left (by linarith), max_eq_right (by linarith)]
    constructor <;> rintro ⟨a, c⟩ <;> constructor <;> linarith
  · have hm : eps * j ≤ 0 := mul_nonpos_of_nonneg_of_nonpos he hj
    have e3 : eps * -j = -(eps * j) := by ring
    rw [abs_of_nonpos hj, e3, min_eq_right (by linarith), max_eq_left (by linarith)]
    constructor <;> rintro ⟨a, c⟩ <;> constructor <;> linarith

/-- C07.  Default mode on exact finite numbers. -/
theorem C07_default_exact (parse : Bytes → Option XRat) (p j eps : Rat) (he : 0 < eps) :
    (XRat.ops parse).verifyDefault (.fin p) (.fin j) (.fin eps) = .ok true ↔ withinDefault eps p j := by
  simp only [verifyDefault, XRat.ops, sub_fin, abs_fin, le_fin, withinDefault]
  by_cases h1 : |p - j| ≤ eps
  · simp [h1]
  · simp only [h1, decide_false, Bool.false_eq_true, if_false, false_or]
    by_cases h2 : eps ≤ |j|
    · simp only [h2, decide_true, if_true, true_and]
      have hj : j ≠ 0 := by
        intro h; rw [h, abs_zero] at h2; linarith
      have hj' : 0 < |j| := abs_pos.2 hj
      simp only [XRat.div, hj, if_false, XRat.mul]
      have e : |1 - p * (1 / j)| = |p - j| / |j| := by
        rw [← abs_div, abs_sub_comm]
        congr 1
        field_simp
      simp only [sub_fin, abs_fin, le_fin, Except.ok.injEq, decide_eq_true_eq, e]
      rw [div_le_iff₀ hj']
    · simp [h2]

/-- C07.  An infinite judge value accepts no process value in absolute and default mode, and only
the same infinity in relative mode (for tolerances below 1). -/
theorem C07_infinity (parse : Bytes → Option XRat) (p : XRat) (s : Bool) (eps : Rat)
    (he : 0 ≤ eps) (he1 : eps < 1) :
    (XRat.ops parse).verifyAbsolute p (.inf s) (.fin eps) = .ok false ∧
    (XRat.ops parse).verifyDefault p (.inf s) (.fin eps) = .ok false ∧
    ((XRat.ops parse).verifyRelative p (.inf s) (.fin eps) = .ok true ↔ p = .inf s) := by
  have h1 : (1 : Rat) + -eps ≠ 0 := by intro h; linarith
  have h2 : (1 : Rat) + eps ≠ 0 := by intro h; linarith
  have h3 : ¬ ((1 : Rat) + -eps < 0) := by intro h; linarith
  have h4 : ¬ ((1 : Rat) + eps < 0) := by intro h; linarith
  have h5 : (1 : Rat) < 0 ↔ False := by exact iff_false_intro (by norm_num)
  have h6 : ¬ (1 : Rat) ≤ eps := by intro h; linarith
  refine ⟨?_, ?_, ?_⟩
  · cases p with
    | nan => cases s <;> rfl
    | inf t => cases s <;> cases t <;> rfl
    | fin q => cases s <;> rfl
  · cases p with
    | nan => cases s <;> simp [verifyDefault, XRat.ops, XRat.sub, XRat.neg, XRat.add, XRat.abs, XRat.le, XRat.div]
    | inf t => cases s <;> cases t <;> simp [verifyDefault, XRat.ops, XRat.sub, XRat.neg, XRat.add, XRat.abs, XRat.le, XRat.div]
    | fin q => cases s <;> simp [verifyDefault, XRat.ops, XRat.sub, XRat.neg, XRat.add, XRat.abs, XRat.le, XRat.div, h5, h6]
  · cases p with
    | nan => cases s <;> simp [verifyRelative, XRat.ops, XRat.sub, XRat.neg, XRat.add, XRat.mul, XRat.le, pmin, pmax, XRat.lt, h1, h2, h3, h4]
    | inf t => cases s <;> cases t <;> simp [verifyRelative, XRat.ops, XRat.sub, XRat.neg, XRat.add, XRat.mul, XRat.le, pmin, pmax, XRat.lt, h1, h2, h3, h4]
    | fin q => cases s <;> simp [verifyRelative, XRat.ops, XRat.sub, XRat.neg, XRat.add, XRat.mul, XRat.le, pmin, pmax, XRat.lt, h1, h2, h3, h4]

/-- C07.  What the precision means: with `precision: n` two finite numbers count as the same when they are within `1 / 10ⁿ` of each other (or `1 / 10ⁿ` of
the reference, by the mode). -/
theorem C07_precision (parse : Bytes → Option XRat) (n : Nat) (p j : Rat) :
    ((XRat.ops parse).verifyAbsolute (.fin p) (.fin j) ((XRat.ops parse).eps n) = .ok true ↔ withinAbs (1 / 10 ^ n) p j) ∧
    ((XRat.ops parse).verifyRelative (.fin p) (.fin j) ((XRat.ops parse).eps n) = .ok true ↔ withinRel (1 / 10 ^ n) p j) ∧
    ((XRat.ops parse).verifyDefault (.fin p) (.fin j) ((XRat.ops parse).eps n) = .ok true ↔ withinDefault (1 / 10 ^ n) p j) := by
  have e : (XRat.ops parse).eps n = .fin (1 / 10 ^ n) := by
    show XRat.fin _ = _
    rw [zpow_neg, zpow_natCast, one_div]
  have h : (0 : Rat) < 1 / 10 ^ n := by positivity
  rw [e]
  exact ⟨C07_absolute_exact parse p j _, C07_relative_exact parse p j _ h.le, C07_default_exact parse p j _ h⟩

example : withinAbs (1 / 10 ^ 2) (1 / 3) (33 / 100) ∧ ¬ withinAbs (1 / 10 ^ 3) (1 / 3) (33 / 100) := by
  constructor <;> norm_num [withinAbs, abs_of_pos]

/-! ### Concrete instances -/

/-- A tiny parser: tokens that are decimal naturals, `nan` and `inf`. -/
def demoParse (t : Bytes) : Option XRat :=
  if t = b "nan" then some .nan
  else if t = b "inf" then some (.inf false)
  else if t ≠ [] ∧ t.all (fun c => 48 ≤ c && c ≤ 57) then
    some (.fin (t.foldl (fun n c => n * 10 + (c.toNat - 48 : Nat)) 0))
  else none

example : modeVerify (XRat.ops demoParse) "default" = some (XRat.ops demoParse).verifyDefault := rfl
example : (XRat.ops demoParse).check (b "x 100 \n\n 5") (b "x 101\n5\n") 1 "default" = .ok true := by
  decide +kernel
example : (XRat.ops demoParse).check (b "x 150") (b "x 101") 1 "default" = .ok false := by
  decide +kernel
example : (XRat.ops demoParse).check (b "nan") (b "nan") 1 "default" = .ok false :=
  C07_nan_output_rejected _ _ (XRat.nanLaws demoParse) "default" (by simp) 1 (b "nan") (b "nan")
    (by decide) (by decide) (by decide) (by decide) .nan .nan (by decide) (by decide) rfl

end Verif.Props
