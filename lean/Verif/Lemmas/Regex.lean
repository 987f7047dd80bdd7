import Verif.Model.Regex
import Mathlib.Tactic.Common

/-! # Lemmas: composing patterns -/

namespace Verif.Regex
variable (u : Chars)

theorem M_seqs_append (l m : List Re) : ∀ s t, M u (seqs (l ++ m)) s t ↔ ∃ x, M u (seqs l) s x ∧ M u (seqs m) x t := by
  induction l with
  | nil =>
    intro s t
    simp only [List.nil_append, seqs, M]
    exact ⟨fun h => ⟨s, rfl, h⟩, fun ⟨x, h1, h2⟩ => h1 ▸ h2⟩
  | cons a l ih =>
    intro s t
    simp only [List.cons_append, seqs, M]
    constructor
    · rintro ⟨x, h1, h2⟩
      obtain ⟨y, h3, h4⟩ := (ih x t).1 h2
      exact ⟨y, ⟨x, h1, h3⟩, h4⟩
    · rintro ⟨y, ⟨x, h1, h3⟩, h4⟩
      exact ⟨x, h1, (ih x t).2 ⟨y, h3, h4⟩⟩

theorem M_altsOf (l : List Re) : ∀ a s t, M u (altsOf a l) s t ↔ ∃ r ∈ a :: l, M u r s t := by
  induction l with
  | nil => intro a s t; simp [altsOf]
  | cons b l ih =>
    intro a s t
    simp only [altsOf, M]
    rw [ih b s t]
    simp

theorem M_frame (f : Frame) (s t : Str) : M u f.re s t ↔ (∃ r ∈ f.alts, M u r s t) ∨ M u (seqs f.cur) s t := by
  unfold Frame.re
  cases h : f.alts with
  | nil => simp [altsOf]
  | cons a l =>
    simp only [List.cons_append]
    rw [M_altsOf]
    simp only [List.mem_cons, List.mem_append, List.not_mem_nil, or_false]
    constructor
    · rintro ⟨r, (h | h | h), hm⟩
      · exact .inl ⟨r, .inl h, hm⟩
      · exact .inl ⟨r, .inr h, hm⟩
      · exact .inr (h ▸ hm)
    · rintro (⟨r, h | h, hm⟩ | hm)
      · exact ⟨r, .inl h, hm⟩
      · exact ⟨r, .inr (.inl h), hm⟩
      · exact ⟨_, .inr (.inr rfl), hm⟩

theorem M_lits (w : Str) : ∀ s t, M u (seqs (w.map .chr)) s t ↔ s = w ++ t := by
  induction w with
  | nil => intro s t; simp [seqs, M]
  | cons c w ih =>
    intro s t
    simp only [List.map_cons, seqs, M, List.cons_append]
    constructor
    · rintro ⟨x, h1, h2⟩
      rw [h1, (ih x t).1 h2]
    · intro h
      exact ⟨_, h, (ih _ t).2 rfl⟩

/-! ## The bottom frame is not looked at -/

/-- Give the outermost frame another mark and earlier alternatives. -/
def extF (lk : Bool) (pre : List Re) : Frame → List Frame → Frame × List Frame
  | top, [] => ({ top with look := lk, alts := pre ++ top.alts }, [])
  | top, g :: r => (top, (extF lk pre g r).1 :: (extF lk pre g r).2)

def ext (lk : Bool) (pre : List Re) (s : State) : State :=
  { mode := s.mode, top := (extF lk pre s.top s.rest).1, rest := (extF lk pre s.top s.rest).2 }

theorem extF_cur (lk : Bool) (pre : List Re) (f : Frame) (r : List Frame) : (extF lk pre f r).1.cur = f.cur := by
  cases r <;> rfl

theorem extF_withCur (lk : Bool) (pre : List Re) (f : Frame) (r : List Frame) (c : List Re) :
    extF lk pre { f with cur := c } r = ({ (extF lk pre f r).1 with cur := c }, (extF lk pre f r).2) := by
  cases r <;> rfl

theorem ext_mode (lk : Bool) (pre : List Re) (s : State) (m : Mode) : ext lk pre { s with mode := m } = { ext lk pre s with mode := m } := rfl

theorem ext_add (lk : Bool) (pre : List Re) (s : State) (r : Re) : (ext lk pre s).add r = ext lk pre (s.add r) := by
  simp only [State.add, ext, Frame.add, extF_withCur, extF_cur]

theorem ext_repeat (lk : Bool) (pre : List Re) (s : State) (f : Re → Re) : (ext lk pre s).repeat f = (s.repeat f).map (ext lk pre) := by
  unfold State.repeat
  have : (ext lk pre s).top.cur = s.top.cur := extF_cur _ _ _ _
  rw [this]
  cases s.top.cur.getLast? with
  | none => rfl
  | some a => simp only [Option.map_some, ext, extF_withCur]

theorem ext_close (lk : Bool) (pre : List Re) (s : State) : (ext lk pre s).close = s.close.map (ext lk pre) := by
  obtain ⟨m, top, rest⟩ := s
  cases rest with
  | nil => rfl
  | cons g r => simp only [State.close, ext, extF, Option.map_some, Frame.add, extF_withCur, extF_cur]; rfl

theorem ext_plain (lk : Bool) (pre : List Re) (s : State) (c : Char) : plainStep (ext lk pre s) c = (plainStep s c).map (ext lk pre) := by
  have bar : some { ext lk pre s with mode := .plain, top := { (ext lk pre s).top with alts := (ext lk pre s).top.alts ++ [seqs (ext lk pre s).top.cur], cur := [] } } =
      (some { s with mode := .plain, top := { s.top with alts := s.top.alts ++ [seqs s.top.cur], cur := [] } }).map (ext lk pre) := by
    obtain ⟨m, top, rest⟩ := s
    cases rest with
    | nil => simp [ext, extF]
    | cons g r => rfl
  unfold plainStep
  split
  · rfl
  · rfl
  · rfl
  · exact ext_close lk pre s
  · exact bar
  · rw [Option.map_some, ext_add]
  · rw [Option.map_some, ext_add]
  · exact ext_repeat lk pre s _
  · exact ext_repeat lk pre s _
  · exact ext_repeat lk pre s _
  · rfl
  · rfl
  · rw [Option.map_some, ext_add]

theorem ext_step (lk : Bool) (pre : List Re) (s : State) (c : Char) : step (ext lk pre s) c = (step s c).map (ext lk pre) := by
  have hp := ext_plain lk pre s c
  have ha := ext_add lk pre s
  have hm : (ext lk pre s).mode = s.mode := rfl
  unfold step
  rw [hm]
  cases s.mode with
  | plain => exact hp
  | rep => simp only; split_ifs <;> first | rfl | exact hp
  | esc => simp only; split_ifs <;> first | rfl | rw [Option.map_some, ha]
  | paren => simp only; split_ifs <;> rfl
  | parenQ => simp only; split_ifs <;> rfl
  | cls l => simp only; split_ifs <;> first | rfl | rw [Option.map_some, ha]
  | clsEsc l => simp only; split_ifs <;> rfl

theorem ext_fold (lk : Bool) (pre : List Re) (p : Str) : ∀ s, p.foldlM step (ext lk pre s) = (p.foldlM step s).map (ext lk pre) := by
  induction p with
  | nil => intro s; rfl
  | cons c p ih =>
    intro s
    rw [List.foldlM_cons, List.foldlM_cons, ext_step]
    cases step s c with
    | none => rfl
    | some s' => exact ih s'

/-! ## Alternatives and literals -/

theorem done_some {s : State} {r : Re} (h : s.done = some r) : s.rest = [] ∧ (s.mode = .plain ∨ s.mode = .rep) ∧ r = s.top.re := by
  unfold State.done at h
  split_ifs at h with hc
  exact ⟨hc.1, hc.2, (Option.some.inj h).symm⟩

theorem parse_some {p : Str} {r : Re} (h : parse p = some r) :
    ∃ s, p.foldlM step {} = some s ∧ s.rest = [] ∧ (s.mode = .plain ∨ s.mode = .rep) ∧ r = s.top.re := by
  unfold parse at h
  cases hf : p.foldlM step {} with
  | none => rw [hf] at h; cases h
  | some s =>
    rw [hf] at h
    exact ⟨s, rfl, done_some h⟩

/-- `p|q` for patterns that are complete by themselves. -/
theorem parse_bar {p q : Str} {r r' : Re} (hp : parse p = some r) (hq : parse q = some r') :
    ∃ k, parse (p ++ '|' :: q) = some k ∧ ∀ s t, M u k s t ↔ M u r s t ∨ M u r' s t := by
  obtain ⟨s, h1, h2, h3, rfl⟩ := parse_some hp
  obtain ⟨s', g1, g2, g3, rfl⟩ := parse_some hq
  let pre := s.top.alts ++ [seqs s.top.cur]
  have hbar : step s '|' = some (ext s.top.look pre {}) := by
    have : plainStep s '|' = some (ext s.top.look pre {}) := by
      obtain ⟨m, top, rest⟩ := s
      cases h2
      simp [plainStep, ext, extF, pre]
    unfold step
    rcases h3 with h3 | h3
    · rw [h3]; exact this
    · rw [h3]; simp only; rw [if_neg (by decide)]; exact this
  have hfold : (p ++ '|' :: q).foldlM step {} = some (ext s.top.look pre s') := by
    rw [List.foldlM_append, h1]
    show (('|' :: q).foldlM step s) = _
    rw [List.foldlM_cons, hbar]
    show q.foldlM step (ext s.top.look pre {}) = _
    rw [ext_fold, g1]
    rfl
  have hrest : (ext s.top.look pre s').rest = [] := by
    unfold ext; rw [g2]; rfl
  refine ⟨(ext s.top.look pre s').top.re, ?_, ?_⟩
  · unfold parse
    rw [hfold]
    show State.done _ = _
    unfold State.done
    rw [if_pos ⟨hrest, g3⟩]
  · intro x y
    rw [M_frame, M_frame, M_frame]
    have e1 : (ext s.top.look pre s').top.alts = pre ++ s'.top.alts := by unfold ext; rw [g2]; rfl
    have e2 : (ext s.top.look pre s').top.cur = s'.top.cur := by unfold ext; rw [g2]; rfl
    rw [e1, e2]
    simp only [pre, List.mem_append, List.mem_singleton]
    constructor
    · rintro (⟨k, (h | h) | h, hm⟩ | hm)
      · exact .inl (.inl ⟨k, h, hm⟩)
      · exact .inl (.inr (h ▸ hm))
      · exact .inr (.inl ⟨k, h, hm⟩)
      · exact .inr (.inr hm)
    · rintro ((⟨k, h, hm⟩ | hm) | (⟨k, h, hm⟩ | hm))
      · exact .inl ⟨k, .inl (.inl h), hm⟩
      · exact .inl ⟨_, .inl (.inr rfl), hm⟩
      · exact .inl ⟨k, .inr h, hm⟩
      · exact .inr hm

/-- Add literal characters. -/
def State.lits (s : State) (w : Str) : State := { s with top := { s.top with cur := s.top.cur ++ w.map .chr } }

theorem special_escapable : ∀ c ∈ special, c ∈ escapable ∧ c ≠ 'd' ∧ c ≠ 'w' := by decide

theorem plain_literal (s : State) (c : Char) (h : c ∉ special) : plainStep s c = some (s.add (.chr c)) := by
  unfold plainStep
  split
  all_goals first | rfl | exact absurd (by decide) h

theorem escape_fold (w : Str) : ∀ s : State, s.mode = .plain → (escape w).foldlM step s = some (s.lits w) := by
  induction w with
  | nil => intro s _; simp [escape, State.lits]
  | cons c w ih =>
    intro s hs
    have key : (if c ∈ special then ['\\', c] else [c]).foldlM step s = some (s.add (.chr c)) := by
      by_cases h : c ∈ special
      · rw [if_pos h]
        obtain ⟨h1, h2, h3⟩ := special_escapable c h
        have e1 : step s '\\' = some { s with mode := .esc } := by unfold step; rw [hs]; rfl
        have e2 : step { s with mode := .esc } c = some (s.add (.chr c)) := by
          unfold step
          simp only [if_neg h2, if_neg h3, if_pos h1]
          rfl
        simp only [List.foldlM_cons, List.foldlM_nil, e1, Option.bind_eq_bind, Option.bind_some, e2]
        rfl
      · rw [if_neg h]
        have e1 : step s c = some (s.add (.chr c)) := by unfold step; rw [hs]; exact plain_literal s c h
        simp only [List.foldlM_cons, List.foldlM_nil, e1, Option.bind_eq_bind, Option.bind_some]
        rfl
    have : escape (c :: w) = (if c ∈ special then ['\\', c] else [c]) ++ escape w := rfl
    rw [this, List.foldlM_append, key]
    show (escape w).foldlM step (s.add (.chr c)) = _
    rw [ih _ rfl]
    obtain ⟨m, top, rest⟩ := s
    cases hs
    simp [State.lits, State.add, Frame.add]

theorem escape_plain (w : Str) (h : ∀ c ∈ w, c ∉ special) : escape w = w := by
  induction w with
  | nil => rfl
  | cons c w ih =>
    have : escape (c :: w) = (if c ∈ special then ['\\', c] else [c]) ++ escape w := rfl
    rw [this, if_neg (h c (by simp)), ih (fun d hd => h d (by simp [hd]))]
    rfl

theorem parse_escape (w : Str) : parse (escape w) = some (seqs (w.map .chr)) := by
  unfold parse
  rw [escape_fold w {} rfl]
  simp [State.lits, State.done, Frame.re, altsOf]

end Verif.Regex
