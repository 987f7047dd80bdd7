import Verif.Model.JavaClass
import Verif.Spec.JavaClass

/-! # C70: finding the class of a Java program -/

namespace Verif.Props

open Verif.JavaClass Verif.Spec.Java

namespace Jc

/-! ### Block comments -/

theorem blockEnd_spec (b r : JavaClass.Str) (h : ¬ ['*', '/'] <:+: b ++ ['*']) : blockEnd (b ++ '*' :: '/' :: r) = some r := by
  induction b with
  | nil => simp [blockEnd]
  | cons a b ih =>
    have hb : ¬ ['*', '/'] <:+: b ++ ['*'] := fun hb => h (hb.trans ((List.suffix_cons a _).isInfix))
    have ih := ih hb
    cases b with
    | nil =>
      have ha : ¬ (a = '*' ∧ '*' = '/') := by rintro ⟨-, h⟩; exact absurd h (by decide)
      simp only [List.cons_append, List.nil_append, blockEnd] at ih ⊢
      rw [if_neg ha]
      exact ih
    | cons a' b =>
      simp only [List.cons_append] at ih h ⊢
      rw [blockEnd, if_neg]
      · exact ih
      · rintro ⟨rfl, rfl⟩
        exact h ⟨[], b ++ ['*'], rfl⟩

theorem stripBlock_id (t : JavaClass.Str) (h : ¬ ['/', '*'] <:+: t) : stripBlock t = t := by
  induction t with
  | nil => simp [stripBlock]
  | cons a t ih =>
    have ht : ¬ ['/', '*'] <:+: t := fun hb => h (hb.trans ((List.suffix_cons a _).isInfix))
    cases t with
    | nil => simp [stripBlock]
    | cons b t =>
      rw [stripBlock, if_neg, ih ht]
      rintro ⟨rfl, rfl⟩
      exact h ⟨[], t, rfl⟩

theorem stripBlock_block (t b r : JavaClass.Str) (h : ¬ ['/', '*'] <:+: t) (hb : ¬ ['*', '/'] <:+: b ++ ['*']) :
    stripBlock (t ++ ('/' :: '*' :: (b ++ ['*', '/'])) ++ r) = t ++ stripBlock r := by
  induction t with
  | nil =>
    have he : blockEnd (b ++ ['*', '/'] ++ r) = some r := by
      rw [List.append_assoc]; exact blockEnd_spec b r hb
    simp only [List.nil_append, List.cons_append]
    rw [stripBlock, if_pos ⟨rfl, rfl⟩]
    split
    · next r' hr' => rw [he] at hr'; cases hr'; rfl
    · next hr' => rw [he] at hr'; exact nomatch hr'
  | cons a t ih =>
    have ht : ¬ ['/', '*'] <:+: t := fun hb => h (hb.trans ((List.suffix_cons a _).isInfix))
    have ih := ih ht
    cases t with
    | nil =>
      simp only [List.cons_append, List.nil_append] at ih ⊢
      rw [stripBlock, if_neg (by rintro ⟨-, h⟩; exact absurd h (by decide)), ih]
    | cons b' t =>
      simp only [List.cons_append] at ih ⊢
      rw [stripBlock, if_neg, ih]
      rintro ⟨rfl, rfl⟩
      exact h ⟨[], t, rfl⟩

def notBlock : Seg → Bool
  | .block _ => false
  | _ => true

theorem blocks_gone (l : List Seg) : ∀ (t : JavaClass.Str), (∀ s ∈ l, s.Ok) →
    (∀ x ∈ betweenBlocks t l, ¬ ['/', '*'] <:+: x) → stripBlock (t ++ text l) = t ++ text (l.filter notBlock) := by
  induction l with
  | nil =>
    intro t _ h
    simp only [text, List.flatMap_nil, List.append_nil, List.filter_nil]
    exact stripBlock_id t (h t (by simp [betweenBlocks]))
  | cons s l ih =>
    intro t hok h
    have hok' : ∀ s ∈ l, s.Ok := fun x hx => hok x (.tail _ hx)
    have other : notBlock s = true → betweenBlocks t (s :: l) = betweenBlocks (t ++ s.text) l →
        stripBlock (t ++ text (s :: l)) = t ++ text ((s :: l).filter notBlock) := by
      intro hs hb
      rw [hb] at h
      have := ih (t ++ s.text) hok' h
      rw [List.filter_cons_of_pos hs]
      simp only [text, List.flatMap_cons, ← List.append_assoc] at this ⊢
      exact this
    cases s with
    | block b =>
      have hb := hok _ (.head _)
      simp only [betweenBlocks] at h
      have h1 := ih [] hok' fun x hx => h x (.tail _ hx)
      rw [List.filter_cons_of_neg (by simp [notBlock])]
      simp only [text, List.flatMap_cons, Seg.text, ← List.append_assoc]
      rw [stripBlock_block t b _ (h t (.head _)) hb]
      simp only [text, List.nil_append] at h1
      rw [h1]
    | code c => exact other rfl rfl
    | line b nl => exact other rfl rfl
    | str b => exact other rfl rfl
    | chr b => exact other rfl rfl

/-! ### Literals -/

theorem strEnd_spec (b : List Lit) (r : JavaClass.Str) (h : ∀ c, Lit.plain c ∈ b → c ≠ '"' ∧ c ≠ '\\') :
    strEnd (b.flatMap Lit.text ++ '"' :: r) = some r := by
  induction b with
  | nil => rw [strEnd.eq_def]; rfl
  | cons a b ih =>
    have ih := ih fun c hc => h c (.tail _ hc)
    cases a with
    | plain c =>
      have hc := h c (.head _)
      simp only [List.flatMap_cons, Lit.text, List.cons_append, List.nil_append]
      rw [strEnd.eq_def]
      dsimp only
      rw [if_neg hc.1, if_neg hc.2]
      exact ih
    | esc c =>
      simp only [List.flatMap_cons, Lit.text, List.cons_append, List.nil_append]
      rw [strEnd.eq_def]
      dsimp only
      rw [if_neg (by decide), if_pos rfl]
      exact ih

theorem chrEnd_spec (b : Lit) (r : JavaClass.Str) (h : ∀ c, b = .plain c → c ≠ '\'' ∧ c ≠ '\\') :
    chrEnd (b.text ++ '\'' :: r) = some r := by
  cases b with
  | plain c =>
    have hc := h c rfl
    simp only [Lit.text, List.cons_append, List.nil_append]
    unfold chrEnd
    split
    · next heq => simp only [List.cons.injEq] at heq; exact absurd heq.1 hc.2
    · next heq =>
      simp only [List.cons.injEq] at heq
      obtain ⟨rfl, -, rfl⟩ := heq
      rw [if_pos hc]
    · next h1 h2 => exact absurd rfl (h2 c r)
  | esc c => rfl

theorem stripLit_skip (t r : JavaClass.Str) (h : '"' ∉ t ∧ '\'' ∉ t) : stripLit (t ++ r) = t ++ stripLit r := by
  induction t with
  | nil => rfl
  | cons a t ih =>
    have h1 : a ≠ '"' := fun e => h.1 (e ▸ .head _)
    have h2 : a ≠ '\'' := fun e => h.2 (e ▸ .head _)
    rw [List.cons_append, stripLit, if_neg h1, if_neg h2, ih ⟨fun e => h.1 (.tail _ e), fun e => h.2 (.tail _ e)⟩]
    rfl

def notLit : Seg → Bool
  | .str _ => false
  | .chr _ => false
  | _ => true

theorem lits_gone (l : List Seg) (hok : ∀ s ∈ l, s.Ok) (hq : ∀ b nl, Seg.line b nl ∈ l → '"' ∉ b ∧ '\'' ∉ b)
    (hb : ∀ s ∈ l, notBlock s = true) : stripLit (text l) = text (l.filter notLit) := by
  induction l with
  | nil => simp [text, stripLit]
  | cons s l ih =>
    have ih := ih (fun x hx => hok x (.tail _ hx)) (fun b nl hx => hq b nl (.tail _ hx)) (fun x hx => hb x (.tail _ hx))
    simp only [text] at ih
    cases s with
    | block b => exact absurd (hb _ (.head _)) (by simp [notBlock])
    | code c =>
      have hc := hok _ (.head _)
      rw [List.filter_cons_of_pos rfl]
      simp only [text, List.flatMap_cons, Seg.text]
      rw [stripLit_skip, ih]
      simp only [List.mem_singleton]
      exact ⟨fun e => hc.1 e.symm, fun e => hc.2 e.symm⟩
    | line b nl =>
      have hc := hok _ (.head _)
      have hb' := hq b nl (.head _)
      rw [List.filter_cons_of_pos rfl]
      simp only [text, List.flatMap_cons, Seg.text]
      rw [stripLit_skip, ih]
      simp only [List.mem_cons, List.mem_append, List.not_mem_nil, or_false, not_or]
      refine ⟨⟨by decide, by decide, hb'.1, ?_⟩, ⟨by decide, by decide, hb'.2, ?_⟩⟩ <;> rcases hc.2 with h | h <;> subst h <;> decide
    | str b =>
      rw [List.filter_cons_of_neg (by simp [notLit])]
      simp only [text, List.flatMap_cons, Seg.text, List.cons_append]
      have he : strEnd (b.flatMap Lit.text ++ ['"'] ++ List.flatMap Seg.text l) = some (List.flatMap Seg.text l) := by
        rw [List.append_assoc]; exact strEnd_spec b _ (hok _ (.head _))
      rw [stripLit, if_pos rfl]
      split
      · next hr => rw [he] at hr; cases hr; exact ih
      · next hr => rw [he] at hr; exact nomatch hr
    | chr b =>
      rw [List.filter_cons_of_neg (by simp [notLit])]
      simp only [text, List.flatMap_cons, Seg.text, List.cons_append]
      have he : chrEnd (b.text ++ ['\''] ++ List.flatMap Seg.text l) = some (List.flatMap Seg.text l) := by
        rw [List.append_assoc]; exact chrEnd_spec b _ (hok _ (.head _))
      rw [stripLit, if_neg (by decide), if_pos rfl]
      split
      · next hr => rw [he] at hr; cases hr; exact ih
      · next hr => rw [he] at hr; exact nomatch hr

/-! ### Line comments -/

theorem lineRest_spec (b : JavaClass.Str) (nl : Char) (r : JavaClass.Str) (h : ∀ c ∈ b, c ≠ '\n' ∧ c ≠ '\r')
    (hn : nl = '\n' ∨ nl = '\r') : lineRest (b ++ nl :: r) = some (nl :: r) := by
  induction b with
  | nil => simp only [List.nil_append, lineRest]; rw [if_pos]; rcases hn with rfl | rfl <;> decide
  | cons a b ih =>
    have ha := h a (.head _)
    simp only [List.cons_append, lineRest]
    rw [if_neg (by simp [newline, ha.1, ha.2])]
    exact ih fun c hc => h c (.tail _ hc)

theorem stripLine_id (t : JavaClass.Str) (h : ¬ ['/', '/'] <:+: t) : stripLine t = t := by
  induction t with
  | nil => simp [stripLine]
  | cons a t ih =>
    have ht : ¬ ['/', '/'] <:+: t := fun hb => h (hb.trans ((List.suffix_cons a _).isInfix))
    cases t with
    | nil => simp [stripLine]
    | cons b t =>
      rw [stripLine, if_neg, ih ht]
      rintro ⟨rfl, rfl⟩
      exact h ⟨[], t, rfl⟩

theorem stripLine_line (t b : JavaClass.Str) (nl : Char) (r : JavaClass.Str) (h : ¬ ['/', '/'] <:+: t ++ ['/'])
    (hb : ∀ c ∈ b, c ≠ '\n' ∧ c ≠ '\r') (hn : nl = '\n' ∨ nl = '\r') :
    stripLine (t ++ ('/' :: '/' :: (b ++ nl :: r))) = t ++ stripLine (nl :: r) := by
  induction t with
  | nil =>
    have he := lineRest_spec b nl r hb hn
    rw [List.nil_append, stripLine, if_pos ⟨rfl, rfl⟩]
    split
    · next r' hr' => rw [he] at hr'; cases hr'; rfl
    · next hr' => rw [he] at hr'; exact nomatch hr'
  | cons a t ih =>
    have ht : ¬ ['/', '/'] <:+: t ++ ['/'] := fun hb => h (hb.trans ((List.suffix_cons a _).isInfix))
    have ih := ih ht
    cases t with
    | nil =>
      simp only [List.cons_append, List.nil_append] at ih h ⊢
      rw [stripLine, if_neg, ih]
      rintro ⟨rfl, -⟩
      exact h (List.infix_refl _)
    | cons b' t =>
      simp only [List.cons_append] at ih h ⊢
      rw [stripLine, if_neg, ih]
      rintro ⟨rfl, rfl⟩
      exact h ⟨[], t ++ ['/'], rfl⟩

theorem lines_gone (l : List Seg) (hb : ∀ s ∈ l, notBlock s = true ∧ notLit s = true) : ∀ (t : JavaClass.Str), (∀ s ∈ l, s.Ok) →
    (∀ x ∈ betweenLines t l, ¬ ['/', '/'] <:+: x ++ ['/']) → stripLine (t ++ text l) = t ++ code l := by
  induction l with
  | nil =>
    intro t _ h
    simp only [text, code, List.flatMap_nil, List.append_nil]
    exact stripLine_id t fun hi => h t (by simp [betweenLines]) (hi.trans (List.infix_append' [] t ['/']))
  | cons s l ih =>
    intro t hok h
    have ih := ih fun x hx => hb x (.tail _ hx)
    have hok' : ∀ s ∈ l, s.Ok := fun x hx => hok x (.tail _ hx)
    cases s with
    | block b => exact absurd (hb _ (.head _)).1 (by simp [notBlock])
    | str b => exact absurd (hb _ (.head _)).2 (by simp [notLit])
    | chr b => exact absurd (hb _ (.head _)).2 (by simp [notLit])
    | code c =>
      have := ih (t ++ [c]) hok' h
      simpa [text, code, Seg.text, Seg.code'] using this
    | line b nl =>
      have hl := hok _ (.head _)
      have h1 := ih [nl] hok' fun x hx => h x (.tail _ hx)
      have h2 := stripLine_line t b nl (text l) (h t (.head _)) hl.1 hl.2
      simp only [List.singleton_append] at h1
      rw [h1] at h2
      simpa [text, code, Seg.text, Seg.code'] using h2

theorem betweenLines_filter (f : Seg → Bool) (hf : ∀ s, f s = false → s.code' = [] ∧ ∀ b nl, s ≠ .line b nl) :
    ∀ (l : List Seg) (t : JavaClass.Str), betweenLines t (l.filter f) = betweenLines t l := by
  intro l
  induction l with
  | nil => intro t; rfl
  | cons s l ih =>
    intro t
    cases hs : f s with
    | true =>
      rw [List.filter_cons_of_pos hs]
      cases s <;> simp only [betweenLines, ih]
    | false =>
      rw [List.filter_cons_of_neg (by simp [hs]), ih]
      obtain ⟨h1, h2⟩ := hf s hs
      cases s with
      | line b nl => exact absurd rfl (h2 b nl)
      | code c => simp [betweenLines, h1]
      | block b => simp [betweenLines, h1]
      | str b => simp [betweenLines, h1]
      | chr b => simp [betweenLines, h1]

theorem code_filter (f : Seg → Bool) (hf : ∀ s, f s = false → s.code' = []) (l : List Seg) : code (l.filter f) = code l := by
  induction l with
  | nil => rfl
  | cons s l ih =>
    cases hs : f s with
    | true =>
      rw [List.filter_cons_of_pos hs]
      simp only [code, List.flatMap_cons] at ih ⊢
      rw [ih]
    | false =>
      rw [List.filter_cons_of_neg (by simp [hs]), ih]
      simp [code, hf s hs]

theorem strip_clean (l : List Seg) (h : Clean l) : JavaClass.strip (text l) = code l := by
  have h1 := blocks_gone l [] h.ok h.noBlock
  simp only [List.nil_append] at h1
  have sub : ∀ s ∈ l.filter notBlock, s ∈ l := fun s hs => (List.mem_filter.1 hs).1
  have h2 := lits_gone (l.filter notBlock) (fun s hs => h.ok s (sub s hs)) (fun b nl hs => h.noQuote b nl (sub _ hs))
    (fun s hs => (List.mem_filter.1 hs).2)
  have fb : ∀ s, notBlock s = false → s.code' = [] ∧ ∀ b nl, s ≠ .line b nl := by
    intro s hs; cases s <;> simp_all [notBlock, Seg.code']
  have fl : ∀ s, notLit s = false → s.code' = [] ∧ ∀ b nl, s ≠ .line b nl := by
    intro s hs; cases s <;> simp_all [notLit, Seg.code']
  have h3 := lines_gone ((l.filter notBlock).filter notLit) (fun s hs =>
      ⟨(List.mem_filter.1 (List.mem_filter.1 hs).1).2, (List.mem_filter.1 hs).2⟩) []
    (fun s hs => h.ok s (sub s (List.mem_filter.1 hs).1)) (by
      rw [betweenLines_filter notLit fl, betweenLines_filter notBlock fb]; exact h.noLine)
  simp only [List.nil_append] at h3
  unfold JavaClass.strip
  rw [h1, h2, h3, code_filter notLit (fun s hs => (fl s hs).1), code_filter notBlock (fun s hs => (fb s hs).1)]

/-! ### Declarations -/

theorem word_iff (p s r : JavaClass.Str) : word p s = some r ↔ s = p ++ r := by
  unfold word
  constructor
  · intro h
    split at h
    · next hp =>
      obtain ⟨r', rfl⟩ := List.isPrefixOf_iff_prefix.1 hp
      rw [List.drop_left] at h
      cases h; rfl
    · exact nomatch h
  · rintro rfl
    rw [if_pos (List.isPrefixOf_iff_prefix.2 ⟨r, rfl⟩), List.drop_left]

theorem dropWhile_white {sp : Char → Bool} (x r : JavaClass.Str) (hx : ∀ c ∈ x, sp c = true) (hr : ∀ c, r.head? = some c → sp c = false) :
    (x ++ r).dropWhile sp = r := by
  induction x with
  | nil =>
    cases r with
    | nil => rfl
    | cons a r => simp [List.dropWhile_cons, hr a rfl]
  | cons a x ih => simp [List.dropWhile_cons, hx a (.head _), ih fun c hc => hx c (.tail _ hc)]

theorem spaces_iff (sp : Char → Bool) (s r : JavaClass.Str) :
    spaces sp s = some r ↔ (∃ x, White sp x ∧ s = x ++ r) ∧ ∀ c, r.head? = some c → sp c = false := by
  constructor
  · intro h
    cases s with
    | nil => exact nomatch h
    | cons a s =>
      simp only [spaces] at h
      split at h
      · next ha =>
        cases h
        refine ⟨⟨a :: s.takeWhile sp, ⟨by simp, ?_⟩, ?_⟩, ?_⟩
        · intro c hc
          rcases List.mem_cons.1 hc with rfl | hc
          · exact ha
          · induction s with
            | nil => exact nomatch hc
            | cons b s ih =>
              rw [List.takeWhile_cons] at hc
              split at hc
              · rcases List.mem_cons.1 hc with rfl | hc
                · assumption
                · exact ih (.tail _ hc) hc
              · exact nomatch hc
        · rw [List.cons_append, List.takeWhile_append_dropWhile]
        · intro c hc
          induction s with
          | nil => exact nomatch hc
          | cons b s ih =>
            rw [List.dropWhile_cons] at hc
            split at hc
            · exact ih hc
            · next hb => cases hc; simpa using hb
      · exact nomatch h
  · rintro ⟨⟨x, ⟨hx, hw⟩, rfl⟩, hr⟩
    cases x with
    | nil => exact absurd rfl hx
    | cons a x =>
      simp only [List.cons_append, spaces]
      rw [if_pos (hw a (.head _)), dropWhile_white x r (fun c hc => hw c (.tail _ hc)) hr]

theorem wordSp_iff (sp : Char → Bool) (p s r : JavaClass.Str) :
    wordSp sp p s = some r ↔ (∃ x, White sp x ∧ s = p ++ x ++ r) ∧ ∀ c, r.head? = some c → sp c = false := by
  unfold wordSp
  rw [Option.bind_eq_some_iff]
  constructor
  · rintro ⟨t, ht, h⟩
    rw [word_iff] at ht
    obtain ⟨⟨x, hx, rfl⟩, hr⟩ := (spaces_iff _ _ _).1 h
    exact ⟨⟨x, hx, by rw [ht, List.append_assoc]⟩, hr⟩
  · rintro ⟨⟨x, hx, rfl⟩, hr⟩
    exact ⟨x ++ r, (word_iff _ _ _).2 (List.append_assoc _ _ _), (spaces_iff _ _ _).2 ⟨⟨x, hx, rfl⟩, hr⟩⟩

/-- The name the judge takes is made of the right characters. -/
theorem nameAt_shape (w : Char → Bool) (s g : JavaClass.Str) (h : nameAt w s = some g) :
    ∃ post, s = g ++ post ∧ g ≠ [] ∧ ∀ c ∈ g, ident w c = true := by
  induction s generalizing g with
  | nil => exact nomatch h
  | cons a s ih =>
    simp only [nameAt] at h
    split at h
    · next ha =>
      split at h
      · cases h; exact ⟨s, rfl, by simp, by simpa using ha⟩
      · cases hn : nameAt w s with
        | none => rw [hn] at h; exact nomatch h
        | some g' =>
          rw [hn] at h; cases h
          obtain ⟨post, rfl, -, hc⟩ := ih g' hn
          refine ⟨post, rfl, by simp, ?_⟩
          intro c hc'
          rcases List.mem_cons.1 hc' with rfl | hc'
          · exact ha
          · exact hc c hc'
    · exact nomatch h

theorem nameAt_plain (w : Char → Bool) (g post : JavaClass.Str) (hg : g ≠ []) (hw : ∀ c ∈ g, w c = true) (hp : After w post) :
    nameAt w (g ++ post) = some g := by
  induction g with
  | nil => exact absurd rfl hg
  | cons a g ih =>
    have ha := hw a (.head _)
    simp only [List.cons_append, nameAt]
    rw [if_pos (by simp [ident, ha])]
    cases g with
    | nil =>
      have hb : boundary w a ([] ++ post) = true := by
        simp only [List.nil_append]
        unfold boundary
        split
        · exact ha
        · next d r => rw [ha, hp d rfl]; rfl
      rw [if_pos hb]
    | cons b g =>
      have hb := hw b (.tail _ (.head _))
      rw [if_neg (by simp [boundary, ha, hb]), ih (by simp) fun c hc => hw c (.tail _ hc)]
      rfl

theorem opt_sound (sp : Char → Bool) (ps : List JavaClass.Str) (s : JavaClass.Str) :
    opt sp ps s = s ∨ ∃ p ∈ ps, ∃ x, White sp x ∧ s = p ++ x ++ opt sp ps s := by
  unfold opt
  cases h : ps.findSome? fun p => wordSp sp p s with
  | none => exact .inl rfl
  | some r =>
    obtain ⟨p, hp, h⟩ := List.exists_of_findSome?_eq_some h
    obtain ⟨⟨x, hx, hs⟩, -⟩ := (wordSp_iff _ _ _ _).1 h
    exact .inr ⟨p, hp, x, hx, hs⟩

theorem classAt_sound (w sp : Char → Bool) (s g : JavaClass.Str) (h : classAt w sp s = some g) :
    ∃ d post, s = d ++ g ++ post ∧ Decl sp d ∧ g ≠ [] ∧ ∀ c ∈ g, ident w c = true := by
  unfold classAt at h
  simp only [Option.bind_eq_bind, Option.bind_eq_some_iff] at h
  obtain ⟨s1, h1, s5, h5, h6⟩ := h
  obtain ⟨⟨x, hx, rfl⟩, -⟩ := (wordSp_iff _ _ _ _).1 h1
  obtain ⟨⟨y, hy, h5⟩, -⟩ := (wordSp_iff _ _ _ _).1 h5
  obtain ⟨post, h6, hg, hc⟩ := nameAt_shape _ _ _ h6
  have o1 := opt_sound sp ["strictfp".toList] s1
  generalize opt sp ["strictfp".toList] s1 = s2 at o1 h5
  have o2 := opt_sound sp ["abstract".toList, "final".toList] s2
  generalize opt sp ["abstract".toList, "final".toList] s2 = s3 at o2 h5
  have o3 := opt_sound sp ["strictfp".toList] s3
  generalize opt sp ["strictfp".toList] s3 = s4 at o3 h5
  -- the modifiers found
  have ex : ∃ ms : List (JavaClass.Str × JavaClass.Str), s1 = (ms.flatMap fun m => m.1 ++ m.2) ++ s4 ∧
      (∀ m ∈ ms, White sp m.2) ∧ ms.map Prod.fst ∈ allowed := by
    rcases o1 with o1 | ⟨p1, hp1, x1, hx1, o1⟩ <;> rcases o2 with o2 | ⟨p2, hp2, x2, hx2, o2⟩ <;>
      rcases o3 with o3 | ⟨p3, hp3, x3, hx3, o3⟩
    · exact ⟨[], by simp [o3, o2, o1], by simp, by decide⟩
    · exact ⟨[(p3, x3)], by simp [← o1, ← o2, o3], by simpa using hx3, by simp at hp3; subst hp3; (simp only [List.map_cons, List.map_nil]; decide)⟩
    · refine ⟨[(p2, x2)], by rw [← o1, o2, ← o3]; simp, by simpa using hx2, ?_⟩
      simp at hp2; rcases hp2 with rfl | rfl <;> (simp only [List.map_cons, List.map_nil]; decide)
    · refine ⟨[(p2, x2), (p3, x3)], by rw [← o1, o2, o3]; simp, ?_, ?_⟩
      · intro m hm; simp at hm; rcases hm with rfl | rfl <;> assumption
      · simp at hp2 hp3; subst hp3; rcases hp2 with rfl | rfl <;> (simp only [List.map_cons, List.map_nil]; decide)
    · exact ⟨[(p1, x1)], by rw [o1, ← o2, ← o3]; simp, by simpa using hx1, by simp at hp1; subst hp1; (simp only [List.map_cons, List.map_nil]; decide)⟩
    · refine ⟨[(p1, x1), (p3, x3)], by rw [o1, ← o2, o3]; simp, ?_, ?_⟩
      · intro m hm; simp at hm; rcases hm with rfl | rfl <;> assumption
      · simp at hp1 hp3; subst hp3 hp1; simp only [List.map_cons, List.map_nil]; decide
    · refine ⟨[(p1, x1), (p2, x2)], by rw [o1, o2, ← o3]; simp, ?_, ?_⟩
      · intro m hm; simp at hm; rcases hm with rfl | rfl <;> assumption
      · simp at hp1 hp2; subst hp1; rcases hp2 with rfl | rfl <;> (simp only [List.map_cons, List.map_nil]; decide)
    · refine ⟨[(p1, x1), (p2, x2), (p3, x3)], by rw [o1, o2, o3]; simp, ?_, ?_⟩
      · intro m hm; simp at hm; rcases hm with rfl | rfl | rfl <;> assumption
      · simp at hp1 hp2 hp3; subst hp3 hp1; rcases hp2 with rfl | rfl <;> (simp only [List.map_cons, List.map_nil]; decide)
  obtain ⟨ms, hms, hw, hal⟩ := ex
  refine ⟨_, post, ?_, ⟨x, y, ms, rfl, hx, hy, hw, hal⟩, hg, hc⟩
  rw [hms, h5, h6]
  simp

theorem opt_skip (sp : Char → Bool) (ps : List JavaClass.Str) (a : Char) (r : JavaClass.Str)
    (h : ∀ p ∈ ps, ∃ b t, p = b :: t ∧ b ≠ a) : opt sp ps (a :: r) = a :: r := by
  unfold opt
  have : (ps.findSome? fun p => wordSp sp p (a :: r)) = none := by
    rw [List.findSome?_eq_none_iff]
    intro p hp
    obtain ⟨b, t, rfl, hb⟩ := h p hp
    cases hw : wordSp sp (b :: t) (a :: r) with
    | none => rfl
    | some r' =>
      obtain ⟨⟨x, -, hx⟩, -⟩ := (wordSp_iff _ _ _ _).1 hw
      simp only [List.cons_append, List.cons.injEq] at hx
      exact absurd hx.1.symm hb
  rw [this]
  rfl

theorem opt_take (sp : Char → Bool) (ps : List JavaClass.Str) (a : Char) (t x r : JavaClass.Str) (hp : (a :: t) ∈ ps)
    (h : ∀ p ∈ ps, ∃ b t', p = b :: t' ∧ (b = a → t' = t)) (hx : White sp x) (hr : ∀ c, r.head? = some c → sp c = false) :
    opt sp ps ((a :: t) ++ (x ++ r)) = r := by
  unfold opt
  have hw : wordSp sp (a :: t) ((a :: t) ++ (x ++ r)) = some r :=
    (wordSp_iff _ _ _ _).2 ⟨⟨x, hx, by simp⟩, hr⟩
  have : (ps.findSome? fun p => wordSp sp p ((a :: t) ++ (x ++ r))) = some r := by
    induction ps with
    | nil => exact nomatch hp
    | cons p ps ih =>
      rw [List.findSome?_cons]
      obtain ⟨b, t', rfl, hb⟩ := h p (.head _)
      by_cases hba : b = a
      · subst hba
        cases hb rfl
        rw [hw]
      · have hn : wordSp sp (b :: t') ((a :: t) ++ (x ++ r)) = none := by
          cases hw' : wordSp sp (b :: t') ((a :: t) ++ (x ++ r)) with
          | none => rfl
          | some r' =>
            obtain ⟨⟨y, -, hy⟩, -⟩ := (wordSp_iff _ _ _ _).1 hw'
            simp only [List.cons_append, List.cons.injEq] at hy
            exact absurd hy.1.symm hba
        rw [hn]
        refine ih ?_ fun q hq => h q (.tail _ hq)
        rcases List.mem_cons.1 hp with he | hp
        · simp only [List.cons.injEq] at he
          exact absurd he.1.symm hba
        · exact hp
  rw [this]
  rfl

theorem classAt_complete (w sp : Char → Bool) (hc : Classes w sp) (d g post : JavaClass.Str) (hd : Decl sp d) (hg : g ≠ [])
    (hw : ∀ c ∈ g, w c = true) (hp : After w post) : classAt w sp (d ++ g ++ post) = some g := by
  obtain ⟨x, y, ms, rfl, hx, hy, hms, hal⟩ := hd
  have notSp : ∀ c, w c = true → sp c = false := by
    intro c h
    cases hs : sp c with
    | false => rfl
    | true => rw [hc.disjoint c hs] at h; exact nomatch h
  have let_ : ∀ c ∈ "publicstrictfpabstractfinalclasspackage".toList, sp c = false := fun c h => notSp c (hc.letters c h)
  have hc0 : sp 'c' = false := let_ _ (by decide)
  have hs0 : sp 's' = false := let_ _ (by decide)
  have ha0 : sp 'a' = false := let_ _ (by decide)
  have hf0 : sp 'f' = false := let_ _ (by decide)
  -- the end
  generalize hK : "class".toList ++ (y ++ (g ++ post)) = K
  have hKc : ∃ k, K = 'c' :: k := ⟨_, hK.symm⟩
  have hKend : (wordSp sp "class".toList K).bind (nameAt w) = some g := by
    have : wordSp sp "class".toList K = some (g ++ post) := by
      refine (wordSp_iff _ _ _ _).2 ⟨⟨y, hy, by rw [← hK]; simp⟩, ?_⟩
      intro c hcg
      cases g with
      | nil => exact absurd rfl hg
      | cons a g => cases hcg; exact notSp _ (hw _ (.head _))
    rw [this]
    exact nameAt_plain w g post hg hw hp
  have S := "strictfp".toList
  have sS : ∀ r, ∃ k, "strictfp".toList ++ r = 's' :: k := fun r => ⟨_, rfl⟩
  -- the optional words
  have skipS : ∀ a r, a ≠ 's' → opt sp ["strictfp".toList] (a :: r) = a :: r := fun a r ha =>
    opt_skip sp _ a r (by intro p hp; simp only [List.mem_singleton] at hp; subst hp; exact ⟨'s', _, rfl, fun e => ha e.symm⟩)
  have skipA : ∀ a r, a ≠ 'a' → a ≠ 'f' → opt sp ["abstract".toList, "final".toList] (a :: r) = a :: r := fun a r ha hf =>
    opt_skip sp _ a r (by
      intro p hp
      simp only [List.mem_cons, List.not_mem_nil, or_false] at hp
      rcases hp with rfl | rfl
      · exact ⟨'a', _, rfl, fun e => ha e.symm⟩
      · exact ⟨'f', _, rfl, fun e => hf e.symm⟩)
  have takeS : ∀ x r, White sp x → (∀ c, r.head? = some c → sp c = false) →
      opt sp ["strictfp".toList] ("strictfp".toList ++ (x ++ r)) = r := fun x r hx hr =>
    opt_take sp _ 's' _ x r (by decide) (by intro p hp; simp only [List.mem_singleton] at hp; subst hp; exact ⟨'s', _, rfl, fun _ => rfl⟩) hx hr
  have takeA : ∀ x r, White sp x → (∀ c, r.head? = some c → sp c = false) →
      opt sp ["abstract".toList, "final".toList] ("abstract".toList ++ (x ++ r)) = r := fun x r hx hr =>
    opt_take sp _ 'a' _ x r (by decide) (by
      intro p hp
      simp only [List.mem_cons, List.not_mem_nil, or_false] at hp
      rcases hp with rfl | rfl
      · exact ⟨'a', _, rfl, fun _ => rfl⟩
      · exact ⟨'f', _, rfl, fun e => absurd e (by decide)⟩) hx hr
  have takeF : ∀ x r, White sp x → (∀ c, r.head? = some c → sp c = false) →
      opt sp ["abstract".toList, "final".toList] ("final".toList ++ (x ++ r)) = r := fun x r hx hr =>
    opt_take sp _ 'f' _ x r (by decide) (by
      intro p hp
      simp only [List.mem_cons, List.not_mem_nil, or_false] at hp
      rcases hp with rfl | rfl
      · exact ⟨'a', _, rfl, fun e => absurd e (by decide)⟩
      · exact ⟨'f', _, rfl, fun _ => rfl⟩) hx hr
  have hdS : ∀ r c, ("strictfp".toList ++ r).head? = some c → sp c = false := by intro r c h; cases h; exact hs0
  have hdA : ∀ r c, ("abstract".toList ++ r).head? = some c → sp c = false := by intro r c h; cases h; exact ha0
  have hdF : ∀ r c, ("final".toList ++ r).head? = some c → sp c = false := by intro r c h; cases h; exact hf0
  have hdK : ∀ c, K.head? = some c → sp c = false := by
    intro c h; obtain ⟨k, rfl⟩ := hKc; cases h; exact hc0
  have sk1 : opt sp ["strictfp".toList] K = K := by obtain ⟨k, rfl⟩ := hKc; exact skipS _ _ (by decide)
  have sk2 : opt sp ["abstract".toList, "final".toList] K = K := by obtain ⟨k, rfl⟩ := hKc; exact skipA _ _ (by decide) (by decide)
  have sk3 : ∀ r, opt sp ["abstract".toList, "final".toList] ("strictfp".toList ++ r) = "strictfp".toList ++ r :=
    fun r => skipA _ _ (by decide) (by decide)
  have sk4 : ∀ r, opt sp ["strictfp".toList] ("abstract".toList ++ r) = "abstract".toList ++ r := fun r => skipS _ _ (by decide)
  have sk5 : ∀ r, opt sp ["strictfp".toList] ("final".toList ++ r) = "final".toList ++ r := fun r => skipS _ _ (by decide)
  have key : ∀ M, M = (ms.flatMap fun m => m.1 ++ m.2) ++ K → (∀ c, M.head? = some c → sp c = false) ∧
      opt sp ["strictfp".toList] (opt sp ["abstract".toList, "final".toList] (opt sp ["strictfp".toList] M)) = K := by
    rintro M rfl
    rcases ms with _ | ⟨⟨m1, x1⟩, _ | ⟨⟨m2, x2⟩, _ | ⟨⟨m3, x3⟩, _ | ⟨m4, ms⟩⟩⟩⟩
    · simp only [List.flatMap_nil, List.nil_append]
      exact ⟨hdK, by rw [sk1, sk2, sk1]⟩
    · have hx1 : White sp x1 := hms _ (.head _)
      simp only [List.flatMap_cons, List.flatMap_nil, List.append_nil, List.append_assoc]
      simp only [List.map_cons, List.map_nil, allowed, List.mem_cons, List.cons.injEq, List.not_mem_nil, and_true, or_false, and_false, false_or, reduceCtorEq] at hal
      rcases hal with rfl | rfl | rfl
      · exact ⟨hdS _, by rw [takeS _ _ hx1 hdK, sk2, sk1]⟩
      · exact ⟨hdA _, by rw [sk4, takeA _ _ hx1 hdK, sk1]⟩
      · exact ⟨hdF _, by rw [sk5, takeF _ _ hx1 hdK, sk1]⟩
    · have hx1 : White sp x1 := hms _ (.head _)
      have hx2 : White sp x2 := hms _ (.tail _ (.head _))
      simp only [List.flatMap_cons, List.flatMap_nil, List.append_nil, List.append_assoc]
      simp only [List.map_cons, List.map_nil, allowed, List.mem_cons, List.cons.injEq, List.not_mem_nil, and_true, or_false, and_false, false_or, reduceCtorEq] at hal
      rcases hal with ⟨rfl, rfl⟩ | ⟨rfl, rfl⟩ | ⟨rfl, rfl⟩ | ⟨rfl, rfl⟩ | ⟨rfl, rfl⟩
      · exact ⟨hdS _, by rw [takeS _ _ hx1 (hdA _), takeA _ _ hx2 hdK, sk1]⟩
      · exact ⟨hdS _, by rw [takeS _ _ hx1 (hdF _), takeF _ _ hx2 hdK, sk1]⟩
      · exact ⟨hdA _, by rw [sk4, takeA _ _ hx1 (hdS _), takeS _ _ hx2 hdK]⟩
      · exact ⟨hdF _, by rw [sk5, takeF _ _ hx1 (hdS _), takeS _ _ hx2 hdK]⟩
      · exact ⟨hdS _, by rw [takeS _ _ hx1 (hdS _), sk3, takeS _ _ hx2 hdK]⟩
    · have hx1 : White sp x1 := hms _ (.head _)
      have hx2 : White sp x2 := hms _ (.tail _ (.head _))
      have hx3 : White sp x3 := hms _ (.tail _ (.tail _ (.head _)))
      simp only [List.flatMap_cons, List.flatMap_nil, List.append_nil, List.append_assoc]
      simp only [List.map_cons, List.map_nil, allowed, List.mem_cons, List.cons.injEq, List.not_mem_nil, and_true, or_false, and_false, false_or, reduceCtorEq] at hal
      rcases hal with ⟨rfl, rfl, rfl⟩ | ⟨rfl, rfl, rfl⟩
      · exact ⟨hdS _, by rw [takeS _ _ hx1 (hdA _), takeA _ _ hx2 (hdS _), takeS _ _ hx3 hdK]⟩
      · exact ⟨hdS _, by rw [takeS _ _ hx1 (hdF _), takeF _ _ hx2 (hdS _), takeS _ _ hx3 hdK]⟩
    · simp [allowed] at hal
  obtain ⟨k1, k2⟩ := key _ rfl
  have e : "public".toList ++ x ++ (ms.flatMap fun m => m.1 ++ m.2) ++ "class".toList ++ y ++ g ++ post =
      "public".toList ++ x ++ ((ms.flatMap fun m => m.1 ++ m.2) ++ K) := by rw [← hK]; simp
  rw [e]
  unfold classAt
  rw [(wordSp_iff sp "public".toList _ _).2 ⟨⟨x, hx, rfl⟩, k1⟩]
  simp only [Option.bind_eq_bind, Option.bind_some]
  rw [k2]
  exact hKend

/-! ### Searching -/

/-- Whether the last character belongs to a word. -/
def lastW (w : Char → Bool) (prev : Bool) (pre : JavaClass.Str) : Bool :=
  match pre.getLast? with
  | none => prev
  | some c => w c

theorem lastW_cons (w : Char → Bool) (prev : Bool) (c : Char) (pre : JavaClass.Str) : lastW w prev (c :: pre) = lastW w (w c) pre := by
  unfold lastW
  cases pre with
  | nil => rfl
  | cons d pre => rw [List.getLast?_cons_cons]; cases h : (d :: pre).getLast? <;> simp_all

theorem search_some (w : Char → Bool) (at_ : JavaClass.Str → Option JavaClass.Str) (hat : at_ [] = none) (s : JavaClass.Str) :
    ∀ (prev : Bool) (g : JavaClass.Str), search w at_ prev s = some g ↔
      ∃ pre r, s = pre ++ r ∧ lastW w prev pre = false ∧ at_ r = some g ∧
        ∀ pre' r', s = pre' ++ r' → pre'.length < pre.length → lastW w prev pre' = false → at_ r' = none := by
  induction s with
  | nil =>
    intro prev g
    simp only [search]
    constructor
    · exact fun h => nomatch h
    · rintro ⟨pre, r, h, -, h2, -⟩
      obtain ⟨-, rfl⟩ := List.append_eq_nil_iff.1 h.symm
      rw [hat] at h2; exact h2
  | cons c s ih =>
    intro prev g
    simp only [search]
    constructor
    · intro h
      cases hif : (if prev then none else at_ (c :: s)) with
      | some g' =>
        rw [hif] at h
        cases h
        cases prev with
        | true => exact nomatch hif
        | false =>
          exact ⟨[], c :: s, rfl, rfl, hif, fun pre' r' _ hl => absurd hl (Nat.not_lt_zero _)⟩
      | none =>
        rw [hif] at h
        obtain ⟨pre, r, rfl, h1, h2, h3⟩ := (ih _ _).1 h
        refine ⟨c :: pre, r, rfl, by rw [lastW_cons]; exact h1, h2, ?_⟩
        intro pre' r' he hl hw
        cases pre' with
        | nil =>
          rw [List.nil_append] at he
          subst he
          have hp : prev = false := hw
          subst hp
          exact hif
        | cons d pre' =>
          simp only [List.cons_append, List.cons.injEq] at he
          obtain ⟨rfl, he⟩ := he
          rw [lastW_cons] at hw
          exact h3 pre' r' he (by simpa using hl) hw
    · rintro ⟨pre, r, he, h1, h2, h3⟩
      cases pre with
      | nil =>
        rw [List.nil_append] at he
        subst he
        have hp : prev = false := h1
        subst hp
        simp only [Bool.false_eq_true, if_false, h2]
      | cons d pre =>
        simp only [List.cons_append, List.cons.injEq] at he
        obtain ⟨rfl, rfl⟩ := he
        rw [lastW_cons] at h1
        have hif : (if prev then none else at_ (c :: (pre ++ r))) = none := by
          cases hp : prev with
          | true => rfl
          | false => exact h3 [] _ rfl (by simp) hp
        rw [hif]
        refine (ih _ _).2 ⟨pre, r, rfl, h1, h2, ?_⟩
        intro pre' r' he hl hw
        exact h3 (c :: pre') r' (by rw [he]; rfl) (by simpa using hl) (by rw [lastW_cons]; exact hw)

theorem search_none (w : Char → Bool) (at_ : JavaClass.Str → Option JavaClass.Str) (s : JavaClass.Str) :
    ∀ (prev : Bool), search w at_ prev s = none → ∀ pre r, s = pre ++ r → r ≠ [] → lastW w prev pre = false → at_ r = none := by
  induction s with
  | nil =>
    intro prev _ pre r he hr
    exact absurd (List.append_eq_nil_iff.1 he.symm).2 hr
  | cons c s ih =>
    intro prev h pre r he hr hw
    simp only [search] at h
    cases hif : (if prev then none else at_ (c :: s)) with
    | some g' => rw [hif] at h; exact nomatch h
    | none =>
      rw [hif] at h
      cases pre with
      | nil =>
        rw [List.nil_append] at he
        subst he
        have hp : prev = false := hw
        subst hp
        exact hif
      | cons d pre =>
        simp only [List.cons_append, List.cons.injEq] at he
        obtain ⟨rfl, he⟩ := he
        rw [lastW_cons] at hw
        exact ih _ h pre r he hr hw

theorem before_iff (w : Char → Bool) (pre : JavaClass.Str) : Before w pre ↔ lastW w false pre = false := by
  unfold Before lastW
  cases pre.getLast? <;> simp

theorem search_complete (w : Char → Bool) (at_ : JavaClass.Str → Option JavaClass.Str) (pre r g : JavaClass.Str) (hr : r ≠ [])
    (hb : Before w pre) (h : at_ r = some g) : ∃ g', search w at_ false (pre ++ r) = some g' := by
  cases hs : search w at_ false (pre ++ r) with
  | some g' => exact ⟨g', rfl⟩
  | none =>
    have := search_none w at_ _ false hs pre r rfl hr ((before_iff w pre).1 hb)
    rw [h] at this
    exact nomatch this

end Jc

open Jc

/-- There is a declaration of a public class with an ordinary name `g`, `pre` characters into the text. -/
def DeclAt (w sp : Char → Bool) (s pre g : JavaClass.Str) : Prop := ∃ d post, s = pre ++ (d ++ g ++ post) ∧ Before w pre ∧ Decl sp d ∧
  g ≠ [] ∧ (∀ c ∈ g, w c = true) ∧ After w post

/-- C70.  The class name is usable as a file name and as an argument: it is not empty, names no other directory and is no option. -/
theorem C70_safe (w sp : Char → Bool) (hc : Classes w sp) (src g : JavaClass.Str) (h : findClass w sp src = .ok g) :
    g ≠ [] ∧ '/' ∉ g ∧ '.' ∉ g ∧ '-' ∉ g ∧ ∀ c ∈ g, sp c = false := by
  unfold findClass at h
  dsimp only at h
  split at h
  · exact nomatch h
  · next g' hs =>
    split at h
    · exact nomatch h
    · cases h
      obtain ⟨pre, r, -, -, hat, -⟩ := (search_some w _ rfl _ _ _).1 hs
      obtain ⟨d, post, -, -, hg, hi⟩ := classAt_sound _ _ _ _ hat
      have hin : ∀ c ∈ g, w c = true ∨ c = '$' := by
        intro c hcg
        have := hi c hcg
        simpa [ident] using this
      refine ⟨hg, ?_, ?_, ?_, ?_⟩
      · intro hm; rcases hin _ hm with h | h
        · rw [hc.punct.1] at h; exact nomatch h
        · exact absurd h (by decide)
      · intro hm; rcases hin _ hm with h | h
        · rw [hc.punct.2.1] at h; exact nomatch h
        · exact absurd h (by decide)
      · intro hm; rcases hin _ hm with h | h
        · rw [hc.punct.2.2.1] at h; exact nomatch h
        · exact absurd h (by decide)
      · intro c hm
        cases hs : sp c with
        | false => rfl
        | true =>
          rcases hin _ hm with h | h
          · rw [hc.disjoint c hs] at h; exact nomatch h
          · subst h; rw [hc.spPunct.1] at hs; exact nomatch hs

/-- C70.  A class is found exactly if, in what is left of the program, there is a declaration (with an ordinary name). -/
theorem C70_none (w sp : Char → Bool) (hc : Classes w sp) (src : JavaClass.Str) (h : findClass w sp src = .error .noClass) :
    ¬ ∃ pre g, DeclAt w sp (JavaClass.strip src) pre g := by
  rintro ⟨pre, g, d, post, hs, hb, hd, hg, hw, hp⟩
  have hat := classAt_complete w sp hc d g post hd hg hw hp
  have hne : d ++ g ++ post ≠ [] := by
    intro he
    exact hg (List.append_eq_nil_iff.1 (List.append_eq_nil_iff.1 he).1).2
  obtain ⟨g', hg'⟩ := search_complete w (classAt w sp) pre (d ++ g ++ post) g hne hb hat
  unfold findClass at h
  dsimp only at h
  rw [hs, hg'] at h
  dsimp only at h
  split at h <;> exact nomatch h

/-- C70.  The class used is declared in the program, and it is the first: no class with an ordinary name is declared before. -/
theorem C70_first (w sp : Char → Bool) (hc : Classes w sp) (src g : JavaClass.Str) (h : findClass w sp src = .ok g) :
    ∃ pre d post, JavaClass.strip src = pre ++ (d ++ g ++ post) ∧ Before w pre ∧ Decl sp d ∧
      ∀ pre' g', DeclAt w sp (JavaClass.strip src) pre' g' → pre.length ≤ pre'.length := by
  unfold findClass at h
  dsimp only at h
  split at h
  · exact nomatch h
  · next g' hs =>
    split at h
    · exact nomatch h
    · cases h
      obtain ⟨pre, r, hsrc, hb, hat, hfirst⟩ := (search_some w _ rfl _ _ _).1 hs
      obtain ⟨d, post, rfl, hd, -, -⟩ := classAt_sound _ _ _ _ hat
      refine ⟨pre, d, post, hsrc, (before_iff w pre).2 hb, hd, ?_⟩
      rintro pre' g' ⟨d', post', hs', hb', hd', hg', hw', hp'⟩
      refine Nat.not_lt.1 fun hl => ?_
      have := hfirst pre' _ hs' hl ((before_iff w pre').1 hb')
      rw [classAt_complete w sp hc d' g' post' hd' hg' hw' hp'] at this
      exact nomatch this

/-- C70.  In a clean program exactly the comments and literals are ignored. Partial: see the failures below for what else Java
allows. -/
theorem C70_strip_partial (l : List Seg) (h : Clean l) : JavaClass.strip (text l) = code l := strip_clean l h

/-- C70.  A quote that begins no literal is part of the code: an apostrophe with no character (or escape) and apostrophe behind it, a double quote that is
the last. -/
theorem C70_lone (pre r : JavaClass.Str) (hp : '"' ∉ pre ∧ '\'' ∉ pre) :
    ((∀ c post, r ≠ c :: '\'' :: post) → (∀ c post, r ≠ '\\' :: c :: '\'' :: post) → stripLit (pre ++ '\'' :: r) = pre ++ '\'' :: stripLit r) ∧
    ('"' ∉ r → stripLit (pre ++ '"' :: r) = pre ++ '"' :: stripLit r) := by
  constructor
  · intro h1 h2
    have hn : chrEnd r = none := by
      fun_cases chrEnd r <;> grind
    rw [stripLit_skip pre _ hp, stripLit, if_neg (by decide), if_pos rfl]
    split
    · next h => rw [hn] at h; cases h
    · rfl
  · intro h
    have hn : strEnd r = none := by
      fun_induction strEnd r <;> grind
    rw [stripLit_skip pre _ hp, stripLit, if_pos rfl]
    split
    · next h => rw [hn] at h; cases h
    · rfl

example : stripLit "a 'bc' \"x".toList = "a 'bc' \"x".toList := by decide +kernel

/-- C70.  So for a clean program without the word `package`, the judge uses exactly the first public class declared in the code,
if its name is an ordinary one. -/
theorem C70_found_partial (w sp : Char → Bool) (hc : Classes w sp) (l : List Seg) (h : Clean l) (pre g : JavaClass.Str)
    (hd : DeclAt w sp (code l) pre g)
    (hfirst : ∀ pre' r d g' post, code l = pre' ++ r → pre'.length < pre.length → Before w pre' → Decl sp d → r ≠ d ++ g' ++ post)
    (hpk : ¬ "package".toList <:+: code l) : findClass w sp (text l) = .ok g := by
  have hs := strip_clean l h
  obtain ⟨d, post, he, hb, hd, hg, hw, hp⟩ := hd
  have hat := classAt_complete w sp hc d g post hd hg hw hp
  have h1 : search w (classAt w sp) false (code l) = some g := by
    refine (search_some w _ rfl _ _ _).2 ⟨pre, _, he, (before_iff w pre).1 hb, hat, ?_⟩
    intro pre' r' he' hl hw'
    cases hn : classAt w sp r' with
    | none => rfl
    | some g' =>
      obtain ⟨d', post', hr, hd', -, -⟩ := classAt_sound _ _ _ _ hn
      exact absurd hr (hfirst pre' r' d' g' post' he' hl ((before_iff w pre').2 hw') hd')
  have h2 : search w (packageAt sp) false (code l) = none := by
    cases hn : search w (packageAt sp) false (code l) with
    | none => rfl
    | some p =>
      obtain ⟨pre', r, he', -, hat', -⟩ := (search_some w _ rfl _ _ _).1 hn
      exfalso
      apply hpk
      unfold packageAt at hat'
      simp only [Option.bind_eq_bind, Option.bind_eq_some_iff] at hat'
      obtain ⟨t, ht, -⟩ := hat'
      rw [word_iff] at ht
      exact ⟨pre', t, by rw [he', ht]; simp⟩
  unfold findClass
  dsimp only
  rw [hs, h1]
  dsimp only
  rw [h2]

theorem noEmpty_run : ∀ (p r : JavaClass.Str) (b : Bool), p ≠ [] → (∀ c ∈ p, c ≠ '.') → noEmpty b (p ++ r) = noEmpty false r := by
  intro p
  induction p with
  | nil => intro r b h; exact absurd rfl h
  | cons a p ih =>
    intro r b _ h
    rw [List.cons_append, noEmpty, if_neg (h a (.head _))]
    cases p with
    | nil => rfl
    | cons a' p => exact ih r false (by simp) fun c hc => h c (.tail _ hc)

theorem dotted_cons (p q : JavaClass.Str) (parts : List JavaClass.Str) :
    ['.'].intercalate (p :: q :: parts) = p ++ '.' :: ['.'].intercalate (q :: parts) := by
  simp [List.intercalate, List.intersperse]

/-- Names of non-empty parts between dots are those the expression takes. -/
theorem noEmpty_iff (s : JavaClass.Str) : noEmpty true s = true ↔
    ∃ parts, parts ≠ [] ∧ (∀ p ∈ parts, p ≠ [] ∧ '.' ∉ p) ∧ s = ['.'].intercalate parts := by
  constructor
  · have : ∀ s : JavaClass.Str, (noEmpty true s = true → ∃ parts, parts ≠ [] ∧ (∀ p ∈ parts, p ≠ [] ∧ '.' ∉ p) ∧ s = ['.'].intercalate parts) ∧
        (noEmpty false s = true → ∃ q parts, '.' ∉ q ∧ (∀ p ∈ parts, p ≠ [] ∧ '.' ∉ p) ∧ s = ['.'].intercalate (q :: parts)) := by
      intro s
      induction s with
      | nil => exact ⟨(fun h => nomatch h), (fun _ => ⟨[], [], by simp, by simp, rfl⟩)⟩
      | cons c r ih =>
        by_cases hc : c = '.'
        · refine ⟨fun h => ?_, fun h => ?_⟩
          · rw [noEmpty, if_pos hc] at h; exact nomatch h
          · rw [noEmpty, if_pos hc] at h
            obtain ⟨parts, h1, h2, h3⟩ := ih.1 (by simpa using h)
            cases parts with
            | nil => exact absurd rfl h1
            | cons q parts => exact ⟨[], q :: parts, by simp, h2, by rw [dotted_cons, ← h3, hc]; rfl⟩
        · have key : noEmpty false r = true → ∃ q parts, '.' ∉ q ∧ (∀ p ∈ parts, p ≠ [] ∧ '.' ∉ p) ∧ c :: r = ['.'].intercalate ((c :: q) :: parts) := by
            intro h
            obtain ⟨q, parts, h1, h2, h3⟩ := ih.2 h
            refine ⟨q, parts, h1, h2, ?_⟩
            rw [h3]
            cases parts with
            | nil => simp [List.intercalate, List.intersperse]
            | cons p parts => rw [dotted_cons, dotted_cons]; rfl
          refine ⟨fun h => ?_, fun h => ?_⟩
          · rw [noEmpty, if_neg hc] at h
            obtain ⟨q, parts, h1, h2, h3⟩ := key h
            refine ⟨(c :: q) :: parts, by simp, ?_, h3⟩
            intro p hp
            rcases List.mem_cons.1 hp with rfl | hp
            · exact ⟨by simp, fun hm => (List.mem_cons.1 hm).elim (fun e => hc e.symm) h1⟩
            · exact h2 p hp
          · rw [noEmpty, if_neg hc] at h
            obtain ⟨q, parts, h1, h2, h3⟩ := key h
            exact ⟨c :: q, parts, fun hm => (List.mem_cons.1 hm).elim (fun e => hc e.symm) h1, h2, h3⟩
    exact (this s).1
  · rintro ⟨parts, hne, hp, rfl⟩
    induction parts with
    | nil => exact absurd rfl hne
    | cons p parts ih =>
      obtain ⟨h1, h2⟩ := hp p (.head _)
      have hd : ∀ c ∈ p, c ≠ '.' := fun c hc e => h2 (e ▸ hc)
      cases parts with
      | nil =>
        have := noEmpty_run p [] true h1 hd
        simp only [List.intercalate, List.intersperse, List.flatten_cons, List.flatten_nil]
        rw [this]; rfl
      | cons q parts =>
        rw [dotted_cons, noEmpty_run p _ true h1 hd, noEmpty, if_pos rfl]
        simpa using ih (by simp) fun p' hp' => hp p' (.tail _ hp')

theorem upToSemi (post : JavaClass.Str) : ∀ (name : JavaClass.Str), ';' ∉ name →
    (name ++ ';' :: post).takeWhile (fun c => decide (c ≠ ';')) = name ∧
      (name ++ ';' :: post).dropWhile (fun c => decide (c ≠ ';')) = ';' :: post := by
  intro name
  induction name with
  | nil => intro _; simp
  | cons c name ih =>
    intro h
    obtain ⟨i1, i2⟩ := ih fun hd => h (.tail _ hd)
    have hc : c ≠ ';' := fun e => h (e ▸ .head _)
    simp only [List.cons_append, List.takeWhile_cons, List.dropWhile_cons]
    rw [if_pos (by simpa using hc), if_pos (by simpa using hc), i1, i2]
    exact ⟨rfl, rfl⟩

/-- C70.  A program that declares a package is never accepted: white space and any name of non-empty parts up to the semicolon; white space in
the name does not help. -/
theorem C70_package (w sp : Char → Bool) (hc : Classes w sp) (src pre x post : JavaClass.Str) (parts : List JavaClass.Str)
    (hs : JavaClass.strip src = pre ++ ("package".toList ++ x ++ (['.'].intercalate parts ++ ';' :: post)))
    (hb : Before w pre) (hx : White sp x) (hne : parts ≠ [])
    (hp : ∀ p ∈ parts, p ≠ [] ∧ '.' ∉ p ∧ ';' ∉ p) (g : JavaClass.Str) : findClass w sp src ≠ .ok g := by
  have n1 : noEmpty true (['.'].intercalate parts) = true := (noEmpty_iff _).2 ⟨parts, hne, fun p h => ⟨(hp p h).1, (hp p h).2.1⟩, rfl⟩
  have n2 : ';' ∉ ['.'].intercalate parts := by
    clear hs n1
    induction parts with
    | nil => exact absurd rfl hne
    | cons p parts ih =>
      cases parts with
      | nil => simpa [List.intercalate, List.intersperse] using (hp p (.head _)).2.2
      | cons q parts =>
        rw [dotted_cons]
        simp only [List.mem_append, List.mem_cons, not_or]
        exact ⟨(hp p (.head _)).2.2, by decide, by
          have := ih (by simp) fun p' hp' => hp p' (.tail _ hp')
          simpa using this⟩
  generalize ['.'].intercalate parts = name at hs n1 n2
  have hat : ∃ n, packageAt sp ("package".toList ++ x ++ (name ++ ';' :: post)) = some n := by
    unfold packageAt
    rw [(word_iff _ _ (x ++ (name ++ ';' :: post))).2 (List.append_assoc _ _ _)]
    simp only [Option.bind_eq_bind, Option.bind_some]
    obtain ⟨hx0, hxw⟩ := hx
    cases x with
    | nil => exact absurd rfl hx0
    | cons b x =>
      simp only [List.cons_append]
      rw [if_pos (hxw b (.head _))]
      obtain ⟨u, v, huv, hu, hv⟩ : ∃ u v, name = u ++ v ∧ (∀ c ∈ u, sp c = true) ∧ (∀ c, v.head? = some c → sp c = false) := by
        refine ⟨name.takeWhile sp, name.dropWhile sp, (List.takeWhile_append_dropWhile ..).symm, fun c h => ?_, fun c h => ?_⟩
        · exact List.all_eq_true.1 (List.all_takeWhile) c h
        · have := List.head?_dropWhile_not sp name
          rw [h] at this; simpa using this
      have hhead : ∀ c, (v ++ ';' :: post).head? = some c → sp c = false := by
        intro c h
        cases v with
        | nil => cases h; exact hc.spPunct.2.2
        | cons d v => exact hv c h
      have hwhite : ∀ c ∈ x ++ u, sp c = true := fun c h => (List.mem_append.1 h).elim (fun h => hxw c (.tail _ h)) (hu c)
      have e1 : (x ++ (name ++ ';' :: post)).dropWhile sp = v ++ ';' :: post := by
        rw [huv, show x ++ (u ++ v ++ ';' :: post) = (x ++ u) ++ (v ++ ';' :: post) by simp]
        exact dropWhile_white (x ++ u) _ hwhite hhead
      have e2 : (x ++ (name ++ ';' :: post)).takeWhile sp = x ++ u := by
        have := List.takeWhile_append_dropWhile (p := sp) (l := x ++ (name ++ ';' :: post))
        rw [e1] at this
        have h2 : x ++ (name ++ ';' :: post) = (x ++ u) ++ (v ++ ';' :: post) := by rw [huv]; simp
        exact List.append_cancel_right (this.trans h2)
      have hvs : ';' ∉ v := fun h => n2 (huv ▸ List.mem_append_right _ h)
      rw [e1, e2, (upToSemi post v hvs).1, (upToSemi post v hvs).2]
      dsimp only
      by_cases hn : noEmpty true v = true
      · rw [if_pos hn]; exact ⟨v, rfl⟩
      · rw [if_neg hn]
        dsimp only
        have hu0 : u ≠ [] := fun e => hn (by rw [huv, e] at n1; exact n1)
        obtain ⟨d, hd⟩ : ∃ d, (x ++ u).getLast? = some d := by
          cases h : (x ++ u).getLast? with
          | none => simp [hu0] at h
          | some d => exact ⟨d, rfl⟩
        have hdw := hwhite d (List.mem_of_getLast? hd)
        have hd1 : d ≠ '.' := fun e => by rw [e, hc.spPunct.2.1] at hdw; exact nomatch hdw
        have hd2 : d ≠ ';' := fun e => by rw [e, hc.spPunct.2.2] at hdw; exact nomatch hdw
        have hdv : ';' ∉ d :: v := fun h => (List.mem_cons.1 h).elim (fun e => hd2 e.symm) hvs
        rw [hd]
        dsimp only
        rw [← List.cons_append, (upToSemi post _ hdv).1, (upToSemi post _ hdv).2]
        dsimp only
        have hdot : ∀ c ∈ u, c ≠ '.' := fun c h e => by
          have := hu c h
          rw [e, hc.spPunct.2.1] at this; exact nomatch this
        rw [huv, noEmpty_run u v true hu0 hdot] at n1
        rw [noEmpty, if_neg hd1, if_pos n1]
        exact ⟨_, rfl⟩
  obtain ⟨name', hat⟩ := hat
  intro h
  obtain ⟨p, hp'⟩ := search_complete w (packageAt sp) pre _ name' (by simp) hb hat
  unfold findClass at h
  dsimp only at h
  rw [hs, hp'] at h
  split at h <;> exact nomatch h

/-- C70.  And only such a program is refused for its package: the name that is shown is one of non-empty parts, between the word `package` with
white space and a semicolon. -/
theorem C70_package_only (w sp : Char → Bool) (src g : JavaClass.Str) (h : findClass w sp src = .error (.package g)) :
    ∃ pre x parts post, JavaClass.strip src = pre ++ ("package".toList ++ x ++ (['.'].intercalate parts ++ ';' :: post)) ∧ Before w pre ∧
      White sp x ∧ parts ≠ [] ∧ (∀ p ∈ parts, p ≠ [] ∧ '.' ∉ p) ∧ g = ['.'].intercalate parts ∧ ';' ∉ g := by
  unfold findClass at h
  dsimp only at h
  split at h
  · exact nomatch h
  · split at h
    · next p hp =>
      cases h
      obtain ⟨pre, r, he, hb, hat, -⟩ := (search_some w _ rfl _ _ _).1 hp
      unfold packageAt at hat
      simp only [Option.bind_eq_bind, Option.bind_eq_some_iff] at hat
      obtain ⟨s, hs, hat⟩ := hat
      rw [word_iff] at hs
      have take : ∀ (t n : JavaClass.Str), (match t.dropWhile (fun c => decide (c ≠ ';')) with
          | [] => none
          | _ :: _ => if noEmpty true (t.takeWhile (fun c => decide (c ≠ ';'))) then some (t.takeWhile (fun c => decide (c ≠ ';'))) else none) = some n →
          ∃ post, t = n ++ ';' :: post ∧ noEmpty true n = true ∧ ';' ∉ n := by
        intro t n h
        split at h
        · exact nomatch h
        · next d post e =>
          split at h
          · next hn =>
            have hd : d = ';' := by
              have := List.head?_dropWhile_not (fun c => decide (c ≠ ';')) t
              rw [e] at this; simpa using this
            cases h
            refine ⟨post, ?_, hn, fun hm => ?_⟩
            · have := List.takeWhile_append_dropWhile (p := fun c => decide (c ≠ ';')) (l := t)
              rw [e, hd] at this; exact this.symm
            · have := List.all_eq_true.1 (List.all_takeWhile (p := fun c => decide (c ≠ ';')) (l := t)) _ hm
              simp at this
          · exact nomatch h
      split at hat
      · exact nomatch hat
      · next c s =>
        split at hat
        · next hc =>
          have hall : ∀ d ∈ s.takeWhile sp, sp d = true := fun d hd => List.all_eq_true.1 List.all_takeWhile d hd
          have hsplit := List.takeWhile_append_dropWhile (p := sp) (l := s)
          split at hat
          · next g' ht =>
            cases hat
            obtain ⟨post, e, hn, hno⟩ := take _ _ ht
            obtain ⟨parts, p1, p2, p3⟩ := (noEmpty_iff _).1 hn
            refine ⟨pre, c :: s.takeWhile sp, parts, post, ?_, (before_iff w pre).2 hb, ⟨by simp, ?_⟩, p1, p2, p3, hno⟩
            · rw [he, hs, ← p3, ← e]
              rw [List.append_assoc, List.cons_append, hsplit]
            · intro d hd
              rcases List.mem_cons.1 hd with rfl | hd
              · exact hc
              · exact hall d hd
          · split at hat
            · next c' hl =>
              obtain ⟨post, e, hn, hno⟩ := take _ _ hat
              obtain ⟨parts, p1, p2, p3⟩ := (noEmpty_iff _).1 hn
              refine ⟨pre, c :: (s.takeWhile sp).dropLast, parts, post, ?_, (before_iff w pre).2 hb, ⟨by simp, ?_⟩, p1, p2, p3, hno⟩
              · rw [he, hs, ← p3, ← e]
                have hdl : s.takeWhile sp = (s.takeWhile sp).dropLast ++ [c'] := by
                  have hne : s.takeWhile sp ≠ [] := by intro h0; rw [h0] at hl; exact nomatch hl
                  have := List.dropLast_concat_getLast hne
                  rw [List.getLast?_eq_some_getLast hne] at hl
                  rw [Option.some.inj hl] at this
                  exact this.symm
                rw [List.append_assoc, List.cons_append]
                congr 3
                conv => lhs; rw [← hsplit, hdl]
                simp
              · intro d hd
                rcases List.mem_cons.1 hd with rfl | hd
                · exact hc
                · exact hall d (List.dropLast_subset _ hd)
            · exact nomatch hat
        · exact nomatch hat
    · exact nomatch h

/-! ### Programs that Java accepts -/

namespace JcEx

def w (c : Char) : Bool := c.isAlphanum || c = '_'
def sp (c : Char) : Bool := c = ' ' || c = '\n' || c = '\r' || c = '\t'

theorem classes : Classes w sp where
  letters := by decide
  disjoint := by
    intro c h
    simp only [sp, Bool.or_eq_true, decide_eq_true_eq] at h
    rcases h with ((rfl | rfl) | rfl) | rfl <;> decide
  punct := by decide
  spPunct := by decide

instance : DecidableEq (Except Err JavaClass.Str)
  | .ok a, .ok b => decidable_of_iff (a = b) ⟨fun h => h ▸ rfl, fun h => Except.ok.inj h⟩
  | .error a, .error b => decidable_of_iff (a = b) ⟨fun h => h ▸ rfl, fun h => Except.error.inj h⟩
  | .ok _, .error _ => .isFalse (fun h => nomatch h)
  | .error _, .ok _ => .isFalse (fun h => nomatch h)

def codes (s : String) : List Seg := s.toList.map .code

/-- A comment, a string with quotes and a line comment before the class. -/
def prog : List Seg :=
  [.block " class X \" ' ".toList] ++ codes "\nfinal class A { String s = " ++ [.str [.plain '{', .esc '"', .plain '}']] ++
    codes "; char c = " ++ [.chr (.esc '\'')] ++ codes "; }" ++ [.line " public class B".toList '\n'] ++
    codes "public final class Main { }"

end JcEx

open JcEx

/-- C70.  A quote in a line comment hides the code up to the next quote. -/
theorem C70_quote_fails : ∃ l : List Seg, text l = "// \"\npublic class A { String s = \"\"; }".toList ∧ (∀ s ∈ l, s.Ok) ∧
    "public class A ".toList <:+: code l ∧ findClass w sp (text l) = .error .noClass := by
  refine ⟨[.line " \"".toList '\n'] ++ codes "public class A { String s = " ++ [.str []] ++ codes "; }", by decide +kernel, ?_, ?_, ?_⟩
  · intro s hs
    simp only [codes, List.mem_append, List.mem_singleton, List.mem_map] at hs
    rcases hs with ((rfl | ⟨c, hc, rfl⟩) | rfl) | ⟨c, hc, rfl⟩
    · exact ⟨by decide, .inl rfl⟩
    · exact ⟨fun e => absurd (e ▸ hc) (by decide), fun e => absurd (e ▸ hc) (by decide)⟩
    · exact fun c hc => nomatch hc
    · exact ⟨fun e => absurd (e ▸ hc) (by decide), fun e => absurd (e ▸ hc) (by decide)⟩
  · exact ⟨"\n".toList, "{ String s = ; }".toList, by decide +kernel⟩
  · decide +kernel

/-- C70.  So does `/*` in a string, up to the end of the next comment. -/
theorem C70_star_fails : ∃ l : List Seg, text l = "class B { String s = \"/*\"; } public class A { /**/ }".toList ∧ (∀ s ∈ l, s.Ok) ∧
    "public class A ".toList <:+: code l ∧ findClass w sp (text l) = .error .noClass := by
  refine ⟨codes "class B { String s = " ++ [.str [.plain '/', .plain '*']] ++ codes "; } public class A { " ++ [.block []] ++ codes " }",
    by decide +kernel, ?_, ?_, ?_⟩
  · intro s hs
    simp only [codes, List.mem_append, List.mem_singleton, List.mem_map] at hs
    rcases hs with (((⟨c, hc, rfl⟩ | rfl) | ⟨c, hc, rfl⟩) | rfl) | ⟨c, hc, rfl⟩
    · exact ⟨fun e => absurd (e ▸ hc) (by decide), fun e => absurd (e ▸ hc) (by decide)⟩
    · intro c hc; simp at hc; rcases hc with rfl | rfl <;> decide
    · exact ⟨fun e => absurd (e ▸ hc) (by decide), fun e => absurd (e ▸ hc) (by decide)⟩
    · show ¬ ['*', '/'] <:+: [] ++ ['*']
      decide
    · exact ⟨fun e => absurd (e ▸ hc) (by decide), fun e => absurd (e ▸ hc) (by decide)⟩
  · exact ⟨"class B { String s = ; } ".toList, "{  }".toList, by decide +kernel⟩
  · decide +kernel

/-- C70.  A comment as the only separation of two words joins them. -/
theorem C70_join_fails : findClass w sp "public/**/class A { }".toList = .error .noClass := by decide +kernel

/-- C70.  A last line that is a comment without an end of line is read as code: a package in it rejects the program. -/
theorem C70_last_fails : findClass w sp "public class A { } // package a;".toList = .error (.package "a".toList) := by decide +kernel

/-- C70.  A dollar sign, which Java allows in names, ends the name: a class `A$B` is written to `A.java`, which the compiler then
refuses, and a class `$` is not found. -/
theorem C70_dollar_fails : findClass w sp "public class A$B { }".toList = .ok "A".toList ∧
    findClass w sp "public class $ { }".toList = .error .noClass := by
  constructor <;> decide +kernel

/-- C70.  A public class inside another class counts as well, even before the main class. -/
theorem C70_nested_fails : findClass w sp "class B { public class C { } } public class A { }".toList = .ok "C".toList := by decide +kernel

/-! The clean program of above: the class after the comments and literals is used. -/

namespace JcEx

instance decOk : DecidablePred Seg.Ok := fun s => by
  cases s with
  | code c => exact inferInstanceAs (Decidable (_ ∧ _))
  | block b => exact inferInstanceAs (Decidable (¬ _))
  | line b nl => exact inferInstanceAs (Decidable (_ ∧ _))
  | str b =>
    have : Seg.Ok (.str b) ↔ ∀ x ∈ b, x ≠ .plain '"' ∧ x ≠ .plain '\\' := by
      constructor
      · intro h x hx
        exact ⟨fun e => (h _ (e ▸ hx)).1 rfl, fun e => (h _ (e ▸ hx)).2 rfl⟩
      · intro h c hc
        exact ⟨fun e => (h _ hc).1 (e ▸ rfl), fun e => (h _ hc).2 (e ▸ rfl)⟩
    exact decidable_of_iff _ this.symm
  | chr b =>
    have : Seg.Ok (.chr b) ↔ b ≠ .plain '\'' ∧ b ≠ .plain '\\' := by
      constructor
      · intro h
        exact ⟨fun e => (h _ e).1 rfl, fun e => (h _ e).2 rfl⟩
      · intro h c hc
        exact ⟨fun e => h.1 (e ▸ hc), fun e => h.2 (e ▸ hc)⟩
    exact decidable_of_iff _ this.symm

theorem prog_clean : Clean prog where
  ok := by decide +kernel
  noBlock := by decide +kernel
  noQuote := by
    intro b nl h
    simp only [prog, codes, List.mem_append, List.mem_singleton, List.mem_map, reduceCtorEq, and_false, exists_false, or_false,
      false_or] at h
    injection h with h1 h2
    subst h1
    decide
  noLine := by decide +kernel

example : code prog = "\nfinal class A { String s = ; char c = ; }\npublic final class Main { }".toList := by decide +kernel
example : JavaClass.strip (text prog) = code prog := C70_strip_partial prog prog_clean
example : findClass w sp (text prog) = .ok "Main".toList := by
  unfold findClass
  dsimp only
  rw [C70_strip_partial prog prog_clean]
  rfl
theorem prog_decl : DeclAt w sp (code prog) "\nfinal class A { String s = ; char c = ; }\n".toList "Main".toList :=
  ⟨"public final class ".toList, " { }".toList, by decide +kernel, by unfold Before; simp; decide,
    ⟨[' '], [' '], [("final".toList, [' '])], by decide +kernel, ⟨by simp, by decide⟩, ⟨by simp, by decide⟩,
      by intro m hm; simp at hm; subst hm; exact ⟨by simp, by decide⟩, by decide⟩, by decide, by decide, by unfold After; simp; decide⟩
example : findClass w sp (text prog) = .ok "Main".toList := by
  refine C70_found_partial w sp classes prog prog_clean _ _ prog_decl ?_ (by decide +kernel)
  intro pre' r d g' post he hl _ hd hr
  obtain ⟨x, y, ms, rfl, -⟩ := hd
  have hpub : ∀ k < 43, "public".toList.isPrefixOf ((code prog).drop k) = false := by decide +kernel
  have h1 := hpub pre'.length hl
  rw [he, List.drop_left, hr] at h1
  simp [List.append_assoc] at h1
example : ∀ g, findClass w sp "package a.b;\npublic class A { }".toList ≠ .ok g := fun g =>
  C70_package w sp classes _ [] [' '] "\npublic class A { }".toList [['a'], ['b']] (by decide +kernel) (by unfold Before; simp)
    ⟨by simp, by decide⟩ (by simp) (by decide) g
example := C70_package_only w sp "package  .b;\npublic class A { }".toList " .b".toList (by decide +kernel)

end JcEx

end Verif.Props
