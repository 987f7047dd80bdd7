import Verif.Model.Source
import Verif.Spec.Source
import Verif.Props.JavaClass

/-! # C84: what reaches the compiler is what was submitted -/

namespace Verif.Props

open Verif.Source Verif.Spec.Source

namespace Sc

open JavaClass (stripBlock stripLine blockEnd lineRest word)

/-! ### Comments of Go -/

theorem block_cons (c : Char) (h : c ≠ '/') (s : Source.Str) : stripBlock (c :: s) = c :: stripBlock s := by
  cases s with
  | nil => simp [stripBlock]
  | cons d s => rw [stripBlock, if_neg (by simp [h])]

theorem line_cons (c : Char) (h : c ≠ '/') (s : Source.Str) : stripLine (c :: s) = c :: stripLine s := by
  cases s with
  | nil => simp [stripLine]
  | cons d s => rw [stripLine, if_neg (by simp [h])]

theorem block_plain (x s : Source.Str) (h : '/' ∉ x) : stripBlock (x ++ s) = x ++ stripBlock s := by
  induction x with
  | nil => rfl
  | cons c x ih =>
    simp only [List.mem_cons, not_or] at h
    rw [List.cons_append, block_cons c (fun e => h.1 e.symm), ih h.2, List.cons_append]

theorem line_plain (x s : Source.Str) (h : '/' ∉ x) : stripLine (x ++ s) = x ++ stripLine s := by
  induction x with
  | nil => rfl
  | cons c x ih =>
    simp only [List.mem_cons, not_or] at h
    rw [List.cons_append, line_cons c (fun e => h.1 e.symm), ih h.2, List.cons_append]

theorem block_skip (x : Source.Str) (c : Char) (s : Source.Str) (h : ¬ ['/', '*'] <:+: x) (hc : c ≠ '*') :
    stripBlock (x ++ c :: s) = x ++ stripBlock (c :: s) := by
  induction x with
  | nil => rfl
  | cons a t ih =>
    have ht : ¬ ['/', '*'] <:+: t := fun hb => h (hb.trans ((List.suffix_cons a _).isInfix))
    have ih := ih ht
    cases t with
    | nil =>
      simp only [List.cons_append, List.nil_append] at ih ⊢
      rw [stripBlock, if_neg (by rintro ⟨-, h⟩; exact hc h)]
    | cons b' t =>
      simp only [List.cons_append] at ih ⊢
      rw [stripBlock, if_neg, ih]
      rintro ⟨rfl, rfl⟩
      exact h ⟨[], t, rfl⟩

theorem lineRest_skip (x : Source.Str) (c : Char) (s : Source.Str) (h : ∀ c ∈ x, c ≠ '\n' ∧ c ≠ '\r') (hc : c = '\n' ∨ c = '\r') :
    lineRest (x ++ c :: s) = some (c :: s) := by
  induction x with
  | nil => rcases hc with rfl | rfl <;> simp [lineRest, JavaClass.newline]
  | cons a x ih =>
    have ha := h a (.head _)
    rw [List.cons_append, lineRest, if_neg (by simp [JavaClass.newline, ha]), ih fun c hc => h c (.tail _ hc)]

theorem line_comment (x : Source.Str) (c : Char) (s : Source.Str) (h : ∀ c ∈ x, c ≠ '\n' ∧ c ≠ '\r') (hc : c = '\n' ∨ c = '\r') :
    stripLine ('/' :: '/' :: (x ++ c :: s)) = stripLine (c :: s) := by
  rw [stripLine, if_pos ⟨rfl, rfl⟩]
  have := lineRest_skip x c s h hc
  split
  · next r' hr => rw [this] at hr; cases hr; rfl
  · next hr => rw [this] at hr; exact nomatch hr

theorem lead (l : Source.Str) (h : Lead false l) : ∃ l' w, (∀ c ∈ w, ws c = true) ∧ (∀ s, stripBlock (l ++ s) = l' ++ stripBlock s) ∧
    ∀ s, stripLine (l' ++ s) = w ++ stripLine s := by
  induction h with
  | nil => exact ⟨[], [], nofun, fun _ => rfl, fun _ => rfl⟩
  | blank c hc _ ih =>
    obtain ⟨l', w, h1, h2, h3⟩ := ih
    have hc' : c ≠ '/' := by rcases hc with rfl | rfl | rfl | rfl <;> decide
    have hw : ws c = true := by rcases hc with rfl | rfl | rfl | rfl <;> decide
    refine ⟨c :: l', c :: w, ?_, fun s => ?_, fun s => ?_⟩
    · intro d hd
      rcases List.mem_cons.1 hd with rfl | hd
      · exact hw
      · exact h1 d hd
    · rw [List.cons_append, block_cons c hc', h2]; rfl
    · rw [List.cons_append, line_cons c hc', h3]; rfl
  | @line s0 body nl hb hnl hodd _ ih =>
    obtain ⟨l', w, h1, h2, h3⟩ := ih
    have hin : ¬ ['/', '*'] <:+: '/' :: '/' :: body := by
      rintro ⟨a, b, hab⟩
      cases a with
      | nil => exact absurd (congrArg (·[1]?) hab) (by simp)
      | cons _ a =>
        simp only [List.cons_append, List.cons.injEq] at hab
        exact hodd rfl ⟨a, b, hab.2⟩
    refine ⟨'/' :: '/' :: body ++ nl ++ l', nl ++ w, ?_, fun s => ?_, fun s => ?_⟩
    · intro d hd
      rcases List.mem_append.1 hd with hd | hd
      · rcases hnl with rfl | rfl <;> simp at hd
        · subst hd; decide
        · rcases hd with rfl | rfl <;> decide
      · exact h1 d hd
    · rcases hnl with rfl | rfl
      · have := block_skip ('/' :: '/' :: body) '\n' (s0 ++ s) hin (by decide)
        simp only [List.append_assoc, List.cons_append, List.nil_append] at this ⊢
        rw [this, block_cons '\n' (by decide), h2]
      · have := block_skip ('/' :: '/' :: body) '\r' ('\n' :: (s0 ++ s)) hin (by decide)
        simp only [List.append_assoc, List.cons_append, List.nil_append] at this ⊢
        rw [this, block_cons '\r' (by decide), block_cons '\n' (by decide), h2]
    · rcases hnl with rfl | rfl
      · simp only [List.append_assoc, List.cons_append, List.nil_append]
        rw [line_comment body '\n' _ hb (.inl rfl), line_cons '\n' (by decide), h3]
      · simp only [List.append_assoc, List.cons_append, List.nil_append]
        rw [line_comment body '\r' _ hb (.inr rfl), line_cons '\r' (by decide), line_cons '\n' (by decide), h3]
  | @block s0 body hb _ ih =>
    obtain ⟨l', w, h1, h2, h3⟩ := ih
    refine ⟨l', w, h1, fun s => ?_, h3⟩
    rw [← h2]
    simp only [List.append_assoc, List.cons_append]
    rw [stripBlock, if_pos ⟨rfl, rfl⟩]
    have := Jc.blockEnd_spec body (s0 ++ s) hb
    split
    · next r' hr => rw [this] at hr; cases hr; rfl
    · next hr => rw [this] at hr; exact nomatch hr

theorem letter (c : Char) : wordCh c = true ↔ Letter c := by
  simp [wordCh, Letter, or_assoc]

theorem letter_ws (c : Char) (h : Letter c) : ws c = false := by
  cases hw : ws c with
  | false => rfl
  | true =>
    exfalso
    simp only [ws, List.mem_cons, List.not_mem_nil, or_false, decide_eq_true_eq] at hw
    rcases hw with rfl | rfl | rfl | rfl | rfl | rfl <;> revert h <;> simp [Letter] <;> decide

theorem letter_slash (c : Char) (h : Letter c) : c ≠ '/' := by
  rintro rfl; revert h; simp [Letter]

theorem rtrim (p r : Source.Str) (hp : ∀ c ∈ p.getLast?, ws c = false) (hne : p ≠ []) :
    ((p ++ r).reverse.dropWhile ws).reverse = p ++ (r.reverse.dropWhile ws).reverse := by
  rw [List.reverse_append, List.dropWhile_append]
  split
  · next h =>
    have : (r.reverse.dropWhile ws) = [] := by simpa using h
    rw [this]
    have : p.reverse.dropWhile ws = p.reverse := by
      obtain ⟨q, c, rfl⟩ := List.eq_nil_or_concat p |>.resolve_left hne
      simp at hp
      simp [hp]
    rw [this]; simp
  · simp

theorem rtrim_prefix (r : Source.Str) : (r.reverse.dropWhile ws).reverse <+: r := by
  have := List.dropWhile_suffix ws (l := r.reverse)
  rw [← List.reverse_prefix] at this
  simpa using this

theorem head_prefix {a b : Source.Str} (h : a <+: b) (c : Char) (hc : c ∈ a.head?) : c ∈ b.head? := by
  obtain ⟨t, rfl⟩ := h
  cases a with
  | nil => exact nomatch hc
  | cons d a => exact hc

theorem dropWs (g x : Source.Str) (hg : ∀ c ∈ g, ws c = true) (hx : ∀ c ∈ x.head?, ws c = false) : (g ++ x).dropWhile ws = x := by
  induction g with
  | nil =>
    cases x with
    | nil => rfl
    | cons c x => simp [hx c (by simp)]
  | cons c g ih =>
    rw [List.cons_append, List.dropWhile_cons, if_pos (hg c (.head _)), ih fun c hc => hg c (.tail _ hc)]

theorem main_iff (name r : Source.Str) (hn : ∀ c ∈ name, Letter c) (hne : name ≠ []) (hr : ∀ c ∈ r.head?, ¬ Letter c) :
    (match word "main".toList (name ++ r) with
      | some [] => true
      | some (d :: _) => !wordCh d
      | none => false) = true ↔ name = "main".toList := by
  have hm : Letter 'm' ∧ Letter 'a' ∧ Letter 'i' ∧ Letter 'n' := by simp only [Letter]; decide
  constructor
  · intro h
    unfold word at h
    by_cases hp : "main".toList.isPrefixOf (name ++ r) = true
    · rw [if_pos hp] at h
      obtain ⟨t, ht⟩ := List.isPrefixOf_iff_prefix.1 hp
      have ht' : name ++ r = 'm' :: 'a' :: 'i' :: 'n' :: t := ht.symm
      match name, hne with
      | [a], _ =>
        simp only [List.cons_append, List.nil_append, List.cons.injEq] at ht'
        rw [ht'.2] at hr; exact absurd hm.2.1 (hr _ (by simp))
      | [a, b], _ =>
        simp only [List.cons_append, List.nil_append, List.cons.injEq] at ht'
        rw [ht'.2.2] at hr; exact absurd hm.2.2.1 (hr _ (by simp))
      | [a, b, c], _ =>
        simp only [List.cons_append, List.nil_append, List.cons.injEq] at ht'
        rw [ht'.2.2.2] at hr; exact absurd hm.2.2.2 (hr _ (by simp))
      | [a, b, c, d], _ =>
        simp only [List.cons_append, List.nil_append, List.cons.injEq] at ht'
        obtain ⟨rfl, rfl, rfl, rfl, -⟩ := ht'
        rfl
      | a :: b :: c :: d :: e :: n, _ =>
        have := (letter e).2 (hn e (by simp))
        simp [this] at h
    · rw [if_neg hp] at h; exact nomatch h
  · rintro rfl
    have : word "main".toList ("main".toList ++ r) = some r := by
      simp [word]
    rw [this]
    cases r with
    | nil => rfl
    | cons d r =>
      have := hr d (by simp)
      rw [← letter] at this
      simpa using this

theorem last_append (a b : Source.Str) (h : b ≠ []) : (a ++ b).getLast? = b.getLast? := by
  obtain ⟨q, d, rfl⟩ := List.eq_nil_or_concat b |>.resolve_left h
  simp [List.concat_eq_append, ← List.append_assoc]

/-! ### Features -/

theorem words_iff (sep : Char → Bool) (l f : Source.Str) : f ∈ words sep l ↔ Listed (sep · = true) l f := by
  fun_induction words sep l with
  | case1 =>
    simp only [List.not_mem_nil, false_iff]
    rintro ⟨hf, -, a, b, h, -⟩
    simp at h
    exact hf h.2.1
  | case2 c r hc ih =>
    rw [ih]
    constructor
    · rintro ⟨hf, hs, a, b, rfl, ha, hb⟩
      refine ⟨hf, hs, c :: a, b, rfl, ?_, hb⟩
      cases a with
      | nil => simpa using hc
      | cons d a => simpa using ha
    · rintro ⟨hf, hs, a, b, he, ha, hb⟩
      cases a with
      | nil =>
        cases f with
        | nil => exact absurd rfl hf
        | cons d f =>
          simp only [List.nil_append, List.cons_append, List.cons.injEq] at he
          exact absurd (he.1 ▸ hc) (hs d (.head _))
      | cons d a =>
        simp only [List.cons_append, List.cons.injEq] at he
        refine ⟨hf, hs, a, b, he.2, ?_, hb⟩
        cases a with
        | nil => simp
        | cons e a => simpa using ha
  | case3 c r hc ih =>
    have hsplit : c :: r = (c :: r.takeWhile (!sep ·)) ++ r.dropWhile (!sep ·) := by simp
    have htk : ∀ x ∈ c :: r.takeWhile (!sep ·), sep x = false := by
      intro x hx
      rcases List.mem_cons.1 hx with rfl | hx
      · simpa using hc
      · have := List.all_takeWhile (p := (!sep ·)) (l := r)
        simpa using List.all_eq_true.1 this x hx
    have hd : ∀ x ∈ (r.dropWhile (!sep ·)).head?, sep x = true := by
      intro x hx
      have := List.head?_dropWhile_not (!sep ·) r
      rw [Option.mem_def.1 hx] at this
      simpa using this
    generalize r.takeWhile (!sep ·) = t at *
    generalize r.dropWhile (!sep ·) = d at *
    rw [List.mem_cons, ih, hsplit]
    constructor
    · rintro (rfl | ⟨hf, hs, a, b, rfl, ha, hb⟩)
      · exact ⟨by simp, fun x hx => by simp [htk x hx], [], d, rfl, by simp, hd⟩
      · refine ⟨hf, hs, (c :: t) ++ a, b, by simp, ?_, hb⟩
        intro x hx
        cases a with
        | nil =>
          cases f with
          | nil => exact absurd rfl hf
          | cons e f => exact absurd (hd e (by simp)) (hs e (.head _))
        | cons e a =>
          rw [last_append _ _ (by simp)] at hx
          exact ha x hx
    · rintro ⟨hf, hs, a, b, he, ha, hb⟩
      rcases List.append_eq_append_iff.1 (by rw [he, List.append_assoc] : c :: t ++ d = a ++ (f ++ b)) with ⟨a', rfl, h2⟩ | ⟨a', h1, h2⟩
      · cases a' with
        | nil =>
          simp at h2
          cases f with
          | nil => exact absurd rfl hf
          | cons e f => subst h2; exact absurd (hd e (by simp)) (hs e (.head _))
        | cons e a' =>
          refine .inr ⟨hf, hs, e :: a', b, by simpa using h2, ?_, hb⟩
          rw [last_append _ _ (by simp)] at ha
          exact ha
      · -- `a` lies within the first name, so it is empty
        rcases List.eq_nil_or_concat a with rfl | ⟨q, e, rfl⟩
        · simp at h1
          subst h1
          refine .inl ?_
          rcases List.append_eq_append_iff.1 h2 with ⟨x, h3, h4⟩ | ⟨x, h3, h4⟩
          · cases x with
            | nil => simpa using h3.symm
            | cons y x => exact absurd (hb y (by simp [h4])) (by simp [htk y (by simp [h3])])
          · cases x with
            | nil => simpa using h3
            | cons y x => exact absurd (hd y (by simp [h4])) (hs y (by simp [h3]))
        · have h3 := ha e (by simp)
          have h4 := htk e (by rw [h1]; simp)
          dsimp only at h3; rw [h4] at h3; exact nomatch h3

theorem silent_skip (w sp : Char → Bool) (pre s : Source.Str) : ∀ (start : Bool),
    (∀ a c b, pre = a ++ c :: b → (a = [] → start = true) → (∀ d ∈ a.getLast?, d = '\n') → c ∉ ['#', ';', '@', '|', '!']) →
    features w sp start (pre ++ s) = features w sp (match pre.getLast? with | some d => d = '\n' | none => start) s := by
  induction pre with
  | nil => intro start _; rfl
  | cons c pre ih =>
    intro start h
    have h0 : (if start then featAt w sp (c :: (pre ++ s)) else none) = none := by
      cases start with
      | false => rfl
      | true =>
        have := h [] c pre rfl (fun _ => rfl) nofun
        rw [if_pos rfl, featAt, if_neg this]
    rw [List.cons_append, features, h0]
    dsimp only
    rw [ih]
    · cases pre with
      | nil => rfl
      | cons d pre => simp only [List.getLast?_cons_cons]; rfl
    · intro a d b he ha hl
      refine h (c :: a) d b (by rw [he]; rfl) nofun ?_
      cases a with
      | nil => simpa using ha
      | cons e a => simpa using hl

theorem silent_none (w sp : Char → Bool) (s : Source.Str) (h : Silent s) : features w sp true s = [] := by
  have := silent_skip w sp s [] true (fun a c b he _ hl => h a c b he hl)
  simpa [features] using this

/-! ### Zig -/

theorem zig_lines : ∀ s : Source.Str, LineEnds s (zigSource s)
  | [] => .nil
  | [c] => by
    by_cases hc : c = '\r'
    · subst hc; exact .cr (by simp) .nil
    · simp only [zigSource, crlfToCr, crToLf, List.map_cons, List.map_nil, if_neg hc]
      exact .char c hc .nil
  | c :: d :: r => by
    have i1 := zig_lines r
    have i2 := zig_lines (d :: r)
    simp only [zigSource] at i1 i2 ⊢
    rw [crlfToCr]
    split
    · next h =>
      obtain ⟨rfl, rfl⟩ := h
      exact .crlf i1
    · next h =>
      by_cases hc : c = '\r'
      · subst hc
        refine .cr ?_ i2
        simp only [List.head?_cons]
        intro he
        exact h ⟨rfl, by simpa using he⟩
      · simp only [crToLf, List.map_cons, if_neg hc] at i2 ⊢
        exact .char c hc i2

/-! ### The table -/

theorem rows : ∀ row ∈ table, (row.2.1 = .python ↔ row.1 ∈ ["PY2", "PY3", "PYPY", "PYPY3"]) ∧
    (row.2.1 = .asm ↔ row.1 ∈ ["GAS32", "GAS64", "GASARM", "NASM", "NASM64"]) ∧ (row.2.1 = .zig ↔ row.1 = "ZIG") ∧
    (row.2.1 = .rust ↔ row.1 = "RUST") ∧ (row.2.1 = .rust → row.2.2 = "rs") ∧ (row.2.1 = .javac → row.2.2 = "java") ∧
    '/' ∉ row.2.2.toList ∧ '.' ∉ row.2.2.toList := by decide +kernel

end Sc

/-- C84.  A Go program is accepted exactly if its package clause names `main`, whatever white space and comments come before. Partial: no line comment
before it has a `/*` in it, the clause is on one line without comments, and the name is in ASCII; the failures below show that each is needed. -/
theorem C84_go_partial (l gap name rest : List Char) (hl : Lead false l) (hg : gap ≠ []) (hgap : ∀ c ∈ gap, c = ' ' ∨ c = '\t')
    (hne : name ≠ []) (hn : ∀ c ∈ name, Letter c) (hr : ∀ c ∈ rest.head?, ¬ Letter c ∧ c ≠ '/') :
    goOk (l ++ ("package".toList ++ (gap ++ (name ++ rest)))) = true ↔ name = "main".toList := by
  obtain ⟨l', w, h1, h2, h3⟩ := Sc.lead l hl
  have hgws : ∀ c ∈ gap, ws c = true := fun c hc => by rcases hgap c hc with rfl | rfl <;> decide
  have hgs : '/' ∉ gap := fun h => by rcases hgap _ h with h | h <;> exact absurd h (by decide)
  have hns : '/' ∉ name := fun h => Sc.letter_slash _ (hn _ h) rfl
  have hps : '/' ∉ "package".toList := by decide
  obtain ⟨R, hR, hRh⟩ : ∃ R, JavaClass.stripLine (JavaClass.stripBlock rest) = R ∧ ∀ c ∈ R.head?, ¬ Letter c := by
    refine ⟨_, rfl, ?_⟩
    cases rest with
    | nil => simp [JavaClass.stripBlock, JavaClass.stripLine]
    | cons d rest =>
      have hd := hr d (by simp)
      rw [Sc.block_cons d hd.2, Sc.line_cons d hd.2]
      intro c hc
      simp at hc
      exact hc ▸ hd.1
  have hdec : decomment (l ++ ("package".toList ++ (gap ++ (name ++ rest)))) = w ++ ("package".toList ++ (gap ++ name) ++ R) := by
    unfold decomment
    rw [h2, h3, Sc.block_plain _ _ hps, Sc.block_plain _ _ hgs, Sc.block_plain _ _ hns, Sc.line_plain _ _ hps, Sc.line_plain _ _ hgs,
      Sc.line_plain _ _ hns, hR]
    simp only [List.append_assoc]
  have hlast : ∀ c ∈ ("package".toList ++ (gap ++ name)).getLast?, ws c = false := by
    intro c hc
    rw [← List.append_assoc] at hc
    rw [Sc.last_append _ _ hne] at hc
    exact Sc.letter_ws c (hn c (List.mem_of_getLast? hc))
  have htrim : trim (decomment (l ++ ("package".toList ++ (gap ++ (name ++ rest))))) =
      "package".toList ++ (gap ++ name) ++ (R.reverse.dropWhile ws).reverse := by
    rw [hdec, trim, Sc.dropWs w _ h1 (by intro c hc; simp at hc; subst hc; decide)]
    exact Sc.rtrim _ _ hlast (by simp)
  unfold goOk
  rw [htrim]
  have hnl : ∀ c ∈ "package".toList ++ (gap ++ name), decide (c ≠ '\n') = true := by
    intro c hc
    rcases List.mem_append.1 hc with hc | hc
    · exact (by decide : ∀ c ∈ "package".toList, decide (c ≠ '\n') = true) c hc
    · rcases List.mem_append.1 hc with hc | hc
      · rcases hgap c hc with rfl | rfl <;> decide
      · have := Sc.letter_ws c (hn c hc)
        simp only [decide_eq_true_eq]
        rintro rfl
        exact absurd this (by decide)
  rw [List.takeWhile_append_of_pos hnl]
  generalize hT : ((R.reverse.dropWhile ws).reverse).takeWhile (fun x => decide (x ≠ '\n')) = T
  have hTh : ∀ c ∈ T.head?, ¬ Letter c := by
    intro c hc
    refine hRh c (Sc.head_prefix ((hT ▸ List.takeWhile_prefix _).trans (Sc.rtrim_prefix R)) c hc)
  have e0 : ("package".toList ++ (gap ++ name) ++ T).dropWhile ws = "package".toList ++ (gap ++ name) ++ T :=
    Sc.dropWs [] _ nofun (by intro c hc; simp at hc; subst hc; decide)
  unfold packageMain
  rw [e0]
  obtain ⟨g, gs, rfl⟩ := List.exists_cons_of_ne_nil hg
  have e1 : JavaClass.word "package".toList ("package".toList ++ (g :: gs ++ name) ++ T) = some (g :: (gs ++ (name ++ T))) := by
    simp [JavaClass.word]
  rw [e1]
  dsimp only
  rw [hgws g (.head _), Bool.true_and, Sc.dropWs gs _ (fun c hc => hgws c (.tail _ hc))]
  · exact Sc.main_iff name T hn hne hTh
  · intro c hc
    cases name with
    | nil => exact absurd rfl hne
    | cons d n => simp at hc; subst hc; exact Sc.letter_ws _ (hn _ (.head _))

example : ∃ (l gap name rest : List Char), Lead false l ∧ l ≠ [] ∧ gap ≠ [] ∧ (∀ c ∈ gap, c = ' ' ∨ c = '\t') ∧ name ≠ [] ∧
    (∀ c ∈ name, Letter c) ∧ (∀ c ∈ rest.head?, ¬ Letter c ∧ c ≠ '/') ∧
    goOk (l ++ ("package".toList ++ (gap ++ (name ++ rest)))) = true :=
  ⟨"// A\r\n/* b */ ".toList, " ".toList, "main".toList, "\nfunc main() {}\n".toList,
    .line " A".toList ['\r', '\n'] (by decide) (.inr rfl) (fun _ => by decide) (.block " b ".toList (by decide) (.blank ' ' (.inl rfl) (.nil _))),
    by decide, by decide, by decide, by decide, by simp only [Letter]; decide, by simp only [Letter]; decide, by
      refine (C84_go_partial _ _ _ _ (.line " A".toList ['\r', '\n'] (by decide) (.inr rfl) (fun _ => by decide)
        (.block " b ".toList (by decide) (.blank ' ' (.inl rfl) (.nil _)))) (by decide) (by decide) (by decide) (by simp only [Letter]; decide)
        (by simp only [Letter]; decide)).2 rfl⟩

/-- C84.  A comment in Go that shows the beginning of another hides the package clause: a correct program is refused, and one of another package is
taken. -/
theorem C84_go_comment_fails :
    (∃ l, Lead true l ∧ goOk (l ++ "package main\n\nfunc main() { /* */ }\n".toList) = false) ∧
    ∃ l, Lead true l ∧ goOk (l ++ "package foo // */\npackage main\n".toList) = true :=
  ⟨⟨"// /*\n".toList, .line " /*".toList ['\n'] (by decide) (.inl rfl) nofun (.nil _), by decide +kernel⟩,
    ⟨"// /*\n".toList, .line " /*".toList ['\n'] (by decide) (.inl rfl) nofun (.nil _), by decide +kernel⟩⟩

/-- C84.  A package clause over two lines is refused though Go allows it, and so is one with a comment in place of the space. -/
theorem C84_go_clause_fails : goOk "package\nmain\n\nfunc main() {}\n".toList = false ∧ goOk "package/**/main\n\nfunc main() {}\n".toList = false := by
  decide +kernel

/-- C84.  A name that continues outside of ASCII is taken for `main` (here `mainé`, in UTF-8). -/
theorem C84_go_name_fails : goOk ("package main".toList ++ ['\xc3', '\xa9'] ++ "\n\nfunc main() {}\n".toList) = true := by
  decide +kernel

/-- C84.  An assembly program is linked with the C library exactly if `libc` is among the names after `features:` in its first line that begins with
one of the comment characters. Partial: the list is whatever follows of letters, white space and commas, also on other lines (see below). -/
theorem C84_libc_partial (w sp : Char → Bool) (pre blanks list post : List Char) (c : Char) (hpre : Silent pre)
    (hend : ∀ d ∈ pre.getLast?, d = '\n') (hc : c ∈ ['#', ';', '@', '|', '!']) (hb : ∀ d ∈ blanks, sp d = true) (hf : sp 'f' = false)
    (hne : list ≠ []) (hl : ∀ d ∈ list, w d = true ∨ sp d = true ∨ d = ',')
    (hpost : ∀ d ∈ post.head?, w d = false ∧ sp d = false ∧ d ≠ ',') :
    usesLibc w sp false (pre ++ c :: (blanks ++ ("features:".toList ++ (list ++ post)))) = true ↔
      Listed (fun d => sp d = true ∨ d = ',') list "libc".toList := by
  have h1 : features w sp true (pre ++ c :: (blanks ++ ("features:".toList ++ (list ++ post)))) = words (sepCh sp) list := by
    rw [Sc.silent_skip w sp pre _ true (fun a d b he _ hl => hpre a d b he hl)]
    have hs : (match pre.getLast? with | some d => (decide (d = '\n') : Bool) | none => true) = true := by
      cases h : pre.getLast? with
      | none => rfl
      | some d => simp [hend d h]
    rw [hs, features, if_pos rfl, featAt, if_pos hc]
    have hd : (blanks ++ ("features:".toList ++ (list ++ post))).dropWhile sp = "features:".toList ++ (list ++ post) := by
      clear hs
      induction blanks with
      | nil =>
        rw [List.nil_append]
        have : "features:".toList = 'f' :: "eatures:".toList := by decide
        rw [this, List.cons_append]
        exact List.dropWhile_cons_of_neg (by simp [hf])
      | cons d bl ih =>
        rw [List.cons_append, List.dropWhile_cons, if_pos (hb d (.head _)), ih fun d hd => hb d (.tail _ hd)]
    rw [hd]
    have hw : JavaClass.word "features:".toList ("features:".toList ++ (list ++ post)) = some (list ++ post) := by
      simp [JavaClass.word]
    rw [hw]
    dsimp only
    have ht : (list ++ post).takeWhile (listCh w sp) = list := by
      rw [List.takeWhile_append_of_pos (by intro d hd; simpa [listCh, or_assoc] using hl d hd)]
      cases post with
      | nil => simp
      | cons d post =>
        have := hpost d (by simp)
        rw [List.takeWhile_cons_of_neg (by simp [listCh, this]), List.append_nil]
    rw [ht]
    cases list with
    | nil => exact absurd rfl hne
    | cons d list => rfl
  unfold usesLibc
  rw [h1, Bool.false_and, Bool.or_false, List.contains_iff_mem, Sc.words_iff]
  simp [sepCh, Listed]

/-- The classes of python restricted to ASCII, for the examples. -/
def asciiWord (c : Char) : Bool := wordCh c

example : usesLibc asciiWord ws false "section .text\n; features: x, libc\n\n.globl _start\n".toList = true :=
  (C84_libc_partial asciiWord ws "section .text\n".toList " ".toList " x, libc\n\n".toList ".globl _start\n".toList ';'
    (by
      intro a c b h hl hm
      have h1 : c ∈ "section .text\n".toList := by rw [h]; simp
      exact (by decide : ∀ c ∈ "section .text\n".toList, c ∉ ['#', ';', '@', '|', '!']) c h1 hm)
    (by decide) (by decide) (by decide) (by decide) (by decide) (by decide) (by decide)).2
    ⟨by decide, by decide, " x, ".toList, "\n\n".toList, by decide, by decide, by decide⟩

/-- C84.  Without a line that begins with a comment character, it is not. -/
theorem C84_no_libc (w sp : Char → Bool) (src : List Char) (h : Silent src) : usesLibc w sp false src = false := by
  unfold usesLibc
  rw [Sc.silent_none w sp src h]
  simp

example : Silent "_start:\n ret\n".toList := by
  intro a c b h _
  have h1 : c ∈ "_start:\n ret\n".toList := by rw [h]; simp
  exact (by decide : ∀ c ∈ "_start:\n ret\n".toList, c ∉ ['#', ';', '@', '|', '!']) c h1

/-- C84.  With NASM also a program is that begins with `; libc`, and no other besides. -/
theorem C84_nasm (w sp : Char → Bool) (src : List Char) :
    usesLibc w sp true src = true ↔ (∃ r, src = "; libc".toList ++ r) ∨ usesLibc w sp false src = true := by
  unfold usesLibc
  rw [Bool.or_eq_true, Bool.true_and, Bool.false_and, Bool.or_false, List.isPrefixOf_iff_prefix]
  constructor
  · rintro (h | ⟨r, h⟩)
    · exact .inr h
    · exact .inl ⟨r, h.symm⟩
  · rintro (⟨r, h⟩ | h)
    · exact .inr ⟨r, h.symm⟩
    · exact .inl h

/-- C84.  The list does not end with its line: a label `libc` on the next line asks for the C library. -/
theorem C84_libc_label_fails : usesLibc asciiWord ws false "; features: none\nlibc: ret\n".toList = true := by decide +kernel

/-- C84.  What the compiler or interpreter of a language reads is the submission: the file has the extension of the language, is in the directory of the
submission (for Rust in `src`), and has its text, with a byte order mark before it for Python, a line end after it for assemblers, and line ends
of one kind for Zig. The name of the problem has neither slash nor dot, the class of a Java program no slash (C70), and an empty submission is none. -/
theorem C84_written (row : String × Kind × String) (hrow : row ∈ table) (problem cls src : List Char) (hp : '/' ∉ problem ∧ '.' ∉ problem)
    (hc : '/' ∉ cls) (hs : src ≠ []) :
    ∃ name text, (written row.2.1 row.2.2.toList problem cls src).getLast? = some (name, text) ∧
      '.' :: row.2.2.toList <:+ name ∧ (if row.1 = "RUST" then name = "src/main.rs".toList else '/' ∉ name) ∧
      (if row.1 ∈ ["PY2", "PY3", "PYPY", "PYPY3"] then text = ['\xef', '\xbb', '\xbf'] ++ src
       else if row.1 ∈ ["GAS32", "GAS64", "GASARM", "NASM", "NASM64"] then text = src ++ ['\n']
       else if row.1 = "ZIG" then LineEnds src text
       else text = src) := by
  obtain ⟨r1, r2, r3, r4, r5, r6, r7, r8⟩ := Sc.rows row hrow
  obtain ⟨lang, k, ext⟩ := row
  dsimp only at *
  have hn : '/' ∉ problem ++ '.' :: ext.toList := by
    simp only [List.mem_append, List.mem_cons, not_or]
    exact ⟨hp.1, by decide, r7⟩
  cases k with
  | plain =>
    refine ⟨problem ++ '.' :: ext.toList, src, rfl, List.suffix_append _ _, ?_, ?_⟩
    · rw [if_neg (fun h => nomatch r4.2 h)]; exact hn
    · rw [if_neg (fun h => nomatch r1.2 h), if_neg (fun h => nomatch r2.2 h), if_neg (fun h => nomatch r3.2 h)]
  | d =>
    refine ⟨"main.".toList ++ ext.toList, src, rfl, ⟨"main".toList, rfl⟩, ?_, ?_⟩
    · rw [if_neg (fun h => nomatch r4.2 h)]
      simp only [List.mem_append, not_or]
      exact ⟨by decide, r7⟩
    · rw [if_neg (fun h => nomatch r1.2 h), if_neg (fun h => nomatch r2.2 h), if_neg (fun h => nomatch r3.2 h)]
  | rust =>
    refine ⟨"src/main.rs".toList, src, rfl, ?_, ?_, ?_⟩
    · rw [r5 rfl]; exact ⟨"src/main".toList, rfl⟩
    · rw [if_pos (r4.1 rfl)]
    · rw [if_neg (fun h => nomatch r1.2 h), if_neg (fun h => nomatch r2.2 h), if_neg (fun h => nomatch r3.2 h)]
  | javac =>
    refine ⟨cls ++ ".java".toList, src, rfl, ?_, ?_, ?_⟩
    · rw [r6 rfl]; exact List.suffix_append _ _
    · rw [if_neg (fun h => nomatch r4.2 h)]
      simp only [List.mem_append, not_or]
      exact ⟨hc, by decide⟩
    · rw [if_neg (fun h => nomatch r1.2 h), if_neg (fun h => nomatch r2.2 h), if_neg (fun h => nomatch r3.2 h)]
  | gcc =>
    have h1 : '.' ∉ problem ++ ext.toList := by simp only [List.mem_append, not_or]; exact ⟨hp.2, r8⟩
    refine ⟨problem ++ ext.toList ++ '.' :: ext.toList, src, ?_, List.suffix_append _ _, ?_, ?_⟩
    · simp only [written, gccFiles, if_neg hs, List.nil_append, List.map_cons, List.map_nil, gccName, if_neg h1]; rfl
    · rw [if_neg (fun h => nomatch r4.2 h)]
      simp only [List.mem_append, List.mem_cons, not_or]
      exact ⟨⟨hp.1, r7⟩, by decide, r7⟩
    · rw [if_neg (fun h => nomatch r1.2 h), if_neg (fun h => nomatch r2.2 h), if_neg (fun h => nomatch r3.2 h)]
  | python =>
    refine ⟨problem ++ '.' :: ext.toList, _, rfl, List.suffix_append _ _, ?_, ?_⟩
    · rw [if_neg (fun h => nomatch r4.2 h)]; exact hn
    · rw [if_pos (r1.1 rfl)]; rfl
  | asm =>
    refine ⟨problem ++ '.' :: ext.toList, _, rfl, List.suffix_append _ _, ?_, ?_⟩
    · rw [if_neg (fun h => nomatch r4.2 h)]; exact hn
    · rw [if_neg (fun h => nomatch r1.2 h), if_pos (r2.1 rfl)]
  | zig =>
    refine ⟨problem ++ '.' :: ext.toList, _, rfl, List.suffix_append _ _, ?_, ?_⟩
    · rw [if_neg (fun h => nomatch r4.2 h)]; exact hn
    · rw [if_neg (fun h => nomatch r1.2 h), if_neg (fun h => nomatch r2.2 h), if_pos (r3.1 rfl)]
      exact Sc.zig_lines src

example : ("ZIG", Kind.zig, "zig") ∈ table ∧ ('/' ∉ "aplusb".toList ∧ '.' ∉ "aplusb".toList) ∧ '/' ∉ "Main".toList ∧ "a\r\nb".toList ≠ [] := by
  decide +kernel

/-- C84.  Line ends are what they should be: for every text there is just one with them rewritten. -/
theorem C84_line_ends_unique (s t t' : List Char) (h : LineEnds s t) (h' : LineEnds s t') : t = t' := by
  induction h generalizing t' with
  | nil => cases h'; rfl
  | char c hc _ ih =>
    cases h' with
    | char _ _ h2 => rw [ih _ h2]
    | crlf => exact absurd rfl hc
    | cr => exact absurd rfl hc
  | crlf _ ih =>
    cases h' with
    | char _ hc => exact absurd rfl hc
    | crlf h2 => rw [ih _ h2]
    | cr hn => exact absurd rfl hn
  | cr hn _ ih =>
    cases h' with
    | char _ hc => exact absurd rfl hc
    | crlf => exact absurd rfl hn
    | cr _ h2 => rw [ih _ h2]

/-- C84.  The files given along with a C or C++ program are all written, each with its own name and the extension, and with its own contents, if the names
are different and have no dots. -/
theorem C84_gcc_files (ext problem : List Char) (aux : List (List Char × List Char)) (src : List Char) (hs : src ≠ [])
    (hdot : ∀ n ∈ (problem ++ ext) :: aux.map (·.1), '.' ∉ n) (hd : ((problem ++ ext) :: aux.map (·.1)).Nodup) :
    ((gccFiles ext problem aux src).map (·.1)).Nodup ∧ (∀ f ∈ gccFiles ext problem aux src, '.' :: ext <:+ f.1) ∧
    (problem ++ ext ++ '.' :: ext, src) ∈ gccFiles ext problem aux src ∧ ∀ f ∈ aux, (f.1 ++ '.' :: ext, f.2) ∈ gccFiles ext problem aux src := by
  have hn : ∀ n ∈ (problem ++ ext) :: aux.map (·.1), gccName ext n = n ++ '.' :: ext := fun n h => by rw [gccName, if_neg (hdot n h)]
  have hf : gccFiles ext problem aux src = (aux ++ [(problem ++ ext, src)]).map fun f => (f.1 ++ '.' :: ext, f.2) := by
    unfold gccFiles
    rw [if_neg hs]
    refine List.map_congr_left fun f hf => ?_
    rw [hn]
    rcases List.mem_append.1 hf with h | h
    · exact .tail _ (List.mem_map_of_mem h)
    · simp at h; subst h; exact .head _
  rw [hf]
  refine ⟨?_, ?_, ?_, ?_⟩
  · rw [List.map_map]
    have : (aux ++ [(problem ++ ext, src)]).map ((fun f : List Char × List Char => f.1) ∘ fun f => (f.1 ++ '.' :: ext, f.2)) =
        (aux.map (·.1) ++ [problem ++ ext]).map (· ++ '.' :: ext) := by simp
    rw [this]
    refine List.Pairwise.map (R := (· ≠ ·)) _ (fun a b hab he => hab (List.append_cancel_right he)) ?_
    rw [List.nodup_cons] at hd
    refine List.pairwise_append.2 ⟨hd.2, by simp, ?_⟩
    intro a ha b hb
    simp at hb
    subst hb
    rintro rfl
    exact hd.1 ha
  · intro f hf
    obtain ⟨g, -, rfl⟩ := List.mem_map.1 hf
    exact List.suffix_append _ _
  · exact List.mem_map.2 ⟨(problem ++ ext, src), by simp, rfl⟩
  · exact fun f h => List.mem_map.2 ⟨f, by simp [h], rfl⟩

example : (∀ n ∈ ("aplusb".toList ++ "cpp".toList) :: [("handler".toList, "int f();".toList)].map (·.1), '.' ∉ n) ∧
    (("aplusb".toList ++ "cpp".toList) :: [("handler".toList, "int f();".toList)].map (·.1)).Nodup ∧ "int main() {}".toList ≠ [] := by decide

/-- C84.  If the name of the problem has a dot, the file of a C or C++ program has not the extension of the language. -/
theorem C84_gcc_dot_fails : ∃ name, (written .gcc "cpp".toList "a.b".toList [] "int main() {}".toList).map (·.1) = [name] ∧
    ¬ '.' :: "cpp".toList <:+ name := ⟨"a.bcpp".toList, by decide, by decide⟩

/-- C84.  And two files given along may get the same name, so that one of them is lost. -/
theorem C84_gcc_names_fails : ∃ aux : List (List Char × List Char), (aux.map (·.1)).Nodup ∧
    ¬ ((gccFiles "cpp".toList "p".toList aux "x".toList).map (·.1)).Nodup :=
  ⟨[("lib".toList, "1".toList), ("lib.cpp".toList, "2".toList)], by decide, by decide⟩

/-- C84.  A Python program with a byte order mark of its own gets a second one, which is part of the text and no valid Python. -/
theorem C84_bom_fails : ∃ src name r, (written .python "py".toList "p".toList [] src) = [(name, ['\xef', '\xbb', '\xbf', '\xef', '\xbb', '\xbf'] ++ r)] :=
  ⟨['\xef', '\xbb', '\xbf'] ++ "print(1)".toList, "p.py".toList, "print(1)".toList, by decide⟩

end Verif.Props
