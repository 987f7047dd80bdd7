import Verif.Props.Cli
import Verif.Spec.Args

/-!
# C91: helper programs are started with the files of the case
-/

namespace Verif.Args
open Spec Cli.Spec

/-! ## Helper lemmas -/

theorem word_append {t v t' v' : Str} (h : Word t v) (h' : Word t' v') : Word (t ++ t') (v ++ v') := by
  induction h with
  | one t v hp => exact .more _ _ _ _ hp h'
  | more a b c d hp _ ih => rw [List.append_assoc, List.append_assoc]; exact .more _ _ _ _ hp ih

theorem safe_plain (c : Char) (h : safe c = true) : Piece [c] [c] := by
  apply Piece.plain
  · rintro (rfl | rfl | rfl | rfl) <;> simp [safe] at h <;> revert h <;> decide
  · rintro rfl; revert h; decide
  · rintro rfl; revert h; decide
  · rintro rfl; revert h; decide

theorem quote_word (s : Str) : Word (quote s) s := by
  unfold quote
  split
  · subst_vars; exact .one _ _ (.single [] (by simp))
  split
  · rename_i hne hs
    induction s with
    | nil => exact absurd rfl hne
    | cons c s ih =>
      simp only [List.all_cons, Bool.and_eq_true] at hs
      by_cases h : s = []
      · subst h; exact .one _ _ (safe_plain c hs.1)
      · exact .more [c] [c] s s (safe_plain c hs.1) (ih h hs.2)
  · have := Cli.enquote_word s [] (by simp)
    simpa [enquote] using this

theorem format_plain (vals other) (c : Char) (s : Str) (h1 : c ≠ '{') (h2 : c ≠ '}') :
    format vals other none (c :: s) = (format vals other none s).map (c :: ·) := by
  rw [format.eq_def]
  split <;> simp_all

theorem format_lit (vals other) (t s : Str) (h1 : '{' ∉ t) (h2 : '}' ∉ t) :
    format vals other none (t ++ s) = (format vals other none s).map (t ++ ·) := by
  induction t with
  | nil => simp
  | cons c t ih =>
    simp only [List.mem_cons, not_or] at h1 h2
    rw [List.cons_append, format_plain _ _ _ _ (Ne.symm h1.1) (Ne.symm h2.1), ih h1.2 h2.2, Option.map_map]
    rfl

theorem format_field (vals other) (n s : Str) (h1 : '{' ∉ n) (h2 : '}' ∉ n) (acc : Str) :
    format vals other (some acc) (n ++ '}' :: s) =
      (field vals other (acc ++ n)).bind fun v => (format vals other none s).map (v ++ ·) := by
  induction n generalizing acc with
  | nil =>
    rw [List.nil_append, format.eq_def]
    simp
    cases field vals other acc <;> rfl
  | cons c n ih =>
    simp only [List.mem_cons, not_or] at h1 h2
    rw [List.cons_append, format.eq_def]
    simp only [if_neg (Ne.symm h1.1), if_neg (Ne.symm h2.1)]
    rw [ih h1.2 h2.2, List.append_assoc]; rfl

theorem field_name (vals other) (f : Field) : field vals other f.name = some (vals f) := by
  have h1 : ¬ Field.output.name = Field.input.name := by decide
  have h2 : ¬ Field.answer.name = Field.input.name := by decide
  have h3 : ¬ Field.answer.name = Field.output.name := by decide
  cases f
  · exact if_pos rfl
  · exact (if_neg h1).trans (if_pos rfl)
  · exact (if_neg h2).trans ((if_neg h3).trans (if_pos rfl))

theorem format_open (vals other) (c : Char) (s : Str) (h : c ≠ '{') :
    format vals other none ('{' :: c :: s) = format vals other (some []) (c :: s) := by
  rw [format.eq_def]
  split <;> grind

theorem name_cons (f : Field) : ∃ c n, f.name = c :: n ∧ c ≠ '{' := by
  cases f
  · exact ⟨'i', "nput_file".toList, by decide, by decide⟩
  · exact ⟨'o', "utput_file".toList, by decide, by decide⟩
  · exact ⟨'a', "nswer_file".toList, by decide, by decide⟩

theorem format_hole (vals other) (f : Field) (s : Str) :
    format vals other none ('{' :: (f.name ++ '}' :: s)) = (format vals other none s).map (vals f ++ ·) := by
  have h : format vals other none ('{' :: (f.name ++ '}' :: s)) = format vals other (some []) (f.name ++ '}' :: s) := by
    obtain ⟨c, n, e, hc⟩ := name_cons f
    rw [e]
    exact format_open _ _ _ _ hc
  rw [h, format_field _ _ _ _ (by cases f <;> decide) (by cases f <;> decide)]
  simp [field_name]

theorem format_piece {names : Field → Str} {t v : Str} (h : FPiece names t v) (other) :
    ∃ t', Word t' v ∧ ∀ s, format (fun f => quote (names f)) other none (t ++ s) = (format (fun f => quote (names f)) other none s).map (t' ++ ·) := by
  cases h with
  | lit _ _ h h1 h2 => exact ⟨t, .one _ _ h, fun s => format_lit _ _ _ _ h1 h2⟩
  | brace c h =>
    refine ⟨[c], .one _ _ (.plain c ?_ ?_ ?_ ?_), fun s => ?_⟩
    · rcases h with rfl | rfl <;> (simp [Blank])
    · rcases h with rfl | rfl <;> decide
    · rcases h with rfl | rfl <;> decide
    · rcases h with rfl | rfl <;> decide
    · rcases h with rfl | rfl <;> simp [format]
  | file f =>
    refine ⟨quote (names f), quote_word _, fun s => ?_⟩
    have := format_hole (fun f => quote (names f)) other f s
    simpa using this

theorem format_word {names : Field → Str} {t v : Str} (h : FWord names t v) (other) :
    ∃ t', Word t' v ∧ ∀ s, format (fun f => quote (names f)) other none (t ++ s) = (format (fun f => quote (names f)) other none s).map (t' ++ ·) := by
  induction h with
  | one t v hp => exact format_piece hp other
  | more t v t' v' hp _ ih =>
    obtain ⟨a, ha, ea⟩ := format_piece hp other
    obtain ⟨b, hb, eb⟩ := ih
    refine ⟨a ++ b, word_append ha hb, fun s => ?_⟩
    rw [List.append_assoc, ea, eb, Option.map_map]
    congr 1; funext x; simp

theorem format_line {names : Field → Str} {t : Str} {ws : List Str} (h : FLine names t ws) (other) :
    ∃ t', Line t' ws ∧ format (fun f => quote (names f)) other none t = some t' := by
  have blank : ∀ c : Char, Blank c → c ≠ '{' ∧ c ≠ '}' := by
    rintro c (rfl | rfl | rfl | rfl) <;> decide
  induction h with
  | nil => exact ⟨[], .nil, by simp [format]⟩
  | blank c s ws hc _ ih =>
    obtain ⟨a, ha, ea⟩ := ih
    exact ⟨c :: a, .blank _ _ _ hc ha, by rw [format_plain _ _ _ _ (blank c hc).1 (blank c hc).2, ea]; rfl⟩
  | last t v hw =>
    obtain ⟨a, ha, ea⟩ := format_word hw other
    refine ⟨a, .last _ _ ha, ?_⟩
    have := ea []
    simpa [format] using this
  | word t v c s ws hw hc _ ih =>
    obtain ⟨a, ha, ea⟩ := format_word hw other
    obtain ⟨b, hb, eb⟩ := ih
    exact ⟨a ++ c :: b, .word _ _ _ _ _ ha hc hb, by rw [ea, format_plain _ _ _ _ (blank c hc).1 (blank c hc).2, eb]; rfl⟩

/-! ## C91 -/

/-- **C91 (format strings).** The words of a format string reach the program as written, with each placeholder replaced by the name of its file, whatever
characters the name has: no name is split, joined to another word or altered. -/
theorem C91_words (names : Field → Str) (other : Str → Option Str) (fmt : Str) (ws : List Str) (h : FLine names fmt ws) :
    arguments names other fmt = some ws := by
  obtain ⟨t, ht, e⟩ := format_line h other
  rw [arguments, e]
  exact ((Cli.C90_quoting t).1 ws).2 ht

private theorem reads_distinct (names : Field → Str) (hn : ∀ f g, names f = names g → f = g) (i o a : Bytes) :
    let files := [(names .input, i), (names .output, o), (names .answer, a)]
    (∀ b, (names .input, b) ∈ files ↔ b = i) ∧ (∀ b, (names .output, b) ∈ files ↔ b = o) ∧ (∀ b, (names .answer, b) ∈ files ↔ b = a) := by
  have h1 : names .input ≠ names .output := fun h => nomatch hn _ _ h
  have h2 : names .input ≠ names .answer := fun h => nomatch hn _ _ h
  have h3 : names .output ≠ names .answer := fun h => nomatch hn _ _ h
  simp [h1, h2, h3, h1.symm, h2.symm, h3.symm]

private theorem three (names : Field → Str) (f g h : Field) :
    FLine names ('{' :: (f.name ++ ['}']) ++ ' ' :: ('{' :: (g.name ++ ['}']) ++ ' ' :: ('{' :: (h.name ++ ['}'])))) [names f, names g, names h] :=
  .word _ _ _ _ _ (.one _ _ (.file f)) (.inl rfl) (.word _ _ _ _ _ (.one _ _ (.file g)) (.inl rfl) (.last _ _ (.one _ _ (.file h))))

private theorem two (names : Field → Str) (f g : Field) :
    FLine names ('{' :: (f.name ++ ['}']) ++ ' ' :: ('{' :: (g.name ++ ['}']))) [names f, names g] :=
  .word _ _ _ _ _ (.one _ _ (.file f)) (.inl rfl) (.last _ _ (.one _ _ (.file g)))

/-- **C91 (checkers).** A checker without a format string of its own is started with three arguments, the files of the case: input, output of the submission
and output of the judge, or the other way round for the kind `peg`. -/
theorem C91_checker (type : Str) (ht : type ∈ kindNames) (given : Option Str) (hg : given = none ∨ given = some []) (names : Field → Str) (hn : ∀ f g, names f = names g → f = g)
    (other : Str → Option Str) (processOutput judgeOutput judgeInput : Bytes) :
    ∃ s, checker type given names other processOutput judgeOutput judgeInput = some s ∧
      Reads s.files s.args (if type = "peg".toList then [judgeOutput, processOutput, judgeInput] else [judgeInput, processOutput, judgeOutput]) := by
  have hc : ∀ d, choose given d = d := by intro d; rcases hg with rfl | rfl <;> simp [choose]
  obtain ⟨h1, h2, h3⟩ := reads_distinct names hn judgeInput processOutput judgeOutput
  have e1 := C91_words names other _ _ (three names .input .output .answer)
  have e2 := C91_words names other _ _ (three names .answer .output .input)
  obtain ⟨kind, hk, hp⟩ : ∃ kind, kindOf type = some kind ∧ (type = "peg".toList ↔ kind = .peg) := by
    revert type; decide
  simp only [checker, hk, hc, hp]
  cases kind
  case peg =>
    rw [show checkerFormat .peg = _ from (by decide : _ = '{' :: (Field.answer.name ++ ['}']) ++ ' ' :: ('{' :: (Field.output.name ++ ['}']) ++ ' ' :: ('{' :: (Field.input.name ++ ['}'])))), e2]
    exact ⟨_, rfl, .cons _ _ _ _ h3 (.cons _ _ _ _ h2 (.cons _ _ _ _ h1 .nil))⟩
  all_goals
    rw [show checkerFormat _ = _ from (by decide : _ = '{' :: (Field.input.name ++ ['}']) ++ ' ' :: ('{' :: (Field.output.name ++ ['}']) ++ ' ' :: ('{' :: (Field.answer.name ++ ['}'])))), e1]
    exact ⟨_, rfl, .cons _ _ _ _ h1 (.cons _ _ _ _ h2 (.cons _ _ _ _ h3 .nil))⟩

/-- **C91 (interactors).** An interactor without a format string of its own is started with the input and the output of the judge; `/dev/null` stands between
them for the kind `testlib`. -/
theorem C91_interactor (type : Str) (ht : type ∈ kindNames) (given : Option Str) (hg : given = none ∨ given = some []) (names : Field → Str) (hn : names .input ≠ names .answer)
    (other : Str → Option Str) (judgeOutput input : Bytes) :
    ∃ s a b, interactor type given names other judgeOutput input = some s ∧ Reads s.files [a, b] [input, judgeOutput] ∧
      s.args = if type = "testlib".toList then [a, "/dev/null".toList, b] else [a, b] := by
  have hc : ∀ d, choose given d = d := by intro d; rcases hg with rfl | rfl <;> simp [choose]
  have e1 := C91_words (fun f => if f = .output then "/dev/null".toList else names f) other _ _ (three _ .input .output .answer)
  have e2 := C91_words (fun f => if f = .output then "/dev/null".toList else names f) other _ _ (two _ .input .answer)
  obtain ⟨kind, hk, hp⟩ : ∃ kind, kindOf type = some kind ∧ (type = "testlib".toList ↔ kind = .testlib) := by
    revert type; decide
  simp only [interactor, hk, hc, hp]
  cases kind
  case testlib =>
    rw [show interactorFormat .testlib = _ from (by decide : _ = '{' :: (Field.input.name ++ ['}']) ++ ' ' :: ('{' :: (Field.output.name ++ ['}']) ++ ' ' :: ('{' :: (Field.answer.name ++ ['}'])))), e1]
    exact ⟨_, _, _, rfl, .cons _ _ _ _ (by simp [hn]) (.cons _ _ _ _ (by simp [hn.symm]) .nil), rfl⟩
  all_goals
    rw [show interactorFormat _ = _ from (by decide : _ = '{' :: (Field.input.name ++ ['}']) ++ ' ' :: ('{' :: (Field.answer.name ++ ['}']))), e2]
    exact ⟨_, _, _, rfl, .cons _ _ _ _ (by simp [hn]) (.cons _ _ _ _ (by simp [hn.symm]) .nil), rfl⟩

/-- **C91 (own format strings).** A format string that is not empty takes the place of that of the kind: the arguments are its words. The files are those of the
case, the same ones whatever the format string. -/
theorem C91_custom (type : Str) (ht : type ∈ kindNames) (fmt : Str) (hf : fmt ≠ []) (names : Field → Str) (other : Str → Option Str) (ws : List Str) (o j i : Bytes) :
    (FLine names fmt ws → ∃ s, checker type (some fmt) names other o j i = some s ∧ s.args = ws ∧
      (∀ n b, (n, b) ∈ s.files ↔ n = names .input ∧ b = i ∨ n = names .output ∧ b = o ∨ n = names .answer ∧ b = j)) ∧
    (FLine (fun f => if f = .output then "/dev/null".toList else names f) fmt ws → ∃ s, interactor type (some fmt) names other j i = some s ∧ s.args = ws ∧
      (∀ n b, (n, b) ∈ s.files ↔ n = names .input ∧ b = i ∨ n = names .answer ∧ b = j)) := by
  obtain ⟨kind, hk⟩ : ∃ kind, kindOf type = some kind := by
    rw [← Option.isSome_iff_exists]
    revert type; decide
  constructor
  · intro h
    simp only [checker, hk, choose, if_neg hf, C91_words names other fmt ws h]
    exact ⟨_, rfl, rfl, by simp⟩
  · intro h
    simp only [interactor, hk, choose, if_neg hf, C91_words _ other fmt ws h]
    exact ⟨_, rfl, rfl, by simp⟩

/-- **C91 (unknown kinds).** A kind that does not exist starts nothing. -/
theorem C91_kind (type : Str) (ht : type ∉ kindNames) (given : Option Str) (names : Field → Str) (other : Str → Option Str) (o j i : Bytes) :
    checker type given names other o j i = none ∧ interactor type given names other j i = none := by
  have : kindOf type = none := by
    unfold kindOf
    simp only [kindNames, List.map_cons, List.map_nil, List.mem_cons, List.not_mem_nil, or_false, not_or] at ht
    rw [if_neg ht.1, if_neg ht.2.1, if_neg ht.2.2.1, if_neg ht.2.2.2]
  simp [checker, interactor, this]

private theorem renders_format (q : Field → Str) (fmt t : Str) (h : Renders q fmt t) : format q (fun _ => none) none fmt = some t := by
  induction h with
  | nil => simp [format]
  | char c s t h1 h2 _ ih => rw [format_plain _ _ _ _ h1 h2, ih]; rfl
  | brace c s t h _ ih => rcases h with rfl | rfl <;> simp [format, ih]
  | file f s t _ ih => rw [format_hole, ih]; rfl

private theorem field_some (q : Field → Str) (n v : Str) (h : field q (fun _ => none) n = some v) : ∃ f : Field, n = f.name ∧ v = q f := by
  unfold field at h
  split at h
  · exact ⟨.input, ‹_›, by simpa using h.symm⟩
  split at h
  · exact ⟨.output, ‹_›, by simpa using h.symm⟩
  split at h
  · exact ⟨.answer, ‹_›, by simpa using h.symm⟩
  · simp at h

private theorem format_renders (q : Field → Str) (st : Option Str) (fmt : Str) : ∀ t, format q (fun _ => none) st fmt = some t →
    match st with
    | none => Renders q fmt t
    | some n => ∃ m s f t', fmt = m ++ '}' :: s ∧ n ++ m = Field.name f ∧ t = q f ++ t' ∧ Renders q s t' := by
  fun_induction format q (fun _ => none) st fmt with
  | case1 => intro t h; cases h; exact .nil
  | case2 s ih =>
    intro t h
    obtain ⟨t', h', rfl⟩ := Option.map_eq_some_iff.1 h
    exact .brace _ _ _ (.inl rfl) (ih t' h')
  | case3 s ih =>
    intro t h
    obtain ⟨t', h', rfl⟩ := Option.map_eq_some_iff.1 h
    exact .brace _ _ _ (.inr rfl) (ih t' h')
  | case4 s _ _ ih =>
    intro t h
    obtain ⟨m, s', f, t', e1, e2, e3, e4⟩ := ih t h
    simp only [List.nil_append] at e2
    subst e1 e2 e3
    exact .file f s' t' e4
  | case5 => intro t h; cases h
  | case6 c s _ _ h1 h2 ih =>
    intro t h
    obtain ⟨t', h', rfl⟩ := Option.map_eq_some_iff.1 h
    exact .char _ _ _ h1 h2 (ih t' h')
  | case7 => intro t h; cases h
  | case8 => intro t h; cases h
  | case9 n s v hv ih =>
    intro t h
    obtain ⟨t', h', rfl⟩ := Option.map_eq_some_iff.1 h
    obtain ⟨f, e1, rfl⟩ := field_some q n v hv
    exact ⟨[], s, f, t', rfl, by simpa using e1, rfl, ih t' h'⟩
  | case10 => intro t h; cases h
  | case11 n c s h1 h2 ih =>
    intro t h
    obtain ⟨m, s', f, t', e1, e2, e3, e4⟩ := ih t h
    exact ⟨c :: m, s', f, t', by rw [e1]; rfl, by simpa using e2, e3, e4⟩

/-- **C91 (what is accepted).** With the three fields only, arguments are made exactly where every brace is doubled or part of a field and the text with the quoted
names put in is a line; otherwise grading stops with an error. -/
theorem C91_accepted (names : Field → Str) (fmt : Str) (ws : List Str) :
    ∃ q : Field → Str, (∀ f, Word (q f) (names f)) ∧
      (arguments names (fun _ => none) fmt = some ws ↔ ∃ t, Renders q fmt t ∧ Line t ws) := by
  refine ⟨fun f => quote (names f), fun f => quote_word _, ?_⟩
  unfold arguments
  rw [Option.bind_eq_some_iff]
  constructor
  · rintro ⟨t, h1, h2⟩
    exact ⟨t, format_renders _ none fmt t h1, ((Cli.C90_quoting t).1 ws).1 h2⟩
  · rintro ⟨t, h1, h2⟩
    exact ⟨t, renders_format _ fmt t h1, ((Cli.C90_quoting t).1 ws).2 h2⟩

/-- **C91 (limits).** An interactor may run for as long as the submission and then some: the preprocessing time, two seconds where there is none. -/
theorem C91_limits (preprocessing : Option Rat) (memory : Option Nat) (timeLimit : Rat) (envMemory : Nat)
    (hp : ∀ p, preprocessing = some p → 0 ≤ p) :
    let l := interactorLimits preprocessing memory timeLimit envMemory
    timeLimit < l.1 ∧ ((preprocessing = none ∨ preprocessing = some 0) → l.1 = timeLimit + 2) ∧
    (∀ p, preprocessing = some p → p ≠ 0 → l.1 = timeLimit + p) ∧
    (∀ m, memory = some m → m ≠ 0 → l.2 = m) ∧ ((memory = none ∨ memory = some 0) → l.2 = envMemory) := by
  unfold interactorLimits
  cases preprocessing <;> cases memory <;> grind

/-- A file name with a blank, as a temporary directory's name may have. -/
private def spaced : Field → Str := fun f => "/tmp/my files/".toList ++ f.name

/-- **C91, where it fails.** Between quotes of the format string's own a placeholder does not stand for the name: here the program is given a name with quotes
around it, which is no file's. -/
theorem C91_quoted_fails : ∃ (names : Field → Str) (fmt : Str) (w : Str), (∀ f g, names f = names g → f = g) ∧
    fmt = "\"{input_file}\"".toList ∧ arguments names (fun _ => none) fmt = some [w] ∧ ∀ f, w ≠ names f := by
  refine ⟨spaced, _, "'/tmp/my files/input_file'".toList, ?_, rfl, by decide +kernel, ?_⟩
  · intro f g; cases f <;> cases g <;> decide
  · intro f; cases f <;> decide

/-- The hypotheses of the theorems are met: names with blanks and quotes, a format string with a flag, a placeholder within a word and a quoted word. -/
example : FLine (fun f => "it's ".toList ++ f.name) "-v  in={input_file} 'a b'".toList
    ["-v".toList, "in=it's input_file".toList, "a b".toList] :=
  .word "-v".toList "-v".toList ' ' _ _
    (.more ['-'] ['-'] ['v'] ['v'] (.lit _ _ (.plain _ (by simp [Blank]) (by decide) (by decide) (by decide)) (by decide) (by decide))
      (.one _ _ (.lit _ _ (.plain _ (by simp [Blank]) (by decide) (by decide) (by decide)) (by decide) (by decide)))) (.inl rfl)
    (.blank ' ' _ _ (.inl rfl)
      (.word ("in=".toList ++ "{input_file}".toList) ("in=".toList ++ "it's input_file".toList) ' ' _ _
        (.more ['i'] ['i'] _ _ (.lit _ _ (.plain _ (by simp [Blank]) (by decide) (by decide) (by decide)) (by decide) (by decide))
          (.more ['n'] ['n'] _ _ (.lit _ _ (.plain _ (by simp [Blank]) (by decide) (by decide) (by decide)) (by decide) (by decide))
            (.more ['='] ['='] _ _ (.lit _ _ (.plain _ (by simp [Blank]) (by decide) (by decide) (by decide)) (by decide) (by decide))
              (.one _ _ (.file .input))))) (.inl rfl)
        (.last _ _ (.one _ _ (.lit _ _ (.single "a b".toList (by decide)) (by decide) (by decide))))))

example : arguments spaced (fun _ => none) "-v  in={input_file} 'a b' {{{answer_file}".toList =
    some ["-v".toList, "in=/tmp/my files/input_file".toList, "a b".toList, "{/tmp/my files/answer_file".toList] := by decide +kernel

end Verif.Args
