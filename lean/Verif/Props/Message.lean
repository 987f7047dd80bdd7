import Verif.Model.Message
import Verif.Spec.Message
import Verif.Props.Shown

/-! # C86: what the user is told of the compilation, by language -/

namespace Verif.Props

open Verif.Message Verif.Spec.Message
open Verif.Shown (Value Built Text Packet compiling encode decode sent)
open Verif.Compile (Msg)

namespace Ms

theorem within_iff (a b : Bytes) : within a b = true ↔ a <:+: b := by
  induction b with
  | nil => simp [within]
  | cons x r ih =>
    rw [within, Bool.or_eq_true, ih, List.isPrefixOf_iff_prefix, List.infix_cons_iff]

theorem strict_encode (t : Text) : strict (encode t) = some t := by
  unfold strict
  rw [Shown.decode_encode]
  exact if_pos rfl

theorem strict_none (b : Bytes) (h : ∀ t, b ≠ encode t) : strict b = none := if_neg fun e => h _ e.symm

theorem trimmed (ws : Char → Bool) (t : List Char) : Trimmed ws t (trim ws t) := by
  have h1 := List.takeWhile_append_dropWhile (p := ws) (l := t)
  generalize hu : t.dropWhile ws = u at h1
  have h2 := List.takeWhile_append_dropWhile (p := ws) (l := u.reverse)
  have e : trim ws t = (u.reverse.dropWhile ws).reverse := by unfold trim; rw [hu]
  have hsplit : u = trim ws t ++ (u.reverse.takeWhile ws).reverse := by
    rw [e, ← List.reverse_append, h2, List.reverse_reverse]
  refine ⟨t.takeWhile ws, (u.reverse.takeWhile ws).reverse, ?_, ?_, ?_, ?_⟩
  · rw [List.append_assoc, ← hsplit, h1]
  · intro c hc
    rcases List.mem_append.1 hc with h | h
    · exact List.all_eq_true.1 List.all_takeWhile c h
    · exact List.all_eq_true.1 List.all_takeWhile c (List.mem_reverse.1 h)
  · intro c hc
    have : u.head? = some c := by
      rw [hsplit]
      cases hs : trim ws t with
      | nil => rw [hs] at hc; exact nomatch hc
      | cons x r => rw [hs] at hc; exact hc
    have hn := List.head?_dropWhile_not ws t
    rw [hu, this] at hn
    simpa using hn
  · intro c hc
    rw [e, List.getLast?_reverse] at hc
    have hn := List.head?_dropWhile_not ws u.reverse
    rw [hc] at hn
    simpa using hn

theorem ascii_encode (s : String) (h : ∀ c ∈ s.toList, c.toNat < 0x80) : ascii s = encode s.toList := by
  unfold ascii encode
  generalize s.toList = l at h
  induction l with
  | nil => rfl
  | cons c l ih =>
    rw [List.map_cons, List.flatMap_cons, ih fun d hd => h d (.tail _ hd)]
    have hc := h c (.head _)
    have hn : (UInt8.ofNat c.toNat).toNat = c.toNat := UInt8.toNat_ofNat_of_lt' (by show _ < 256; omega)
    have := Shown.encode_ascii (UInt8.ofNat c.toNat) (by omega)
    rw [hn, Char.ofNat_toNat] at this
    rw [this]
    rfl

theorem comma (s : List Char) (hs : ∀ c ∈ s, c.toNat < 0x80 ∧ c.toNat ≠ 44) : within (ascii "is public, should be declared in a file named") (encode s) ≠ true := by
  intro h
  rw [within_iff] at h
  have hm : (44 : UInt8) ∈ encode s := h.subset (by decide)
  obtain ⟨c, hc, hm⟩ := List.mem_flatMap.1 hm
  obtain ⟨h1, h2⟩ := hs c hc
  have hn : (UInt8.ofNat c.toNat).toNat = c.toNat := UInt8.toNat_ofNat_of_lt' (by show _ < 256; omega)
  have := Shown.encode_ascii (UInt8.ofNat c.toNat) (by omega)
  rw [hn, Char.ofNat_toNat] at this
  rw [this, List.mem_singleton] at hm
  rw [← hm] at hn
  exact h2 hn.symm

theorem digits (n : Nat) : ∀ c ∈ (toString n).toList, c.isDigit = true := by
  intro c hc
  have e : (toString n).toList = Nat.toDigits 10 n := by
    show (Nat.repr n).toList = _
    simp [Nat.repr]
  rw [e] at hc
  exact Nat.isDigit_of_mem_toDigits (by decide : 0 < 10) (by decide) hc

theorem encode_append (a b : Text) : encode (a ++ b) = encode a ++ encode b := List.flatMap_append

theorem encode_nil (t : Text) (h : encode t = []) : t = [] := by
  have := Shown.decode_encode t
  rw [h] at this
  exact this.symm.trans (by unfold decode; rfl)

end Ms

/-- The white space of ASCII. -/
def asciiWs (c : Char) : Bool := c = ' ' || c = '\n' || c = '\r' || c = '\t'

/-- C86.  Whatever the language, a compiler that fails is reported with exactly what it said, and nothing else. For Java see the next; assembly programs
also have a linker, which has its say only after the assembler succeeded. -/
theorem C86_failed (ws : Char → Bool) (k : Kind) (hk : k ≠ .javac) (out : List UInt8) (ho : out ≠ []) (second : Except Msg Msg) :
    (compile ws k (.error (.output out)) second).map compiling = some [.compileError (decode out)] ∧
    ∀ m, (compile ws .asm (.ok m) (.error (.output out))).map compiling = some [.compileError (decode out)] := by
  have e : ∀ k, k ≠ .javac → (compiling (.error (failure k out))) = [.compileError (decode out)] := by
    intro k hk
    have : failure k out = .bytes out := if_neg fun h => hk h.1
    rw [this]
    cases out with
    | nil => exact absurd rfl ho
    | cons a r => rfl
  refine ⟨?_, fun m => ?_⟩
  · show some (compiling (.error (failure k out))) = _
    rw [e k hk]
  · show some (compiling (.error (failure .asm out))) = _
    rw [e _ (by decide)]

example : (compile asciiWs .pas (.error (.output (encode "x.pas(1,1) Error: no".toList))) (.ok .tooLong)).map compiling =
    some [.compileError "x.pas(1,1) Error: no".toList] := by
  rw [(C86_failed asciiWs .pas (by decide) _ (by decide) _).1, Shown.decode_encode]

/-- C86.  What the compiler of Java says is replaced by a fixed text exactly if it says that the class belongs elsewhere. -/
theorem C86_java (ws : Char → Bool) (out : List UInt8) (ho : out ≠ []) (second : Except Msg Msg) :
    (Mentions "is public, should be declared in a file named" out →
      (compile ws .javac (.error (.output out)) second).map compiling =
        some [.compileError "You are a troll. Trolls are not welcome. As a judge, I sentence your code to death.\n".toList]) ∧
    (¬ Mentions "is public, should be declared in a file named" out →
      (compile ws .javac (.error (.output out)) second).map compiling = some [.compileError (decode out)]) := by
  have hw : within (ascii "is public, should be declared in a file named") out = true ↔ Mentions "is public, should be declared in a file named" out := by
    rw [Ms.within_iff]
    have : ascii "is public, should be declared in a file named" = encode "is public, should be declared in a file named".toList := by decide +kernel
    rw [this]; rfl
  refine ⟨fun h => ?_, fun h => ?_⟩
  · show some (compiling (.error (failure .javac out))) = _
    have : failure .javac out = .text troll.toList := if_pos ⟨rfl, hw.2 h⟩
    rw [this]
    rfl
  · show some (compiling (.error (failure .javac out))) = _
    have : failure .javac out = .bytes out := if_neg fun e => h (hw.1 e.2)
    rw [this]
    cases out with
    | nil => exact absurd rfl ho
    | cons a r => rfl

example : Mentions "is public, should be declared in a file named" (encode "class A is public, should be declared in a file named A.java".toList) :=
  (Ms.within_iff _ _).1 (by decide +kernel)

/-- C86.  The fixed texts: over its time, or with too much to say. -/
theorem C86_limits (ws : Char → Bool) (k : Kind) (second : Except Msg Msg) (n : Nat) :
    (compile ws k (.error (.timedOut n)) second).map compiling =
      some [.compileError ("compiler timed out (> ".toList ++ (toString n).toList ++ " seconds)".toList)] ∧
    (compile ws k (.error .tooLong) second).map compiling = some [.compileError "compiler output too long (> 64kb)".toList] := by
  have hd : ∀ c ∈ (toString n).toList, c.toNat < 0x80 ∧ c.toNat ≠ 44 := by
    intro c hc
    have := Ms.digits n c hc
    simp only [Char.isDigit, Bool.and_eq_true, decide_eq_true_eq, ge_iff_le] at this
    have h2 : c.toNat ≤ 57 := this.2
    have h1 : 48 ≤ c.toNat := this.1
    omega
  have e1 : text (.timedOut n) = encode ("compiler timed out (> ".toList ++ (toString n).toList ++ " seconds)".toList) := by
    show ascii _ ++ ascii _ ++ ascii _ = _
    rw [Ms.ascii_encode _ (by decide), Ms.ascii_encode _ (fun c hc => (hd c hc).1), Ms.ascii_encode " seconds)" (by decide), Ms.encode_append, Ms.encode_append]
  have e2 : text .tooLong = encode "compiler output too long (> 64kb)".toList := Ms.ascii_encode _ (by decide)
  have key : ∀ m (t : List Char), text m = encode t → t ≠ [] → (∀ c ∈ t, c.toNat < 0x80 ∧ c.toNat ≠ 44) →
      (compile ws k (.error m) second).map compiling = some [.compileError t] := by
    intro m t e ht hc
    show some (compiling (.error (failure k (text m)))) = _
    have : failure k (text m) = .bytes (encode t) := by
      rw [e]
      exact if_neg fun g => Ms.comma t hc g.2
    rw [this]
    have hn : encode t ≠ [] := fun g => ht (Ms.encode_nil t g)
    unfold compiling
    dsimp only
    rw [if_neg (by
      show ¬ (List.isEmpty (encode t) = true)
      rwa [List.isEmpty_iff])]
    show some [Packet.compileError (decode (encode t))] = _
    rw [Shown.decode_encode]
  refine ⟨key _ _ e1 (by simp) ?_, key _ _ e2 (by simp) (by decide)⟩
  have f1 : ∀ c ∈ "compiler timed out (> ".toList, c.toNat < 0x80 ∧ c.toNat ≠ 44 := by decide
  have f2 : ∀ c ∈ " seconds)".toList, c.toNat < 0x80 ∧ c.toNat ≠ 44 := by decide
  intro c hc
  rcases List.mem_append.1 hc with hc | hc
  · rcases List.mem_append.1 hc with hc | hc
    · exact f1 c hc
    · exact hd c hc
  · exact f2 c hc

/-- C86.  What a successful compiler says is shown as it is. -/
theorem C86_warning (ws : Char → Bool) (out : List UInt8) (k : Kind) (hk : k = .other ∨ k = .javac) (second : Except Msg Msg) :
    (compile ws k (.ok (.output out)) second).map compiling = some [.compileMessage (decode out)] := by
  rcases hk with rfl | rfl <;> rfl

/-- C86.  For Pascal only if there is something to note. -/
theorem C86_pascal (ws : Char → Bool) (out : List UInt8) (second : Except Msg Msg) :
    (Mentions "Fatal:" out ∨ Mentions "Warning:" out ∨ Mentions "Note:" out →
      (compile ws .pas (.ok (.output out)) second).map compiling = some [.compileMessage (decode out)]) ∧
    (¬ (Mentions "Fatal:" out ∨ Mentions "Warning:" out ∨ Mentions "Note:" out) →
      (compile ws .pas (.ok (.output out)) second).map compiling = some [.compileMessage []]) := by
  have h1 : within (ascii "Fatal:") out = true ↔ Mentions "Fatal:" out := by
    rw [Ms.within_iff, show ascii "Fatal:" = encode "Fatal:".toList by decide +kernel]; rfl
  have h2 : within (ascii "Warning:") out = true ↔ Mentions "Warning:" out := by
    rw [Ms.within_iff, show ascii "Warning:" = encode "Warning:".toList by decide +kernel]; rfl
  have h3 : within (ascii "Note:") out = true ↔ Mentions "Note:" out := by
    rw [Ms.within_iff, show ascii "Note:" = encode "Note:".toList by decide +kernel]; rfl
  have hk : (compile ws .pas (.ok (.output out)) second).map compiling = some (compiling (.binary (some (kept .pas out)))) := rfl
  rw [hk]
  unfold kept
  dsimp only
  refine ⟨fun h => ?_, fun h => ?_⟩
  · rw [if_pos (by simp only [Bool.or_eq_true, h1, h2, h3]; rcases h with h | h | h <;> simp [h])]; rfl
  · rw [if_neg (by simp only [Bool.or_eq_true, h1, h2, h3]; rintro ((g | g) | g) <;> exact h (by simp [g]))]; rfl

example : Mentions "Warning:" (encode "a.pas(3,2) Warning: unused".toList) ∧ ¬ (Mentions "Fatal:" (encode "Hint: x".toList) ∨
    Mentions "Warning:" (encode "Hint: x".toList) ∨ Mentions "Note:" (encode "Hint: x".toList)) := by
  refine ⟨(Ms.within_iff _ _).1 (by decide +kernel), ?_⟩
  rintro (h | h | h) <;> exact absurd ((Ms.within_iff _ _).2 h) (by decide +kernel)

/-- C86.  For COBOL likewise, with either spelling of the first letter. -/
theorem C86_cobol (ws : Char → Bool) (out : List UInt8) (second : Except Msg Msg) :
    ((∃ w ∈ ["Error:", "error:", "Note:", "note:", "Warning:", "warning:"], Mentions w out) →
      (compile ws .cbl (.ok (.output out)) second).map compiling = some [.compileMessage (decode out)]) ∧
    ((¬ ∃ w ∈ ["Error:", "error:", "Note:", "note:", "Warning:", "warning:"], Mentions w out) →
      (compile ws .cbl (.ok (.output out)) second).map compiling = some [.compileMessage []]) := by
  have key : ∀ w ∈ ["Error:", "error:", "Note:", "note:", "Warning:", "warning:"], (within (ascii w) out = true ↔ Mentions w out) := by
    have e : ∀ w ∈ ["Error:", "error:", "Note:", "note:", "Warning:", "warning:"], ascii w = encode w.toList := by decide +kernel
    intro w hw
    rw [Ms.within_iff, e w hw]; rfl
  have hk : (compile ws .cbl (.ok (.output out)) second).map compiling = some (compiling (.binary (some (kept .cbl out)))) := rfl
  rw [hk]
  unfold kept
  dsimp only
  simp only [List.forall_mem_cons, List.not_mem_nil, false_implies, implies_true, and_true] at key
  obtain ⟨k1, k2, k3, k4, k5, k6⟩ := key
  have c : ([("Error:", "error:"), ("Note:", "note:"), ("Warning:", "warning:")].any fun p => within (ascii p.1) out || within (ascii p.2) out) = true ↔
      ∃ w ∈ ["Error:", "error:", "Note:", "note:", "Warning:", "warning:"], Mentions w out := by
    simp only [List.any_cons, List.any_nil, Bool.or_false, Bool.or_eq_true, k1, k2, k3, k4, k5, k6, List.mem_cons, List.not_mem_nil, or_false, exists_eq_or_imp,
      exists_eq_left, or_assoc]
  refine ⟨fun h => ?_, fun h => ?_⟩
  · rw [if_pos (c.2 h)]; rfl
  · rw [if_neg (fun g => h (c.1 g))]; rfl

/-- C86.  For assembly programs the message is what the assembler said and, on lines of its own, what the linker said, without white space around; there is none
if both said nothing. Partial: for output that is text. -/
theorem C86_assembly_partial (ws : Char → Bool) (a l : List Char) :
    (a = [] ∧ l = [] → (compile ws .asm (.ok (.output (encode a))) (.ok (.output (encode l)))).map compiling = some []) ∧
    (¬ (a = [] ∧ l = []) → ∃ s, Trimmed ws (a ++ '\n' :: l) s ∧
      (compile ws .asm (.ok (.output (encode a))) (.ok (.output (encode l)))).map compiling = some [.compileMessage s]) := by
  refine ⟨?_, fun h => ?_⟩
  · rintro ⟨rfl, rfl⟩
    rfl
  · have hne : ¬ (text (.output (encode a)) = [] ∧ text (.output (encode l)) = []) := fun g => h ⟨Ms.encode_nil a g.1, Ms.encode_nil l g.2⟩
    refine ⟨trim ws (a ++ '\n' :: l), Ms.trimmed ws _, ?_⟩
    unfold compile
    dsimp only
    rw [if_pos rfl, if_neg hne]
    simp only [text, Ms.strict_encode]
    rfl

example : (compile asciiWs .asm (.ok (.output (encode "a.asm:1: warning\n".toList))) (.ok (.output []))).map compiling =
    some [.compileMessage "a.asm:1: warning".toList] := by
  unfold compile
  dsimp only
  rw [if_pos rfl, if_neg (by decide +kernel)]
  rw [show strict (text (.output (encode "a.asm:1: warning\n".toList))) = some "a.asm:1: warning\n".toList from Ms.strict_encode _,
    show strict (text (.output [])) = some [] from Ms.strict_encode []]
  decide +kernel

/-- C86.  If either said something that is not text, as an assembler does that quotes the line of a program, compiling is an internal error, though it
succeeded. -/
theorem C86_assembly_fails (ws : Char → Bool) (a l : List UInt8) (h : (∀ t, a ≠ encode t) ∨ ∀ t, l ≠ encode t) :
    compile ws .asm (.ok (.output a)) (.ok (.output l)) = none := by
  have nil : ∀ b : List UInt8, (∀ t, b ≠ encode t) → b ≠ [] := fun b hb e => hb [] e
  have hn : ¬ (text (.output a) = [] ∧ text (.output l) = []) := fun g => h.elim (fun h => nil a h g.1) fun h => nil l h g.2
  unfold compile
  dsimp only
  rw [if_pos rfl, if_neg hn]
  rcases h with h | h
  · rw [show strict (text (.output a)) = none from Ms.strict_none a h]
  · rw [show strict (text (.output l)) = none from Ms.strict_none l h]
    cases strict (text (.output a)) <;> rfl

example : ∀ t, [0xFF] ≠ encode t := by
  intro t h
  have := Shown.decode_encode t
  rw [← h] at this
  rw [show decode [0xFF] = [Verif.Shown.repl] by decide +kernel] at this
  rw [← this] at h
  exact absurd h (by decide +kernel)

/-- C86.  A compiler that says nothing is quoted all the same: with the exception of assembly programs, an empty message is sent. -/
theorem C86_silent_fails (ws : Char → Bool) (k : Kind) (hk : k ≠ .asm) (second : Except Msg Msg) :
    (compile ws k (.ok (.output [])) second).map compiling = some [.compileMessage []] := by
  have e : decode [] = [] := by unfold decode; rfl
  cases k with
  | asm => exact absurd rfl hk
  | other => rw [C86_warning ws [] .other (.inl rfl) second, e]
  | javac => rw [C86_warning ws [] .javac (.inr rfl) second, e]
  | pas => rfl
  | cbl => rfl

end Verif.Props
