import Verif.Model.CmdLine
import Verif.Model.Autoconf
import Verif.Spec.CmdLine

/-! # C85: what is run for a submission -/

namespace Verif.Props

open Verif.CmdLine Verif.Spec.CmdLine

namespace Cl

/-- The forms of programs to be started. -/
def exeOk (r : Row) : Bool :=
  match r.exe with
  | .rt _ => true
  | .file "" (.problem "") => true
  | .file "" (.fixed "target/release/user_submission") => r.lang = "RUST"
  | _ => false

theorem exes : ∀ r ∈ table, exeOk r = true := by decide +kernel

/-- Templates that depend on the configuration only. -/
def plain : Tok → Bool
  | .lit _ | .rt _ => true
  | _ => false

/-- A script: fixed parts around the file. -/
def scriptOk (r : Row) : Bool :=
  r.kind = .plain && decide (r.limit = .same) && (r.argv.takeWhile (· ≠ CmdLine.code)).all plain &&
    (match r.argv.dropWhile (· ≠ CmdLine.code) with
      | [] => false
      | _ :: b => b.all plain)

theorem scripts : ∀ r ∈ table, r.compile = [] → scriptOk r = true := by decide +kernel

/-- Filling in what depends on the configuration only. -/
def fixed (rt : String → List Char) : Tok → List Char
  | .lit s => s.toList
  | .rt k => rt k
  | _ => []

theorem plain_line (cd : CmdLine.Str) (c : Ctx) (l : List Tok) (h : l.all plain = true) : l.flatMap (render cd c) = l.map (fixed c.rt) := by
  induction l with
  | nil => rfl
  | cons t l ih =>
    rw [List.all_cons, Bool.and_eq_true] at h
    rw [List.flatMap_cons, List.map_cons, ih h.2]
    cases t <;> first | rfl | exact nomatch h.1

/-- Does this argument say that the file is to be written? -/
def joined (f : File) : Tok → Bool
  | .file o f' | .rel o f' => f' = f && decide (o ∈ ["-of", "--snapshot=", "-out:", "--out:", "/out:"])
  | _ => false

/-- Do these two? -/
def pair (f : File) : Tok → Tok → Bool
  | .lit o, u => decide (o ∈ ["-o", "-d", "--name"]) && (u = .file "" f || u = .rel "" f)
  | _, _ => false

/-- Does the line say that this file is to be written? -/
def says (f : File) : List Tok → Bool
  | [] => false
  | t :: l => joined f t || (match l with
    | [] => false
    | u :: _ => pair f t u) || says f l

/-- Is this file started? -/
def starts (f : File) (r : Row) : Bool := r.exe = .file "" f || r.argv.contains (.file "" f) || r.argv.contains (.rel "" f)

/-- The languages whose compilers are told what to write. -/
def told : List String := ["ADA", "BF", "C", "C11", "CLANG", "CLANGX", "CPP03", "CPP11", "CPP14", "CPP17", "CPP20", "D", "DART", "F95", "GAS32",
  "GAS64", "GASARM", "HASK", "KOTLIN", "MONOCS", "MONOFS", "MONOVB", "NASM", "NASM64", "OBJC", "OCAML", "ZIG"]

theorem tolds : ∀ r ∈ table, r.lang ∈ told → [File.problem "", .problem ".exe", .problem ".jar"].any (fun f => r.compile.any (says f) && starts f r) = true := by
  decide +kernel

theorem at_abs (dir x : CmdLine.Str) (hd : dir.head? = some '/') : At dir (dir ++ '/' :: x) = dir ++ '/' :: x := by
  unfold At
  cases dir with
  | nil => exact nomatch hd
  | cons a d => rw [if_pos (by simpa using hd)]

theorem at_rel (dir x : CmdLine.Str) (hx : x.head? ≠ some '/') : At dir x = dir ++ '/' :: x := by
  unfold At; rw [if_neg hx]

theorem name_head (cd : CmdLine.Str) (c : Ctx) (add : String) (hp : c.problem ≠ []) (hs : '/' ∉ c.problem) :
    (fileName cd c (.problem add)).head? ≠ some '/' := by
  simp only [fileName]
  cases h : c.problem with
  | nil => exact absurd h hp
  | cons a q =>
    simp only [List.cons_append, List.head?_cons]
    intro he
    refine hs ?_
    rw [h]
    simp at he
    exact he ▸ .head _

theorem says_output (cd : CmdLine.Str) (c : Ctx) (add : String) (hd : c.dir.head? = some '/') (hp : c.problem ≠ []) (hs : '/' ∉ c.problem)
    (l : List Tok) (h : says (.problem add) l = true) :
    ∃ p, Output (l.flatMap (render cd c)) p ∧ At c.dir p = c.dir ++ '/' :: (c.problem ++ add.toList) := by
  have opts : ∀ o : String, o ∈ ["-of", "--snapshot=", "-out:", "--out:", "/out:"] →
      o.toList ∈ ["-of".toList, "--snapshot=".toList, "-out:".toList, "--out:".toList, "/out:".toList] := by
    intro o ho; simp only [List.mem_cons, List.not_mem_nil, or_false] at ho ⊢; rcases ho with rfl | rfl | rfl | rfl | rfl <;> simp
  have seps : ∀ o : String, o ∈ ["-o", "-d", "--name"] → o.toList ∈ ["-o".toList, "-d".toList, "--name".toList] := by
    intro o ho; simp only [List.mem_cons, List.not_mem_nil, or_false] at ho ⊢; rcases ho with rfl | rfl | rfl <;> simp
  have one : ∀ (t : Tok) (rest : List Tok), joined (.problem add) t = true →
      ∃ p, Output ((t :: rest).flatMap (render cd c)) p ∧ At c.dir p = c.dir ++ '/' :: (c.problem ++ add.toList) := by
    intro t rest h
    cases t with
    | file o f =>
      simp only [joined, Bool.and_eq_true, decide_eq_true_eq] at h
      obtain ⟨rfl, ho⟩ := h
      exact ⟨c.dir ++ '/' :: fileName cd c (.problem add), .inr ⟨[], _, o.toList, rfl, opts o ho⟩, at_abs _ _ hd⟩
    | rel o f =>
      simp only [joined, Bool.and_eq_true, decide_eq_true_eq] at h
      obtain ⟨rfl, ho⟩ := h
      exact ⟨fileName cd c (.problem add), .inr ⟨[], _, o.toList, rfl, opts o ho⟩, at_rel _ _ (name_head cd c add hp hs)⟩
    | _ => exact nomatch h
  have more : ∀ (t : Tok) (l : List Tok), (∃ p, Output (l.flatMap (render cd c)) p ∧ At c.dir p = c.dir ++ '/' :: (c.problem ++ add.toList)) →
      ∃ p, Output ((t :: l).flatMap (render cd c)) p ∧ At c.dir p = c.dir ++ '/' :: (c.problem ++ add.toList) := by
    rintro t l ⟨p, h | h, h2⟩ <;> obtain ⟨a, b, o, e, ho⟩ := h
    · exact ⟨p, .inl ⟨render cd c t ++ a, b, o, by rw [List.flatMap_cons, e]; simp, ho⟩, h2⟩
    · exact ⟨p, .inr ⟨render cd c t ++ a, b, o, by rw [List.flatMap_cons, e]; simp, ho⟩, h2⟩
  induction l with
  | nil => exact nomatch h
  | cons t l ih =>
    unfold says at h
    rw [Bool.or_eq_true, Bool.or_eq_true] at h
    rcases h with (h | h) | h
    · exact one t l h
    · cases l with
      | nil => exact nomatch h
      | cons u l =>
        dsimp only at h
        cases t with
        | lit o =>
          simp only [pair, Bool.and_eq_true, Bool.or_eq_true, decide_eq_true_eq] at h
          obtain ⟨ho, rfl | rfl⟩ := h
          · exact ⟨c.dir ++ '/' :: fileName cd c (.problem add), .inl ⟨[], _, o.toList, rfl, seps o ho⟩, at_abs _ _ hd⟩
          · exact ⟨fileName cd c (.problem add), .inl ⟨[], _, o.toList, rfl, seps o ho⟩, at_rel _ _ (name_head cd c add hp hs)⟩
        | _ => exact nomatch h
    · exact more t _ (ih h)

theorem starts_it (c : Ctx) (args : List CmdLine.Str) (r : Row) (add : String) (hd : c.dir.head? = some '/') (hp : c.problem ≠ [])
    (hs : '/' ∉ c.problem) (h : starts (.problem add) r = true) :
    ∃ q, (q ∈ (launch r c args).exe ∨ q ∈ (launch r c args).argv) ∧ At c.dir q = c.dir ++ '/' :: (c.problem ++ add.toList) := by
  unfold starts at h
  simp only [Bool.or_eq_true, decide_eq_true_eq, List.contains_iff_mem] at h
  unfold launch line
  dsimp only
  rcases h with (h | h) | h
  · rw [h]
    exact ⟨_, .inl (.head _), at_abs _ _ hd⟩
  · exact ⟨_, .inr (List.mem_append_left _ (List.mem_flatMap.2 ⟨_, h, .head _⟩)), at_abs _ _ hd⟩
  · exact ⟨_, .inr (List.mem_append_left _ (List.mem_flatMap.2 ⟨_, h, .head _⟩)), at_rel _ _ (name_head [] c add hp hs)⟩

/-- The languages of the Java machine. -/
def jvm : List String := ["JAVA8", "JAVA9", "JAVA10", "JAVA11", "JAVA15", "KOTLIN", "GROOVY", "SCALA"]

theorem limits : ∀ r ∈ table, r.limit = (if r.lang ∈ jvm then .none else if r.lang = "BF" then .more else .same) ∧
    (r.lang ∈ jvm → .xmx ∈ r.argv) := by decide +kernel

/-- Templates without the class. -/
def noCls : Tok → Bool
  | .cls => false
  | _ => true

theorem classes : ∀ r ∈ table, r.lang ∉ ["JAVA8", "JAVA9", "JAVA10", "JAVA11", "JAVA15"] → (r.kind ≠ .javac ∧ r.argv.all noCls = true ∧
    r.compile.all (·.all noCls) = true ∧ noCls r.exe = true) := by decide +kernel

theorem crashes : ∀ r ∈ table, r.lang ∈ ["JAVA8", "JAVA9", "JAVA10", "JAVA11", "JAVA15"] →
    .lit "-XX:ErrorFile=submission_jvm_crash.log" ∈ r.argv := by decide +kernel

theorem noCls_render (cd x : CmdLine.Str) (c : Ctx) (t : Tok) (h : noCls t = true) : render cd { c with cls := x } t = render cd c t := by
  cases t with
  | cls => exact nomatch h
  | file pre f => cases f <;> rfl
  | rel pre f => cases f <;> rfl
  | _ => rfl

theorem noCls_line (cd x : CmdLine.Str) (c : Ctx) (l : List Tok) (h : l.all noCls = true) :
    l.flatMap (render cd { c with cls := x }) = l.flatMap (render cd c) := by
  induction l with
  | nil => rfl
  | cons t l ih =>
    rw [List.all_cons, Bool.and_eq_true] at h
    rw [List.flatMap_cons, List.flatMap_cons, ih h.2, noCls_render cd x c t h.1]

theorem codeName_cls (k : Source.Kind) (ext : String) (x : CmdLine.Str) (c : Ctx) (h : k ≠ .javac) :
    codeName k ext { c with cls := x } = codeName k ext c := by
  cases k <;> first | rfl | exact absurd rfl h

/-- Where the name of the file with the submission turns up. -/
def reads (r : Row) : Bool :=
  match r.kind with
  | .gcc => (r.compile.headD []).contains (.many "sources")
  | .rust => r.lang = "RUST"
  | .python => r.argv.contains CmdLine.code
  | _ => (if r.compile = [] then r.argv else r.compile.headD []).contains CmdLine.code ||
      (r.lang = "SBCL" && (r.compile.headD []).contains .lisp)

theorem readings : ∀ r ∈ table, r.lang ≠ "BF" → (r.lang, r.kind, r.ext) ∈ Source.table ∧ reads r = true ∧
    (r.compile = [] ∨ r.compile.headD [] ∈ r.compile) := by decide +kernel

end Cl

/-- C85.  The program that is started is the configured runtime of the language, or the file compiled from the submission in its own directory. -/
theorem C85_executable (r : Row) (hr : r ∈ table) (c : Ctx) (args : List (List Char)) : ∃ p, (launch r c args).exe = [p] ∧
    ((∃ key, p = c.rt key) ∨ p = c.dir ++ '/' :: c.problem ∨ r.lang = "RUST" ∧ p = c.dir ++ "/target/release/user_submission".toList) := by
  have h := Cl.exes r hr
  unfold Cl.exeOk at h
  unfold launch
  split at h
  · next k e => rw [e]; exact ⟨_, rfl, .inl ⟨k, rfl⟩⟩
  · next e =>
    rw [e]
    refine ⟨_, rfl, .inr (.inl ?_)⟩
    simp [fileName]
  · next e =>
    rw [e]
    refine ⟨_, rfl, .inr (.inr ⟨by simpa using h, ?_⟩)⟩
    rfl
  · exact nomatch h

/-- C85.  A script is given to its interpreter by name, after and before arguments that depend on the configuration only. -/
theorem C85_script (r : Row) (hr : r ∈ table) (h : r.compile = []) : ∃ a b : (String → List Char) → List (List Char), ∀ c args,
    (launch r c args).argv = a c.rt ++ (c.dir ++ '/' :: c.problem ++ '.' :: r.ext.toList) :: b c.rt ++ args := by
  have hs := Cl.scripts r hr h
  unfold Cl.scriptOk at hs
  simp only [Bool.and_eq_true, decide_eq_true_eq] at hs
  obtain ⟨⟨⟨hk, hl⟩, ha⟩, hb⟩ := hs
  have hsplit := List.takeWhile_append_dropWhile (p := (decide <| · ≠ CmdLine.code)) (l := r.argv)
  have hd := List.head?_dropWhile_not (decide <| · ≠ CmdLine.code) r.argv
  generalize hA : r.argv.takeWhile (decide <| · ≠ CmdLine.code) = A at *
  generalize hB : r.argv.dropWhile (decide <| · ≠ CmdLine.code) = B at *
  cases B with
  | nil => exact nomatch hb
  | cons t B =>
    simp only [List.head?_cons] at hd
    have ht : t = CmdLine.code := by simpa using hd
    refine ⟨fun rt => A.map (Cl.fixed rt), fun rt => B.map (Cl.fixed rt), fun c args => ?_⟩
    unfold launch line
    dsimp only
    rw [← hsplit, List.flatMap_append, List.flatMap_cons, Cl.plain_line _ _ _ ha, Cl.plain_line _ _ _ hb, ht, hl, if_neg (by decide)]
    simp [CmdLine.code, render, fileName, codeName, hk]

/-- Somewhere to run a submission. -/
def someCtx : Ctx where
  rt k := "/usr/bin/".toList ++ k.toList
  many _ := []
  dir := "/tmp/tmpab12".toList
  problem := "aplusb".toList
  cls := "Main".toList
  memory := 65536
  unbuffered := false
  hints := []
  agent := "/judge/java-sandbox.jar".toList
  offline := false

example : (launch (script "AWK" "awk" "awk" [.rt "awk", .lit "-f", CmdLine.code]) someCtx ["x".toList]).argv =
    ["/usr/bin/awk".toList, "-f".toList, "/tmp/tmpab12/aplusb.awk".toList, "x".toList] := by decide +kernel

/-- C85.  The file that C84 is about is what the compiler is given, or the interpreter: its path is an argument (for Lisp within one). Rust has a file
of fixed name. The sources of C and the like are the files written, gcc_executor.py:28-43. -/
theorem C85_reads (r : Row) (hr : r ∈ table) (hb : r.lang ≠ "BF") (c : Ctx) (args : List (List Char)) (src : List Char)
    (hg : r.kind = .gcc → c.many "sources" = (Source.written .gcc r.ext.toList c.problem c.cls src).map fun f => c.dir ++ '/' :: f.1)
    (name text : List Char) (hn : (Source.written r.kind r.ext.toList c.problem c.cls src).getLast? = some (name, text)) :
    (r.lang, r.kind, r.ext) ∈ Source.table ∧
      (r.lang = "RUST" ∨ ∃ l, (l ∈ r.compile.map (line r c) ∨ l = (launch r c args).argv ∧ (r.compile = [] ∨ r.kind = .python)) ∧
        (c.dir ++ '/' :: name ∈ l ∨
          r.lang = "SBCL" ∧ "(compile-file \"".toList ++ (c.dir ++ '/' :: name) ++ "\")".toList ∈ l)) := by
  obtain ⟨h1, h2, h3⟩ := Cl.readings r hr hb
  refine ⟨h1, ?_⟩
  unfold Cl.reads at h2
  have plain : codeName r.kind r.ext c = name →
      ((if r.compile = [] then r.argv else r.compile.headD []).contains CmdLine.code ||
        (r.lang = "SBCL" && (r.compile.headD []).contains .lisp)) = true →
      ∃ l, (l ∈ r.compile.map (line r c) ∨ l = (launch r c args).argv ∧ (r.compile = [] ∨ r.kind = .python)) ∧
        (c.dir ++ '/' :: name ∈ l ∨
          r.lang = "SBCL" ∧ "(compile-file \"".toList ++ (c.dir ++ '/' :: name) ++ "\")".toList ∈ l) := by
    rintro rfl h
    rw [Bool.or_eq_true, Bool.and_eq_true, decide_eq_true_eq, List.contains_iff_mem, List.contains_iff_mem] at h
    by_cases hc : r.compile = []
    · rw [if_pos hc] at h
      rcases h with h | h
      · refine ⟨_, .inr ⟨rfl, .inl hc⟩, .inl (List.mem_append_left _ (List.mem_flatMap.2 ⟨_, h, ?_⟩))⟩
        simp [CmdLine.code, render, fileName]
      · rw [hc] at h
        exact nomatch h.2
    · rw [if_neg hc] at h
      replace h3 := h3.resolve_left hc
      refine ⟨_, .inl (List.mem_map_of_mem h3), ?_⟩
      rcases h with h | ⟨hl, h⟩
      · refine .inl (List.mem_flatMap.2 ⟨_, h, ?_⟩)
        simp [CmdLine.code, render, fileName]
      · exact .inr ⟨hl, List.mem_flatMap.2 ⟨_, h, .head _⟩⟩
  cases hk : r.kind with
  | gcc =>
    rw [hk] at h2 hn
    dsimp only at h2
    rw [List.contains_iff_mem] at h2
    have hc : r.compile ≠ [] := by rintro e; rw [e] at h2; exact nomatch h2
    refine .inr ⟨_, .inl (List.mem_map_of_mem (h3.resolve_left hc)), .inl (List.mem_flatMap.2 ⟨_, h2, ?_⟩)⟩
    show _ ∈ c.many "sources"
    rw [hg hk]
    exact List.mem_map.2 ⟨_, List.mem_of_getLast? hn, rfl⟩
  | rust =>
    rw [hk] at h2
    exact .inl (by simpa using h2)
  | python =>
    rw [hk] at h2 hn
    dsimp only at h2
    rw [List.contains_iff_mem] at h2
    have : codeName .python r.ext c = name := by
      simp only [Source.written, List.getLast?_singleton, Option.some.injEq, Prod.mk.injEq] at hn
      exact hn.1
    refine .inr ⟨_, .inr ⟨rfl, .inr rfl⟩, .inl (List.mem_append_left _ (List.mem_flatMap.2 ⟨_, h2, ?_⟩))⟩
    rw [hk, this]
    simp [CmdLine.code, render, fileName]
  | _ =>
    rw [hk] at h2 hn plain
    refine .inr (plain ?_ h2)
    simp only [Source.written, List.getLast?_singleton, List.getLast?_cons_cons, Option.some.injEq, Prod.mk.injEq] at hn
    exact hn.1

example : (Source.written .plain "awk".toList someCtx.problem someCtx.cls "1".toList).getLast? = some ("aplusb.awk".toList, "1".toList) := by
  decide +kernel

/-- C85.  Where a compiler is told what to write, that file is what is started, or what the runtime of the language is given. Partial: the other
compilers (Go, Pascal, COBOL, Swift, Scheme, INTERCAL, Rust, Lisp, Turing, Java, Groovy, Scala) choose the name themselves. -/
theorem C85_output_partial (r : Row) (hr : r ∈ table) (c : Ctx) (args : List (List Char)) (hd : c.dir.head? = some '/') (hp : c.problem ≠ [])
    (hs : '/' ∉ c.problem)
    (hl : r.lang ∈ ["ADA", "BF", "C", "C11", "CLANG", "CLANGX", "CPP03", "CPP11", "CPP14", "CPP17", "CPP20", "D", "DART", "F95", "GAS32",
      "GAS64", "GASARM", "HASK", "KOTLIN", "MONOCS", "MONOFS", "MONOVB", "NASM", "NASM64", "OBJC", "OCAML", "ZIG"]) :
    ∃ l ∈ r.compile, ∃ p q, Output (line r c l) p ∧ (q ∈ (launch r c args).exe ∨ q ∈ (launch r c args).argv) ∧ At c.dir p = At c.dir q ∧
      ∃ add ∈ ["".toList, ".exe".toList, ".jar".toList], At c.dir q = c.dir ++ '/' :: (c.problem ++ add) := by
  have h := Cl.tolds r hr hl
  obtain ⟨f, hf, h⟩ := List.any_eq_true.1 h
  rw [Bool.and_eq_true] at h
  obtain ⟨l, hl, hsay⟩ := List.any_eq_true.1 h.1
  have key : ∀ add : String, add.toList ∈ ["".toList, ".exe".toList, ".jar".toList] → f = .problem add →
      ∃ l ∈ r.compile, ∃ p q, Output (line r c l) p ∧ (q ∈ (launch r c args).exe ∨ q ∈ (launch r c args).argv) ∧ At c.dir p = At c.dir q ∧
      ∃ add ∈ ["".toList, ".exe".toList, ".jar".toList], At c.dir q = c.dir ++ '/' :: (c.problem ++ add) := by
    rintro add hadd rfl
    obtain ⟨p, hp1, hp2⟩ := Cl.says_output (codeName r.kind r.ext c) c add hd hp hs l hsay
    obtain ⟨q, hq1, hq2⟩ := Cl.starts_it c args r add hd hp hs h.2
    exact ⟨l, hl, p, q, hp1, hq1, hp2.trans hq2.symm, add.toList, hadd, hq2⟩
  simp only [List.mem_cons, List.not_mem_nil, or_false] at hf
  rcases hf with rfl | rfl | rfl
  · exact key "" (by simp) rfl
  · exact key ".exe" (by simp) rfl
  · exact key ".jar" (by simp) rfl

example : someCtx.dir.head? = some '/' ∧ someCtx.problem ≠ [] ∧ '/' ∉ someCtx.problem ∧
    ∃ r ∈ table, r.lang = "MONOFS" ∧ (launch r someCtx []).argv = ["mono".toList, "/tmp/tmpab12/aplusb.exe".toList] := by
  refine ⟨by decide, by decide, by decide, ?_⟩
  have : (table.any fun r => r.lang = "MONOFS" && (launch r someCtx []).argv = ["mono".toList, "/tmp/tmpab12/aplusb.exe".toList]) = true := by
    decide +kernel
  obtain ⟨r, hr, h⟩ := List.any_eq_true.1 this
  rw [Bool.and_eq_true, decide_eq_true_eq, decide_eq_true_eq] at h
  exact ⟨r, hr, h⟩

/-- C85.  The memory limit of the sandbox is the one of the problem; but programs of the Java machine have none, the machine being told the limit, and
Brainf*** programs have 8 MB more, for a tape of the size of the limit. -/
theorem C85_memory (r : Row) (hr : r ∈ table) (c : Ctx) (args : List (List Char)) :
    if r.lang ∈ ["JAVA8", "JAVA9", "JAVA10", "JAVA11", "JAVA15", "KOTLIN", "GROOVY", "SCALA"] then
      (launch r c args).memory = 0 ∧ "-Xmx".toList ++ (toString c.memory).toList ++ "K".toList ∈ (launch r c args).argv
    else if r.lang = "BF" then
      (launch r c args).memory = c.memory + 8192 ∧ [(toString (c.memory * 1024)).toList] <:+ (launch r c args).argv
    else (launch r c args).memory = c.memory := by
  obtain ⟨h1, h2⟩ := Cl.limits r hr
  unfold Cl.jvm at h1 h2
  unfold launch
  dsimp only
  by_cases hj : r.lang ∈ ["JAVA8", "JAVA9", "JAVA10", "JAVA11", "JAVA15", "KOTLIN", "GROOVY", "SCALA"]
  · replace h1 := h1.trans (if_pos hj)
    rw [if_pos hj, h1]
    exact ⟨rfl, List.mem_append_left _ (List.mem_flatMap.2 ⟨_, h2 hj, .head _⟩)⟩
  · replace h1 := h1.trans (if_neg hj)
    rw [if_neg hj]
    by_cases hb : r.lang = "BF"
    · rw [if_pos hb] at h1 ⊢
      rw [h1, if_pos rfl]
      exact ⟨rfl, List.suffix_append _ _⟩
    · rw [if_neg hb] at h1 ⊢
      rw [h1]

/-- C85.  Assembly programs take two steps: the assembler makes an object file of the submission, in the format of the language, and the linker makes
what is started of this object file. -/
theorem C85_asm (r : Row) (hr : r ∈ table) (hl : r.lang ∈ ["GAS32", "GAS64", "GASARM", "NASM", "NASM64"]) (c : Ctx) :
    ∃ src obj exe : List Char, src = c.dir ++ '/' :: (c.problem ++ ".asm".toList) ∧ obj = c.dir ++ '/' :: (c.problem ++ ".o".toList) ∧
      exe = c.dir ++ '/' :: c.problem ∧ r.compile.map (line r c) =
        [if r.lang = "NASM" ∨ r.lang = "NASM64" then [c.rt "as", "-f".toList] ++ c.many "nasm_format" ++ [src, "-o".toList, obj]
          else [c.rt "as", "-o".toList, obj, src] ++ c.many "as_platform_flag",
        [c.rt "ld", "-s".toList, "-o".toList, exe, "-m".toList] ++ c.many "ld_m" ++ c.many "pre" ++ [obj] ++ c.many "post"] := by
  have h : ∀ r ∈ table, r.lang ∈ ["GAS32", "GAS64", "GASARM", "NASM", "NASM64"] → r.kind = .asm ∧ r.ext = "asm" ∧
      r.compile = [if r.lang = "NASM" ∨ r.lang = "NASM64" then [.rt "as", .lit "-f", .many "nasm_format", .file "" (.code ""), .lit "-o", .file "" (.problem ".o")]
          else [.rt "as", .lit "-o", .file "" (.problem ".o"), .file "" (.code ""), .many "as_platform_flag"],
        [.rt "ld", .lit "-s", .lit "-o", .file "" (.problem ""), .lit "-m", .many "ld_m", .many "pre", .file "" (.problem ".o"), .many "post"]] := by
    decide +kernel
  obtain ⟨h1, h2, h3⟩ := h r hr hl
  refine ⟨_, _, _, rfl, rfl, rfl, ?_⟩
  have e0 : ("" : String).toList = [] := rfl
  have e1 : ".asm".toList = '.' :: "asm".toList := by decide
  rw [h3]
  unfold line
  rw [h1, h2]
  generalize hn : (if r.lang = "NASM" ∨ r.lang = "NASM64" then _ else _ : List Tok) = t
  by_cases hx : r.lang = "NASM" ∨ r.lang = "NASM64"
  · rw [if_pos hx] at hn ⊢
    subst hn
    simp only [List.map_cons, List.map_nil, List.flatMap_cons, List.flatMap_nil, render, codeName, fileName, e0, e1, List.nil_append, List.append_nil,
      List.cons_append, List.append_assoc]
  · rw [if_neg hx] at hn ⊢
    subst hn
    simp only [List.map_cons, List.map_nil, List.flatMap_cons, List.flatMap_nil, render, codeName, fileName, e0, e1, List.nil_append, List.append_nil,
      List.cons_append, List.append_assoc]

example : ∃ r ∈ table, r.lang = "NASM64" := by
  have : (table.any fun r => r.lang = "NASM64") = true := by decide +kernel
  obtain ⟨r, hr, h⟩ := List.any_eq_true.1 this
  exact ⟨r, hr, of_decide_eq_true h⟩

/-- C85.  The heap of a Lisp program has room for the memory of the problem, and hardly more: it is in MB. -/
theorem C85_lisp (r : Row) (hr : r ∈ table) (hl : r.lang = "SBCL") (c : Ctx) (args : List (List Char)) : ∃ a b m, (launch r c args).argv =
    a ++ ["--dynamic-space-size".toList, (toString m).toList] ++ b ∧ c.memory < m * 1024 ∧ m * 1024 ≤ c.memory + 1024 := by
  have h : ∀ r ∈ table, r.lang = "SBCL" → r.limit = .same ∧ r.argv = .rt "sbcl" :: .lit "--dynamic-space-size" :: .space :: r.argv.drop 3 := by
    decide +kernel
  obtain ⟨h1, h2⟩ := h r hr hl
  refine ⟨[c.rt "sbcl"], line r c (r.argv.drop 3) ++ args, c.memory / 1024 + 1, ?_, by omega, by omega⟩
  unfold launch line
  dsimp only
  rw [h1, if_neg (by decide), h2]
  simp [List.flatMap_cons, render, num]

/-- C85.  The Turing compiler is given the submission and the directory it is in itself. -/
theorem C85_turing (r : Row) (hr : r ∈ table) (hl : r.lang = "TUR") (c : Ctx) (d n : List Char) (h : c.rt "tprologc" = d ++ '/' :: n) (hn : '/' ∉ n) :
    r.compile.map (line r c) = [[d ++ '/' :: n, c.dir ++ '/' :: (c.problem ++ ".t".toList), d]] := by
  have h0 : ∀ r ∈ table, r.lang = "TUR" → r.kind = .plain ∧ r.ext = "t" ∧
      r.compile = [[.rt "tprologc", .file "" (.code ""), .rtDir "tprologc"]] := by decide +kernel
  obtain ⟨h1, h2, h3⟩ := h0 r hr hl
  have e0 : ("" : String).toList = [] := rfl
  have e1 : ".t".toList = '.' :: "t".toList := by decide
  have hd : dirname (d ++ '/' :: n) = d := by
    unfold dirname
    rw [List.reverse_append, List.reverse_cons, List.append_assoc, List.dropWhile_append_of_pos (by
      intro a ha
      simp only [decide_eq_true_eq]
      rintro rfl
      exact hn (List.mem_reverse.1 ha))]
    simp
  rw [h3]
  unfold line
  rw [h1, h2]
  simp only [List.map_cons, List.map_nil, List.flatMap_cons, List.flatMap_nil, render, codeName, fileName, e0, e1, List.nil_append, List.append_nil,
    List.cons_append, h, hd]

/-- C85.  What it makes of the submission, next to it, is what is run. -/
theorem C85_turing_run (r : Row) (hr : r ∈ table) (hl : r.lang = "TUR") (c : Ctx) (args : List (List Char)) :
    (launch r c args).exe = [c.rt "tprolog"] ∧
    (launch r c args).argv = [c.rt "tprolog", c.dir ++ '/' :: (c.problem ++ ".tbc".toList)] ++ args := by
  have h0 : ∀ r ∈ table, r.lang = "TUR" → r.kind = .plain ∧ r.ext = "t" ∧ r.limit = .same ∧ r.exe = .rt "tprolog" ∧
      r.argv = [.rt "tprolog", .file "" (.code "bc")] := by decide +kernel
  obtain ⟨h1, h2, h3, h4, h5⟩ := h0 r hr hl
  have e0 : ("" : String).toList = [] := rfl
  have e1 : ".tbc".toList = '.' :: ("t".toList ++ "bc".toList) := by decide
  unfold launch line
  dsimp only
  rw [h1, h2, h3, h4, h5, if_neg (by decide)]
  simp only [List.flatMap_cons, List.flatMap_nil, render, codeName, fileName, e0, e1, List.nil_append, List.append_nil,
    List.cons_append, List.append_assoc, and_self]

/-- A place where it may be. -/
example : ∃ r ∈ table, r.lang = "TUR" ∧ "/opt/turing/tprologc".toList = "/opt/turing".toList ++ '/' :: "tprologc".toList ∧ '/' ∉ "tprologc".toList := by
  have : (table.any fun r => r.lang = "TUR") = true := by decide +kernel
  obtain ⟨r, hr, h⟩ := List.any_eq_true.1 this
  exact ⟨r, hr, of_decide_eq_true h, by decide +kernel, by decide +kernel⟩

/-- C85.  Python programs are run by way of the loader, unbuffered if asked for, by the interpreter that has compiled all of the directory. -/
theorem C85_python (r : Row) (hr : r ∈ table) (hl : r.lang ∈ ["PY2", "PY3", "PYPY", "PYPY3"]) (c : Ctx) (args : List (List Char)) :
    ∃ key, (launch r c args).exe = [c.rt key] ∧ (launch r c args).argv = [c.rt key, if c.unbuffered then "-BSu".toList else "-BS".toList,
      c.dir ++ "/-loader.py".toList, c.dir ++ '/' :: c.problem ++ ".py".toList] ++ args ∧
      r.compile.map (line r c) = [[c.rt key, "-m".toList, "compileall".toList, "-q".toList, c.dir]] := by
  have h : ∀ r ∈ table, r.lang ∈ ["PY2", "PY3", "PYPY", "PYPY3"] → ["python", "python3", "pypy", "pypy3"].any fun cmd =>
      r.kind = .python && r.ext = "py" && r.exe = .rt cmd && r.argv = [.rt cmd, .pyflags, .file "" (.fixed "-loader.py"), CmdLine.code] &&
        r.limit = .same && r.compile = [[.rt cmd, .lit "-m", .lit "compileall", .lit "-q", .dir]] := by
    decide +kernel
  obtain ⟨cmd, -, h⟩ := List.any_eq_true.1 (h r hr hl)
  simp only [Bool.and_eq_true, decide_eq_true_eq] at h
  obtain ⟨⟨⟨⟨⟨h1, h2⟩, h3⟩, h4⟩, h5⟩, h6⟩ := h
  refine ⟨cmd, ?_, ?_, by rw [h6]; rfl⟩
  · unfold launch; rw [h3]; rfl
  · unfold launch line
    rw [h4, h5, if_neg (by decide), h1, h2]
    simp only [List.flatMap_cons, List.flatMap_nil, render, CmdLine.code, fileName, codeName]
    simp

/-- C85.  Every program of the Java machine runs under the agent, with the policy in its directory and the hints about it, and unbuffered if asked
for. -/
theorem C85_agent (r : Row) (hr : r ∈ table)
    (hl : r.lang ∈ ["JAVA8", "JAVA9", "JAVA10", "JAVA11", "JAVA15", "KOTLIN", "GROOVY", "SCALA"]) (c : Ctx) (args : List (List Char)) :
    ∃ opts, ("-javaagent:".toList ++ c.agent ++ "=policy:".toList ++ c.dir ++ "/security.policy".toList ++ opts) ∈ (launch r c args).argv ∧
      opts = (c.hints ++ if c.unbuffered then ["nobuf".toList] else []).flatMap (',' :: ·) := by
  have h : ∀ r ∈ table, r.lang ∈ ["JAVA8", "JAVA9", "JAVA10", "JAVA11", "JAVA15", "KOTLIN", "GROOVY", "SCALA"] → .agent ∈ r.argv := by
    decide +kernel
  have e : (c.hints ++ if c.unbuffered then ["nobuf".toList] else []).flatMap (',' :: ·) =
      c.hints.flatMap (',' :: ·) ++ (if c.unbuffered then ",nobuf".toList else []) := by
    rw [List.flatMap_append]
    cases c.unbuffered
    · rfl
    · exact congrArg _ (by decide)
  have m : agentFlag c ∈ (launch r c args).argv := List.mem_append_left _ (List.mem_flatMap.2 ⟨.agent, h r hr hl, List.mem_singleton.2 rfl⟩)
  unfold agentFlag at m
  rw [List.append_assoc _ (c.hints.flatMap _)] at m
  exact ⟨_, m, e.symm⟩

/-- C85.  Arguments for the program come last, whatever they are. Brainf*** programs get none. -/
theorem C85_args (r : Row) (hr : r ∈ table) (hb : r.lang ≠ "BF") (c : Ctx) (args : List (List Char)) :
    (launch r c args).argv = (launch r c []).argv ++ args := by
  obtain ⟨h1, -⟩ := Cl.limits r hr
  rw [if_neg hb] at h1
  have : r.limit ≠ .more := by rw [h1]; split <;> decide
  unfold launch
  dsimp only
  rw [if_neg this, if_neg this, List.append_nil]

/-- C85.  The text of a submission has a say in the command lines only by the class of a Java program. -/
theorem C85_text (r : Row) (hr : r ∈ table) (hj : r.lang ∉ ["JAVA8", "JAVA9", "JAVA10", "JAVA11", "JAVA15"]) (c : Ctx) (args : List (List Char))
    (cls : List Char) : launch r { c with cls := cls } args = launch r c args ∧
      ∀ l ∈ r.compile, line r { c with cls := cls } l = line r c l := by
  obtain ⟨h1, h2, h3, h4⟩ := Cl.classes r hr hj
  refine ⟨?_, fun l hl => ?_⟩
  · unfold launch line
    rw [Cl.codeName_cls _ _ _ _ h1, Cl.noCls_line _ _ _ _ h2, Cl.noCls_render _ _ _ _ h4]
  · unfold line
    rw [Cl.codeName_cls _ _ _ _ h1, Cl.noCls_line _ _ _ _ (List.all_eq_true.1 h3 l hl)]

/-- C85.  The machine of a Java program is told where to leave the log of its crash, which the judge looks for (java_executor.py:117). Partial: see the
next. -/
theorem C85_crash_log_partial (r : Row) (hr : r ∈ table) (hj : r.lang ∈ ["JAVA8", "JAVA9", "JAVA10", "JAVA11", "JAVA15"]) (c : Ctx)
    (args : List (List Char)) : "-XX:ErrorFile=submission_jvm_crash.log".toList ∈ (launch r c args).argv :=
  List.mem_append_left _ (List.mem_flatMap.2 ⟨_, Cl.crashes r hr hj, .head _⟩)

/-- C85.  That of a Kotlin, Groovy or Scala program is not: the option is cut off along with the class, so no crash is noticed. -/
theorem C85_crash_log_fails (r : Row) (hr : r ∈ table) (hj : r.lang ∈ ["KOTLIN", "GROOVY", "SCALA"]) :
    "-XX:ErrorFile=submission_jvm_crash.log".toList ∉ (launch r someCtx []).argv := by
  have : ∀ r ∈ table, r.lang ∈ ["KOTLIN", "GROOVY", "SCALA"] → "-XX:ErrorFile=submission_jvm_crash.log".toList ∉ (launch r someCtx []).argv := by
    decide +kernel
  exact this r hr hj

/-- C85.  The executors of .NET ask for a way of starting programs that takes no notice of SIGXCPU, which the machine uses for itself, but are not
heard: the signal makes the result "time limit exceeded". -/
theorem C85_mono_signal_fails (lang : String) (h : lang ∈ ["MONOCS", "MONOFS", "MONOVB"]) :
    onXcpu (declared lang) false = false ∧ onXcpu (used lang) false = true := by
  refine ⟨?_, rfl⟩
  unfold declared
  rw [if_pos h]
  rfl

namespace Cl

/-- The paths of the configuration a part of a command line uses. -/
def key : Tok → Option String
  | .rt k | .rtDir k => some k
  | _ => none

theorem known : ∀ r ∈ table, r.kind ≠ .asm → r.lang ≠ "BASH" → (∃ e ∈ Autoconf.table, e.name = r.lang) ∧
    ∀ e ∈ Autoconf.table, e.name = r.lang → ∀ t ∈ r.exe :: (r.argv ++ r.compile.flatten), ∀ k ∈ key t, (k, .stops) ∈ e.reads e.lower := by
  decide +kernel

theorem render_rt (code : List Char) (c : Ctx) (rt : String → List Char) (t : Tok) (h : ∀ k ∈ key t, rt k = c.rt k) :
    render code { c with rt } t = render code c t := by
  cases t with
  | rt k => exact congrArg (fun x => [x]) (h k rfl)
  | rtDir k => exact congrArg (fun x => [dirname x]) (h k rfl)
  | file pre f => cases f <;> rfl
  | rel pre f => cases f <;> rfl
  | _ => rfl

theorem line_rt (r : Row) (c : Ctx) (rt : String → List Char) (l : List Tok) (h : ∀ t ∈ l, ∀ k ∈ key t, rt k = c.rt k) :
    line r { c with rt } l = line r c l := by
  have hn : codeName r.kind r.ext { c with rt } = codeName r.kind r.ext c := by unfold codeName; split <;> rfl
  unfold line
  rw [hn]
  induction l with
  | nil => rfl
  | cons t l ih =>
    rw [List.flatMap_cons, List.flatMap_cons, render_rt _ c rt t (h t (.head _)), ih fun t ht => h t (.tail _ ht)]

end Cl

/-- C85.  What is run to compile and start a program depends on no other paths of the configuration than those `dmoj-autoconf` needs to find for the
language before it tests it. (Assemblers have their paths from class attributes, and `BASH` cannot be loaded.) -/
theorem C85_configured (r : Row) (hr : r ∈ table) (hk : r.kind ≠ .asm) (hb : r.lang ≠ "BASH") : ∃ e ∈ Autoconf.table, e.name = r.lang ∧
    ∀ (c : Ctx) (rt : String → List Char) (args : List (List Char)), (∀ k, (k, .stops) ∈ e.reads e.lower → rt k = c.rt k) →
      launch r { c with rt } args = launch r c args ∧ ∀ l ∈ r.compile, line r { c with rt } l = line r c l := by
  obtain ⟨⟨e, he, hn⟩, h⟩ := Cl.known r hr hk hb
  refine ⟨e, he, hn, fun c rt args ha => ⟨?_, fun l hl => ?_⟩⟩
  · have h1 : ∀ t ∈ r.argv, ∀ k ∈ Cl.key t, rt k = c.rt k := fun t ht k hk =>
      ha k (h e he hn t (.tail _ (List.mem_append_left _ ht)) k hk)
    have hc : codeName r.kind r.ext { c with rt } = codeName r.kind r.ext c := by unfold codeName; split <;> rfl
    unfold launch
    rw [Cl.line_rt r c rt r.argv h1, hc, Cl.render_rt _ c rt r.exe fun k hk => ha k (h e he hn _ (.head _) k hk)]
  · exact Cl.line_rt r c rt l fun t ht k hk => ha k (h e he hn t (.tail _ (List.mem_append_right _ (List.mem_flatten.2 ⟨l, hl, ht⟩))) k hk)

/-- For programs of C# two paths matter, and the second does. -/
example : ∃ r ∈ table, r.lang = "MONOCS" ∧ r.kind ≠ .asm ∧ (∃ e ∈ Autoconf.table, e.name = "MONOCS" ∧
    e.reads e.lower = [("mono-csc", .stops), ("mono", .stops)]) ∧
    (launch r someCtx []).exe ≠ (launch r { someCtx with rt := fun _ => [] } []).exe := by
  decide +kernel

end Verif.Props
