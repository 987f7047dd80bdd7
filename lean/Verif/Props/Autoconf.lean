import Mathlib.Data.List.Pairwise
import Verif.Spec.Autoconf
import Verif.Props.Loader

/-! # C88: the automatic configuration -/

namespace Verif.Props

open Verif.Autoconf Verif.Autoconf.Spec
open Verif.Loader (Test Echoes)

namespace Ac

/-! ## Self-tests -/

theorem quietTest_iff (t : Test) : (quietTest t).1 = true ↔ Good t := by
  unfold Good
  cases t with
  | raised => simp [quietTest]
  | ran tle mle ir rte ole out err fr =>
    unfold quietTest
    have hs := Ld.strip_iff out
    generalize hx : Loader.strip out = x at hs
    cases tle with
    | true => simp
    | false =>
      cases mle with
      | true => simp
      | false =>
        simp only [Bool.false_eq_true, if_false, hx, Bool.and_eq_true, Bool.not_eq_true', beq_iff_eq, hs, List.isEmpty_iff]
        constructor
        · rintro ⟨⟨rfl, h⟩, rfl⟩
          exact ⟨ir, rte, ole, out, rfl, h⟩
        · rintro ⟨_, _, _, _, he, h⟩
          cases he
          exact ⟨⟨rfl, h⟩, rfl⟩

theorem view_iff (reads : List (String × Missing)) (c : Config) (vs : List Val) : view reads c = some vs ↔ Looks reads c vs := by
  unfold Looks
  induction reads generalizing vs with
  | nil => cases vs <;> simp [view]
  | cons r rs ih =>
    obtain ⟨k, m⟩ := r
    rw [List.forall₂_cons_left_iff]
    unfold view Autoconf.get
    constructor
    · intro h
      cases h2 : view rs c with
      | none =>
        rw [h2] at h
        split at h <;> simp_all
      | some vs' =>
        rw [h2] at h
        cases h1 : List.lookup k c with
        | some v =>
          rw [h1] at h
          cases h
          exact ⟨v, vs', .inl rfl, (ih _).1 h2, rfl⟩
        | none =>
          rw [h1] at h
          cases m with
          | stops => cases h
          | takes v =>
            cases h
            exact ⟨v, vs', .inr ⟨rfl, rfl⟩, (ih _).1 h2, rfl⟩
    · rintro ⟨v, vs', h, h2, rfl⟩
      rw [(ih _).2 h2]
      rcases h with h | ⟨h, rfl⟩
      · rw [h]
      · rw [h]

theorem tryOut_iff (w : World) (verbose : Bool) (e : Exec) (c : Config) : (tryOut w verbose e c).1 = true ↔ Works w verbose e c := by
  unfold tryOut Works
  cases h : view (e.reads (moduleName verbose e)) c with
  | none =>
    simp only [Bool.false_eq_true, false_iff]
    rintro ⟨vs, h1, _⟩
    rw [← view_iff, h] at h1
    cases h1
  | some vs =>
    dsimp only
    rw [quietTest_iff]
    constructor
    · intro h1
      exact ⟨vs, (view_iff _ _ _).1 h, h1⟩
    · rintro ⟨vs', h1, h2⟩
      rw [← view_iff, h] at h1
      cases h1
      exact h2

theorem not_tryOut_iff (w : World) (verbose : Bool) (e : Exec) (c : Config) : (tryOut w verbose e c).1 = false ↔ ¬ Works w verbose e c := by
  rw [← tryOut_iff, Bool.not_eq_true]

/-! ## Dictionaries -/

theorem lookup_put (c : Config) (k : String) (v : Val) (k' : String) : (put c k v).lookup k' = if k' = k then some v else c.lookup k' := by
  induction c with
  | nil =>
    by_cases h : k' = k
    · simp [put, h]
    · simp [put, List.lookup, h, beq_false_of_ne h]
  | cons a c ih =>
    obtain ⟨a, b⟩ := a
    rw [put]
    by_cases h : a = k
    · subst h
      rw [if_pos rfl]
      by_cases h' : k' = a
      · simp [h']
      · simp [List.lookup, h', beq_false_of_ne h']
    · rw [if_neg h]
      by_cases h' : k' = a
      · subst h'
        simp [h]
      · simp [List.lookup, beq_false_of_ne h', ih]

theorem put_fresh (c : Config) (k : String) (v : Val) (h : k ∉ c.map (·.1)) : put c k v = c ++ [(k, v)] := by
  induction c with
  | nil => rfl
  | cons a c ih =>
    obtain ⟨a, b⟩ := a
    simp only [List.map_cons, List.mem_cons, not_or] at h
    rw [put, if_neg (fun e => h.1 e.symm), ih h.2]
    rfl

theorem lookup_update (c d : Config) (h : (d.map (·.1)).Nodup) (k : String) : (update c d).lookup k = (d.lookup k).or (c.lookup k) := by
  unfold update
  induction d generalizing c with
  | nil => simp
  | cons a d ih =>
    obtain ⟨a, b⟩ := a
    simp only [List.map_cons, List.nodup_cons] at h
    rw [List.foldl_cons, ih _ h.2, lookup_put]
    by_cases h' : k = a
    · subst h'
      have : d.lookup k = none := by
        rw [List.lookup_eq_none_iff]
        intro p hp
        have : p.1 ≠ k := fun e => h.1 (e ▸ List.mem_map_of_mem hp)
        simpa using fun e => this e.symm
      simp [this]
    · simp [List.lookup, beq_false_of_ne h', h']

/-! ## Finding files -/

theorem at_iff (w : World) (f p : String) :
    (if f.toList.head? = some '/' then (if w.present f then some f else none) else w.which f) = some p ↔ At w f p := by
  unfold At
  by_cases h : f.toList.head? = some '/'
  · rw [if_pos h]
    by_cases hp : w.present f = true
    · rw [if_pos hp]
      simp only [h, hp, ne_eq, not_true_eq_false, false_and, or_false, true_and, Option.some.injEq]
      exact ⟨Eq.symm, Eq.symm⟩
    · rw [if_neg hp]
      simp [h, hp]
  · rw [if_neg h]
    simp [h]

theorem findCommand_iff (w : World) (files : List String) (p : String) : findCommand w files = some p ↔ FirstAt w files p := by
  unfold FirstAt
  induction files with
  | nil => simp [findCommand]
  | cons f fs ih =>
    rw [findCommand]
    have ha := at_iff w f
    generalize (if f.toList.head? = some '/' then (if w.present f then some f else none) else w.which f) = x at ha
    cases x with
    | some q =>
      dsimp only
      have hq := (ha q).1 rfl
      constructor
      · rintro ⟨rfl⟩
        exact ⟨[], f, fs, rfl, hq, by simp⟩
      · rintro ⟨pre, g, post, he, hg, hn⟩
        cases pre with
        | nil =>
          simp only [List.nil_append, List.cons.injEq] at he
          obtain ⟨rfl, rfl⟩ := he
          exact (ha p).2 hg
        | cons a pre =>
          simp only [List.cons_append, List.cons.injEq] at he
          exact absurd (he.1 ▸ hq) (hn a (.head _) q)
    | none =>
      dsimp only
      rw [ih]
      have hf : ∀ q, ¬ At w f q := fun q hq => nomatch (ha q).2 hq
      constructor
      · rintro ⟨pre, g, post, he, hg, hn⟩
        refine ⟨f :: pre, g, post, by rw [he]; rfl, hg, ?_⟩
        intro a ham
        rcases List.mem_cons.1 ham with rfl | ham
        · exact hf
        · exact hn a ham
      · rintro ⟨pre, g, post, he, hg, hn⟩
        cases pre with
        | nil =>
          simp only [List.nil_append, List.cons.injEq] at he
          exact absurd (he.1 ▸ hg) (hf p)
        | cons a pre =>
          simp only [List.cons_append, List.cons.injEq] at he
          exact ⟨pre, g, post, he.2, hg, fun b hb => hn b (.tail _ hb)⟩

theorem collect_iff (w : World) (m : List (String × List String)) (c d : Config) (hm : (m.map (·.1)).Nodup) (hd : ∀ k ∈ m.map (·.1), k ∉ c.map (·.1)) :
    collect w m c = some d ↔ ∃ d', d = c ++ d' ∧ AllAt w m d' := by
  unfold AllAt
  induction m generalizing c with
  | nil =>
    rw [collect]
    simp only [List.forall₂_nil_left_iff]
    constructor
    · rintro ⟨rfl⟩; exact ⟨[], by simp, rfl⟩
    · rintro ⟨d', rfl, rfl⟩; simp
  | cons a m ih =>
    obtain ⟨k, files⟩ := a
    simp only [List.map_cons, List.nodup_cons] at hm
    rw [collect]
    cases hf : findCommand w files with
    | none =>
      simp only [reduceCtorEq, false_iff]
      rintro ⟨d', _, h⟩
      rw [List.forall₂_cons_left_iff] at h
      obtain ⟨b, _, ⟨_, p, _, hp⟩, _⟩ := h
      rw [← findCommand_iff, hf] at hp
      cases hp
    | some p =>
      dsimp only
      rw [put_fresh _ _ _ (hd k (by simp)), ih _ hm.2]
      · constructor
        · rintro ⟨d', rfl, h⟩
          exact ⟨(k, .path p) :: d', by simp, .cons ⟨rfl, p, rfl, (findCommand_iff _ _ _).1 hf⟩ h⟩
        · rintro ⟨d', rfl, h⟩
          rw [List.forall₂_cons_left_iff] at h
          obtain ⟨⟨b1, b2⟩, d'', ⟨h1, q, h2, hq⟩, h3, rfl⟩ := h
          rw [← findCommand_iff, hf] at hq
          cases hq
          dsimp only at h1 h2
          subst h1
          subst h2
          exact ⟨d'', by simp, h3⟩
      · intro x hx hc
        simp only [List.map_append, List.map_cons, List.map_nil, List.mem_append, List.mem_singleton] at hc
        rcases hc with hc | hc
        · exact hd x (by simp [hx]) hc
        · subst hc
          exact hm.1 hx

theorem AllAt.keys {w : World} {m : List (String × List String)} {c : Config} (h : AllAt w m c) : c.map (·.1) = m.map (·.1) := by
  unfold AllAt at h
  induction h with
  | nil => rfl
  | cons h _ ih => rw [List.map_cons, List.map_cons, ih, h.1]

theorem collect_nil (w : World) (m : List (String × List String)) (d : Config) (hm : (m.map (·.1)).Nodup) : collect w m [] = some d ↔ AllAt w m d := by
  rw [collect_iff w m [] d hm (by simp)]
  simp

theorem runTest_iff (w : World) (verbose : Bool) (e : Exec) (c d : Config) : (runTest w verbose e c).1 = .success d ↔ d = c ∧ Works w verbose e c := by
  unfold runTest
  rw [← tryOut_iff]
  cases h : tryOut w verbose e c with
  | mk ok out =>
    dsimp only
    cases ok with
    | true => simp [eq_comm]
    | false => simp

/-! ## The table -/

/-- The shape of the classes. -/
def Fine (e : Exec) : Prop :=
  match e.how with
  | .first m => (m.map (·.1)).Nodup
  | .asm _ m => (m.map (·.1)).Nodup
  | .gcc command arch _ => (∀ x, e.reads x = [(command, .stops), (arch, .takes (.word "native"))]) ∧ arch ≠ command
  | .jvm _ vm compiler => (∀ x, e.reads x = [(vm, .stops), (vm ++ "_mode", .takes (.word "client")), (compiler, .stops)]) ∧ vm ≠ vm ++ "_mode" ∧
      compiler ≠ vm ++ "_mode" ∧ compiler ≠ vm
  | .groovy => ∀ x, e.reads x = [("groovyc", .stops), ("groovy_vm", .stops), ("groovy_vm_mode", .takes (.word "client")), ("groovy_args", .stops)]
  | .scala => ∀ x, e.reads x = [("scalac", .stops), ("scala_vm", .stops), ("scala_vm_mode", .takes (.word "client")), ("scala_args", .stops)]
  | .kotlin => ∀ x, e.reads x = [("kotlinc", .stops), ("kotlin_vm", .stops), ("kotlin_vm_mode", .takes (.word "client"))]

theorem fine (e : Exec) (he : e ∈ table) : Fine e := by
  have key : ∀ e ∈ table, Fine e := by
    unfold table
    dsimp only
    simp only [List.forall_mem_cons]
    and_intros
    all_goals first
      | (intro e he; cases he; done)
      | exact ⟨fun _ => rfl, by decide⟩
      | exact fun _ => rfl
      | decide
      | (change List.Nodup _; decide)
  exact key e he

theorem gccTest_iff (w : World) (verbose : Bool) (e : Exec) (command arch p : String)
    (hr : ∀ x, e.reads x = [(command, .stops), (arch, .takes (.word "native"))]) (ha : arch ≠ command) (c : Config) :
    (gccTest w verbose e arch [(command, .path p)]).1 = .success c ↔
      Good (w.test e.name [.path p, .word "native"]) ∧ c = [(command, .path p)] ∨
      ¬ Good (w.test e.name [.path p, .word "native"]) ∧ Good (w.test e.name [.path p, .null]) ∧ c = [(command, .path p), (arch, .null)] := by
  have e1 : put [(command, .path p)] arch (.word "native") = [(command, .path p), (arch, .word "native")] := put_fresh _ _ _ (by simpa using ha)
  have e2 : put [(command, .path p), (arch, .word "native")] arch .null = [(command, .path p), (arch, .null)] := by
    rw [put, if_neg (Ne.symm ha), put, if_pos rfl]
  have e3 : del [(command, .path p), (arch, .word "native")] arch = [(command, .path p)] := by
    simp [del, Ne.symm ha]
  have hv : ∀ v, Works w verbose e [(command, .path p), (arch, v)] ↔ Good (w.test e.name [.path p, v]) := by
    intro v
    have hview : view (e.reads (moduleName verbose e)) [(command, .path p), (arch, v)] = some [.path p, v] := by
      rw [hr]
      simp [view, Autoconf.get, List.lookup, beq_false_of_ne ha]
    rw [← tryOut_iff, tryOut, hview]
    exact quietTest_iff _
  unfold gccTest
  dsimp only
  rw [e1, e2, e3]
  have h1 := (tryOut_iff w verbose e [(command, .path p), (arch, .word "native")]).trans (hv _)
  have h2 := (tryOut_iff w verbose e [(command, .path p), (arch, .null)]).trans (hv _)
  generalize tryOut w verbose e [(command, .path p), (arch, .word "native")] = x at h1
  generalize tryOut w verbose e [(command, .path p), (arch, .null)] = y at h2
  obtain ⟨a, o⟩ := x
  obtain ⟨b, o'⟩ := y
  dsimp only at h1 h2 ⊢
  rw [← h1, ← h2]
  cases a <;> cases b <;> simp [eq_comm]

theorem tryModes_iff (w : World) (verbose : Bool) (e : Exec) (vm compiler p q : String)
    (hr : ∀ x, e.reads x = [(vm, .stops), (vm ++ "_mode", .takes (.word "client")), (compiler, .stops)]) (h1 : vm ≠ vm ++ "_mode")
    (h2 : compiler ≠ vm ++ "_mode") (h3 : compiler ≠ vm) (modes : List String) (c : Config) :
    (tryModes w verbose e vm p compiler q modes).1 = .success c ↔
      ∃ pre mode post, modes = pre ++ mode :: post ∧ Good (w.test e.name [.path p, .word mode, .path q]) ∧
        (∀ other ∈ pre, ¬ Good (w.test e.name [.path p, .word other, .path q])) ∧
        c = if mode = "client" then [(vm, .path p), (compiler, .path q)] else [(vm, .path p), (vm ++ "_mode", .word mode), (compiler, .path q)] := by
  induction modes with
  | nil => simp [tryModes]
  | cons mode modes ih =>
    rw [tryModes]
    dsimp only
    have hv : (tryOut w verbose e [(vm, .path p), (vm ++ "_mode", .word mode), (compiler, .path q)]).1 = true ↔
        Good (w.test e.name [.path p, .word mode, .path q]) := by
      have hview : view (e.reads (moduleName verbose e)) [(vm, .path p), (vm ++ "_mode", .word mode), (compiler, .path q)] =
          some [.path p, .word mode, .path q] := by
        rw [hr]
        simp [view, Autoconf.get, List.lookup, beq_false_of_ne h1.symm, beq_false_of_ne h2, beq_false_of_ne h3]
      rw [tryOut, hview]
      exact quietTest_iff _
    have hd : del [(vm, .path p), (vm ++ "_mode", .word mode), (compiler, .path q)] (vm ++ "_mode") = [(vm, .path p), (compiler, .path q)] := by
      simp [del, h1, h2]
    rw [hd]
    generalize tryOut w verbose e [(vm, .path p), (vm ++ "_mode", .word mode), (compiler, .path q)] = x at hv
    obtain ⟨a, o⟩ := x
    dsimp only at hv ⊢
    cases a with
    | true =>
      rw [if_pos rfl]
      have hg := hv.1 rfl
      constructor
      · intro h
        cases h
        exact ⟨[], mode, modes, rfl, hg, by simp, rfl⟩
      · rintro ⟨pre, mode', post, he, _, hn, rfl⟩
        cases pre with
        | nil => cases he; rfl
        | cons a pre =>
          rw [List.cons_append, List.cons.injEq] at he
          exact absurd (he.1 ▸ hg) (hn a (.head _))
    | false =>
      rw [if_neg (by simp)]
      have hg : ¬ Good (w.test e.name [.path p, .word mode, .path q]) := fun h => nomatch hv.2 h
      refine Iff.trans ih ?_
      constructor
      · rintro ⟨pre, mode', post, rfl, h1, h2, h3⟩
        refine ⟨mode :: pre, mode', post, rfl, h1, ?_, h3⟩
        intro other ho
        rcases List.mem_cons.1 ho with rfl | ho
        · exact hg
        · exact h2 other ho
      · rintro ⟨pre, mode', post, he, h1, h2, h3⟩
        cases pre with
        | nil =>
          rw [List.nil_append, List.cons.injEq] at he
          exact absurd (he.1 ▸ h1) hg
        | cons a pre =>
          rw [List.cons_append, List.cons.injEq] at he
          exact ⟨pre, mode', post, he.2, h1, fun o ho => h2 o (.tail _ ho), h3⟩

/-- The configuration for a JVM. -/
def jvmConfig (vm compiler item mode : String) : Config :=
  if mode = "client" then [(vm, .path ("/usr/lib/jvm/" ++ item ++ "/bin/java")), (compiler, .path ("/usr/lib/jvm/" ++ item ++ "/bin/javac"))]
  else [(vm, .path ("/usr/lib/jvm/" ++ item ++ "/bin/java")), (vm ++ "_mode", .word mode), (compiler, .path ("/usr/lib/jvm/" ++ item ++ "/bin/javac"))]

theorem tryJvms_iff (w : World) (verbose : Bool) (e : Exec) (bs : List String) (vm compiler : String)
    (hr : ∀ x, e.reads x = [(vm, .stops), (vm ++ "_mode", .takes (.word "client")), (compiler, .stops)]) (h1 : vm ≠ vm ++ "_mode")
    (h2 : compiler ≠ vm ++ "_mode") (h3 : compiler ≠ vm) (items : List String) (c : Config) :
    (tryJvms w verbose e bs vm compiler items).1 = .success c ↔
      ∃ pre item post mode, items = pre ++ item :: post ∧ Jvm w e.name bs item mode ∧ (∀ other ∈ pre, ∀ m, ¬ Jvm w e.name bs other m) ∧
        c = jvmConfig vm compiler item mode := by
  induction items with
  | nil => simp [tryJvms]
  | cons item items ih =>
    have skip : (∀ m, ¬ Jvm w e.name bs item m) → ((tryJvms w verbose e bs vm compiler items).1 = .success c ↔
        ∃ pre it post mode, item :: items = pre ++ it :: post ∧ Jvm w e.name bs it mode ∧ (∀ other ∈ pre, ∀ m, ¬ Jvm w e.name bs other m) ∧
          c = jvmConfig vm compiler it mode) := by
      intro hg
      refine Iff.trans ih ?_
      constructor
      · rintro ⟨pre, it, post, mode, rfl, h1, h2, h3⟩
        refine ⟨item :: pre, it, post, mode, rfl, h1, ?_, h3⟩
        intro other ho
        rcases List.mem_cons.1 ho with rfl | ho
        · exact hg
        · exact h2 other ho
      · rintro ⟨pre, it, post, mode, he, h1, h2, h3⟩
        cases pre with
        | nil =>
          rw [List.nil_append, List.cons.injEq] at he
          exact absurd (he.1 ▸ h1) (hg mode)
        | cons a pre =>
          rw [List.cons_append, List.cons.injEq] at he
          exact ⟨pre, it, post, mode, he.2, h1, fun o ho => h2 o (.tail _ ho), h3⟩
    rw [tryJvms]
    dsimp only
    by_cases hd : (!w.isDir ("/usr/lib/jvm/" ++ item) || w.isLink ("/usr/lib/jvm/" ++ item)) = true
    · rw [if_pos hd]
      apply skip
      intro m hj
      simp [hj.dir, hj.link] at hd
    rw [if_neg hd]
    by_cases hb : (bs.any fun b => b.toList.isPrefixOf item.toList) = true
    · rw [if_pos hb]
      have hm := tryModes_iff w verbose e vm compiler ("/usr/lib/jvm/" ++ item ++ "/bin/java") ("/usr/lib/jvm/" ++ item ++ "/bin/javac") hr h1 h2 h3
        ["client", "server", "dcevm", "zero"]
      have hd' : w.isDir ("/usr/lib/jvm/" ++ item) = true ∧ w.isLink ("/usr/lib/jvm/" ++ item) = false := by simpa using hd
      have hb' : ∃ b ∈ bs, b.toList <+: item.toList := by
        rw [List.any_eq_true] at hb
        obtain ⟨b, hb1, hb2⟩ := hb
        exact ⟨b, hb1, List.isPrefixOf_iff_prefix.1 hb2⟩
      have ht : ∀ d, (testJvm w verbose e vm compiler ("/usr/lib/jvm/" ++ item)).1 = .success d ↔
          ∃ mode, Jvm w e.name bs item mode ∧ d = jvmConfig vm compiler item mode := by
        intro d
        unfold testJvm
        by_cases hf : (w.isFile ("/usr/lib/jvm/" ++ item ++ "/bin/java") && w.isFile ("/usr/lib/jvm/" ++ item ++ "/bin/javac")) = true
        · rw [if_pos hf, hm]
          rw [Bool.and_eq_true] at hf
          constructor
          · rintro ⟨pre, mode, post, h1, h2, h3, h4⟩
            exact ⟨mode, ⟨hd'.1, hd'.2, hb', hf.1, hf.2, pre, post, h1, h2, h3⟩, h4⟩
          · rintro ⟨mode, ⟨_, _, _, _, _, pre, post, h1, h2, h3⟩, h4⟩
            exact ⟨pre, mode, post, h1, h2, h3, h4⟩
        · rw [if_neg hf]
          simp only [reduceCtorEq, false_iff]
          rintro ⟨mode, hj, _⟩
          exact hf (by rw [hj.vm, hj.compiler]; rfl)
      generalize testJvm w verbose e vm compiler ("/usr/lib/jvm/" ++ item) = x at ht
      obtain ⟨r, o⟩ := x
      dsimp only at ht
      cases r with
      | success d =>
        dsimp only
        obtain ⟨mode, hj, hc⟩ := (ht d).1 rfl
        constructor
        · intro h
          cases h
          exact ⟨[], item, items, mode, rfl, hj, by simp, hc⟩
        · rintro ⟨pre, it, post, mode', he, hj', hn, hc'⟩
          cases pre with
          | nil =>
            rw [List.nil_append, List.cons.injEq] at he
            have := (ht c).2 ⟨mode', he.1 ▸ hj', by rw [hc', he.1]⟩
            exact this
          | cons a pre =>
            rw [List.cons_append, List.cons.injEq] at he
            exact absurd (he.1 ▸ hj) (hn a (.head _) mode)
      | raised =>
        dsimp only
        exact skip fun m hj => nomatch (ht _).2 ⟨m, hj, rfl⟩
      | failed =>
        dsimp only
        exact skip fun m hj => nomatch (ht _).2 ⟨m, hj, rfl⟩
    · rw [if_neg hb]
      apply skip
      intro m hj
      obtain ⟨b, hb1, hb2⟩ := hj.version
      exact hb (List.any_eq_true.2 ⟨b, hb1, List.isPrefixOf_iff_prefix.2 hb2⟩)

/-! ## Words -/

theorem space_iff (c : Char) : Loader.space c = decide (c ∈ [' ', '\t', '\n', '\r', Char.ofNat 11, Char.ofNat 12]) := by
  have := Ld.space_iff c
  by_cases h : Loader.space c = true <;> simp_all

theorem words_eq (l cur : List Char) : words cur l = (match l.splitOnP Loader.space with
    | [] => []
    | a :: r => (((cur.reverse ++ a) :: r).filter (fun t => t ≠ [])).map String.ofList) := by
  induction l generalizing cur with
  | nil =>
    rw [words]
    by_cases h : cur = []
    · simp [h, List.splitOnP_nil]
    · simp [h, List.splitOnP_nil]
  | cons c l ih =>
    rw [words, List.splitOnP_cons]
    have hne := List.splitOnP_ne_nil Loader.space l
    by_cases h : Loader.space c = true
    · rw [if_pos h, if_pos h, ih]
      cases hs : l.splitOnP Loader.space with
      | nil => exact absurd hs hne
      | cons a r =>
        by_cases hc : cur = []
        · simp [hc]
        · simp [hc]
    · rw [if_neg h, if_neg h, ih]
      cases hs : l.splitOnP Loader.space with
      | nil => exact absurd hs hne
      | cons a r => simp

theorem words_nil (l : List Char) : words [] l = wordsOf l := by
  rw [words_eq]
  unfold wordsOf
  have : Loader.space = fun c => decide (c ∈ [' ', '\t', '\n', '\r', Char.ofNat 11, Char.ofNat 12]) := funext space_iff
  rw [this]
  have hne := List.splitOnP_ne_nil (fun c => decide (c ∈ [' ', '\t', '\n', '\r', Char.ofNat 11, Char.ofNat 12])) l
  generalize List.splitOnP _ l = x at hne
  cases x with
  | nil => exact absurd rfl hne
  | cons a r => simp

theorem occurs_iff (a l : List Char) : occurs a l = true ↔ a <:+: l := by
  induction l with
  | nil => simp [occurs]
  | cons x r ih => rw [occurs, Bool.or_eq_true, List.isPrefixOf_iff_prefix, ih, List.infix_cons_iff]

theorem dropWhile_unique (p : Char → Bool) (a b : List Char) (ha : ∀ c ∈ a, p c = true) (hb : ∀ c, b.head? = some c → p c = false) :
    (a ++ b).dropWhile p = b := by
  induction a with
  | nil =>
    cases b with
    | nil => rfl
    | cons x b => simp [List.dropWhile_cons, hb x rfl]
  | cons x a ih =>
    rw [List.cons_append, List.dropWhile_cons, if_pos (ha x (.head _)), ih fun c hc => ha c (.tail _ hc)]

theorem starter_iff (cls : String) (lines : List (List Char)) (ws : List String) : starter cls lines = some ws ↔ Last cls lines ws := by
  unfold starter Last
  rw [Option.map_eq_some_iff]
  constructor
  · rintro ⟨line, h, rfl⟩
    rw [List.getLast?_eq_some_iff] at h
    obtain ⟨ys, h⟩ := h
    have h2 : lines.filter (fun l => occurs cls.toList l) = ys ++ line :: [] := h
    rw [List.filter_eq_append_iff] at h2
    obtain ⟨l1, l2, rfl, _, h3⟩ := h2
    rw [List.filter_eq_cons_iff] at h3
    obtain ⟨m1, m2, rfl, h4, h5, h6⟩ := h3
    rw [List.filter_eq_nil_iff] at h6
    refine ⟨l1 ++ m1, line, m2, line.takeWhile (fun c => c = '+' ∨ c = ' '), line.dropWhile (fun c => c = '+' ∨ c = ' '), by simp, (occurs_iff _ _).1 h5, ?_,
      (List.takeWhile_append_dropWhile).symm, ?_, ?_, words_nil _⟩
    · intro l hl hi
      exact h6 l hl ((occurs_iff _ _).2 hi)
    · intro c hc
      simpa using List.all_eq_true.1 List.all_takeWhile c hc
    · intro c hc
      have := List.head?_dropWhile_not (fun c => decide (c = '+' ∨ c = ' ')) line
      rw [hc] at this
      simpa using this
  · rintro ⟨pre, line, post, signs, command, rfl, h1, h2, rfl, h3, h4, rfl⟩
    refine ⟨signs ++ command, ?_, ?_⟩
    · have : post.filter (fun l => occurs cls.toList l) = [] := by
        rw [List.filter_eq_nil_iff]
        intro l hl ho
        exact h2 l hl ((occurs_iff _ _).1 ho)
      rw [List.filter_append, List.filter_cons, if_pos ((occurs_iff _ _).2 h1), this]
      simp
    · rw [dropWhile_unique _ signs command (by simpa using h3) (by simpa using h4), words_nil]

theorem vmOf_iff (w : World) (x : Option String) (p : String) : vmOf w x = some p ↔ ∃ f, x = some f ∧ FirstAt w [f] p ∧ w.content p ≠ none := by
  unfold vmOf unravel bytesEqualText
  cases x with
  | none => simp
  | some f =>
    simp only [Option.bind_some, Option.some.injEq, exists_eq_left']
    have h := findCommand_iff w [f]
    generalize findCommand w [f] = y at h
    simp only [← h]
    cases y with
    | none => simp
    | some y =>
      simp only [Option.bind_some, Bool.not_false, if_true, Option.some.injEq]
      cases hc : w.content y with
      | none =>
        simp only [reduceCtorEq, false_iff]
        rintro ⟨rfl, h'⟩
        exact h' hc
      | some b =>
        dsimp only
        rw [Option.some.injEq]
        constructor
        · rintro rfl; exact ⟨rfl, by simp [hc]⟩
        · rintro ⟨rfl, _⟩; rfl

end Ac

/-! ## One executor -/

/-- C88.  An executor with files to be found is configured, with the first file found for each of its entries, exactly if all are found and its self-test
passes with them. -/
theorem C88_found (w : World) (verbose : Bool) (e : Exec) (he : e ∈ table) (m : List (String × List String)) (hm : e.how = .first m) (c : Config) :
    (autoconfig w verbose e).1 = .success c ↔ AllAt w m c ∧ Works w verbose e c := by
  have hf := Ac.fine e he
  unfold Ac.Fine at hf
  rw [hm] at hf
  unfold autoconfig
  rw [hm]
  dsimp only
  have hc := Ac.collect_nil w m
  cases h : collect w m [] with
  | none =>
    simp only [reduceCtorEq, false_iff]
    rintro ⟨h1, _⟩
    rw [← hc _ hf, h] at h1
    cases h1
  | some d =>
    dsimp only
    rw [Ac.runTest_iff, ← hc _ hf, h, Option.some.injEq]
    constructor
    · rintro ⟨rfl, h⟩; exact ⟨rfl, h⟩
    · rintro ⟨rfl, h⟩; exact ⟨rfl, h⟩

/-- C88.  For assemblers, programs for the machine must be traceable as well. -/
theorem C88_assembler (w : World) (verbose : Bool) (e : Exec) (he : e ∈ table) (abi : String) (m : List (String × List String)) (hm : e.how = .asm abi m)
    (c : Config) : (autoconfig w verbose e).1 = .success c ↔ w.traceable abi = true ∧ AllAt w m c ∧ Works w verbose e c := by
  have hf := Ac.fine e he
  unfold Ac.Fine at hf
  rw [hm] at hf
  unfold autoconfig
  rw [hm]
  dsimp only
  have hc := Ac.collect_nil w m
  cases ht : w.traceable abi with
  | false => simp
  | true =>
    rw [if_neg (by simp)]
    cases h : collect w m [] with
    | none =>
      simp only [reduceCtorEq, false_iff]
      rintro ⟨_, h1, _⟩
      rw [← hc _ hf, h] at h1
      cases h1
    | some d =>
      dsimp only
      rw [Ac.runTest_iff, ← hc _ hf, h, Option.some.injEq]
      constructor
      · rintro ⟨rfl, h⟩; exact ⟨rfl, rfl, h⟩
      · rintro ⟨_, rfl, h⟩; exact ⟨rfl, h⟩

namespace Ac

theorem lookup_nodup : ∀ (c : Config), (c.map (·.1)).Nodup → ∀ b ∈ c, c.lookup b.1 = some b.2
  | [], _, _, hb => by cases hb
  | (k, v) :: c, hn, b, hb => by
    rw [List.map_cons, List.nodup_cons] at hn
    rcases List.mem_cons.mp hb with rfl | hb
    · simp
    · have : b.1 ≠ k := fun e => hn.1 (List.mem_map.mpr ⟨b, hb, e⟩)
      rw [List.lookup_cons, beq_false_of_ne this]
      exact lookup_nodup c hn.2 b hb

theorem looks_iff (c : Config) : ∀ (l : Config) (vs : List Val), (∀ b ∈ l, c.lookup b.1 = some b.2) →
    (Looks (l.map fun b => (b.1, .stops)) c vs ↔ vs = l.map (·.2))
  | [], vs, _ => by simp [Looks]
  | b :: l, vs, h => by
    have hb := h b List.mem_cons_self
    have ih := fun vs => looks_iff c l vs fun x hx => h x (List.mem_cons_of_mem _ hx)
    unfold Looks at ih ⊢
    rw [List.map_cons, List.forall₂_cons_left_iff]
    constructor
    · rintro ⟨v, vs', h1, h2, rfl⟩
      rw [(ih vs').1 h2]
      rcases h1 with h1 | ⟨-, h1⟩
      · rw [hb] at h1; cases h1; rfl
      · cases h1
    · rintro rfl
      exact ⟨_, _, .inl hb, (ih _).2 rfl, rfl⟩

/-- What the executors look up that only have files to be found. -/
def Plain (e : Exec) : Prop :=
  match e.how with
  | .first m => ∀ x, e.reads x = m.map fun a => (a.1, .stops)
  | .asm _ m => ∀ x, e.reads x = m.map fun a => (a.1, .stops)
  | _ => True

theorem plain (e : Exec) (he : e ∈ table) (hn : e.name ≠ "RUBY2") : Plain e := by
  have key : ∀ e ∈ table, e.name ≠ "RUBY2" → Plain e := by
    unfold table
    dsimp only
    simp only [List.forall_mem_cons]
    and_intros
    all_goals first
      | (intro e he; cases he; done)
      | exact fun _ => trivial
      | exact fun _ _ => rfl
      | exact fun h => absurd rfl h
  exact key e he hn

end Ac

/-- C88.  Such an executor, except Ruby, is tested with just the files that were found. -/
theorem C88_used (w : World) (verbose : Bool) (e : Exec) (he : e ∈ table) (hn : e.name ≠ "RUBY2") (m : List (String × List String))
    (hm : e.how = .first m ∨ ∃ abi, e.how = .asm abi m) (c : Config) (hc : AllAt w m c) : Works w verbose e c ↔ Good (w.test e.name (c.map (·.2))) := by
  have hk : m.map (·.1) = c.map (·.1) := by
    unfold AllAt at hc
    clear hm
    induction hc with
    | nil => rfl
    | cons h _ ih => simp [ih, h.1]
  have hf := Ac.fine e he
  have hp := Ac.plain e he hn
  unfold Ac.Fine at hf
  unfold Ac.Plain at hp
  have hr : e.reads (moduleName verbose e) = c.map (fun b => (b.1, .stops)) ∧ (c.map (·.1)).Nodup := by
    have e1 : m.map (fun a => (a.1, Missing.stops)) = c.map (fun b => (b.1, Missing.stops)) := by
      have := congrArg (List.map fun k => (k, Missing.stops)) hk
      simpa [List.map_map, Function.comp_def] using this
    rcases hm with hm | ⟨abi, hm⟩ <;> rw [hm] at hf hp <;> exact ⟨by rw [hp, e1], by rw [← hk]; exact hf⟩
  unfold Works
  rw [hr.1]
  have := fun vs => Ac.looks_iff c c vs (Ac.lookup_nodup c hr.2)
  constructor
  · rintro ⟨vs, h1, h2⟩
    rwa [(this vs).1 h1] at h2
  · intro h
    exact ⟨_, (this _).2 rfl, h⟩

/-- C88.  A C compiler is configured with the first file found; for the machine it runs on if its self-test passes so, otherwise for none in particular if it
passes so. -/
theorem C88_gcc (w : World) (verbose : Bool) (e : Exec) (he : e ∈ table) (command arch : String) (files : List String) (hm : e.how = .gcc command arch files)
    (c : Config) : (autoconfig w verbose e).1 = .success c ↔ ∃ p, FirstAt w files p ∧
      (Good (w.test e.name [.path p, .word "native"]) ∧ c = [(command, .path p)] ∨
      ¬ Good (w.test e.name [.path p, .word "native"]) ∧ Good (w.test e.name [.path p, .null]) ∧ c = [(command, .path p), (arch, .null)]) := by
  have hf := Ac.fine e he
  unfold Ac.Fine at hf
  rw [hm] at hf
  unfold autoconfig
  rw [hm]
  dsimp only
  rw [collect]
  have hp := Ac.findCommand_iff w files
  cases h : findCommand w files with
  | none =>
    simp only [reduceCtorEq, false_iff]
    rintro ⟨p, h1, _⟩
    rw [← hp, h] at h1
    cases h1
  | some p =>
    dsimp only
    rw [collect, put]
    dsimp only
    rw [Ac.gccTest_iff w verbose e command arch p hf.1 hf.2]
    constructor
    · intro h'; exact ⟨p, (hp p).1 h, h'⟩
    · rintro ⟨q, h1, h2⟩
      rw [← hp, h] at h1
      cases h1
      exact h2

/-- C88.  For Java the first directory is taken with a JVM of the right version whose self-test passes in one of the modes, and the first such mode. -/
theorem C88_java (w : World) (verbose : Bool) (e : Exec) (he : e ∈ table) (bs : List String) (vm compiler : String) (hm : e.how = .jvm bs vm compiler)
    (c : Config) : (autoconfig w verbose e).1 = .success c ↔ ∃ pre item post mode, w.jvms = pre ++ item :: post ∧ Jvm w e.name bs item mode ∧
      (∀ other ∈ pre, ∀ m, ¬ Jvm w e.name bs other m) ∧
      c = if mode = "client" then [(vm, .path ("/usr/lib/jvm/" ++ item ++ "/bin/java")), (compiler, .path ("/usr/lib/jvm/" ++ item ++ "/bin/javac"))]
        else [(vm, .path ("/usr/lib/jvm/" ++ item ++ "/bin/java")), (vm ++ "_mode", .word mode),
          (compiler, .path ("/usr/lib/jvm/" ++ item ++ "/bin/javac"))] := by
  have hf := Ac.fine e he
  unfold Ac.Fine at hf
  rw [hm] at hf
  unfold autoconfig
  rw [hm]
  exact Ac.tryJvms_iff w verbose e bs vm compiler hf.1 hf.2.1 hf.2.2.1 hf.2.2.2 w.jvms c

/-- C88.  Kotlin is configured with the first `java`, whatever it is. -/
theorem C88_kotlin (w : World) (verbose : Bool) (e : Exec) (he : e.how = .kotlin) (c : Config) :
    (autoconfig w verbose e).1 = .success c ↔ ∃ kotlinc java, FirstAt w ["kotlinc"] kotlinc ∧ FirstAt w ["java"] java ∧ w.content java ≠ none ∧
      c = [("kotlinc", .path kotlinc), ("kotlin_vm", .path java)] ∧ Works w verbose e c := by
  unfold autoconfig
  rw [he]
  dsimp only
  have h1 := Ac.findCommand_iff w ["kotlinc"]
  have h2 := Ac.findCommand_iff w ["java"]
  generalize findCommand w ["kotlinc"] = a at h1
  generalize findCommand w ["java"] = b at h2
  simp only [← h1, ← h2]
  cases a with
  | none => simp
  | some a =>
    cases b with
    | none => simp
    | some b =>
      dsimp only
      unfold unravel bytesEqualText
      cases h : w.content b with
      | none => simp +contextual [h]
      | some x =>
        simp only [Bool.not_false, if_true]
        rw [Ac.runTest_iff]
        constructor
        · rintro ⟨rfl, hw⟩; exact ⟨a, b, rfl, rfl, by simp [h], rfl, hw⟩
        · rintro ⟨_, _, ⟨⟩, ⟨⟩, _, rfl, hw⟩; exact ⟨rfl, hw⟩

/-- C88.  Groovy is configured with the file the script `groovy` starts and the arguments it gives it, if these can be read off a trace of it. -/
theorem C88_groovy (w : World) (verbose : Bool) (e : Exec) (he : e.how = .groovy) (c : Config) :
    (autoconfig w verbose e).1 = .success c ↔ ∃ groovyc groovy lines env java args last vm, FirstAt w ["groovyc"] groovyc ∧ FirstAt w ["groovy"] groovy ∧
      w.trace groovy = some lines ∧
      (Last "org.codehaus.groovy.tools.GroovyStarter" lines (env :: java :: args ++ [last]) ∨
        last = java ∧ args = [] ∧ Last "org.codehaus.groovy.tools.GroovyStarter" lines [env, java]) ∧
      FirstAt w [java] vm ∧ w.content vm ≠ none ∧ c = [("groovyc", .path groovyc), ("groovy_vm", .path vm), ("groovy_args", .args args)] ∧
      Works w verbose e c := by
  unfold autoconfig
  rw [he]
  dsimp only
  have h1 := Ac.findCommand_iff w ["groovyc"]
  have h2 := Ac.findCommand_iff w ["groovy"]
  generalize findCommand w ["groovyc"] = a at h1
  generalize findCommand w ["groovy"] = b at h2
  simp only [← h1, ← h2]
  cases a with
  | none => simp
  | some a =>
    cases b with
    | none => simp
    | some b =>
      dsimp only
      cases ht : w.trace b with
      | none => simp +contextual [ht]
      | some lines =>
        dsimp only
        have h3 := Ac.starter_iff "org.codehaus.groovy.tools.GroovyStarter" lines
        cases hs : starter "org.codehaus.groovy.tools.GroovyStarter" lines with
        | none =>
          simp only [reduceCtorEq, false_iff]
          rintro ⟨_, _, ls, _, _, _, _, _, ⟨⟩, ⟨⟩, hl, h, _⟩
          rw [ht] at hl
          cases hl
          rcases h with h | ⟨_, _, h⟩ <;> rw [← h3, hs] at h <;> cases h
        | some ws =>
          dsimp only
          have h4 := Ac.vmOf_iff w ws[1]?
          cases hv : vmOf w ws[1]? with
          | none =>
            simp only [reduceCtorEq, false_iff]
            rintro ⟨_, _, ls, env, java, args, last, vm, ⟨⟩, ⟨⟩, hl, h, hj, hc, _⟩
            rw [ht] at hl
            cases hl
            have : vmOf w ws[1]? = some vm := by
              rw [h4]
              rcases h with h | ⟨_, _, h⟩ <;> rw [← h3, hs] at h <;> cases h <;> exact ⟨java, rfl, hj, hc⟩
            rw [hv] at this
            cases this
          | some vm =>
            dsimp only
            rw [Ac.runTest_iff]
            constructor
            · rintro ⟨rfl, hw⟩
              obtain ⟨java, hj, hf, hc⟩ := (h4 vm).1 hv
              match ws, hj, hs, hw with
              | [env, _], rfl, hs, hw => exact ⟨a, b, lines, env, java, [], java, vm, rfl, rfl, ht, .inr ⟨rfl, rfl, (h3 _).1 hs⟩, hf, hc, rfl, hw⟩
              | env :: _ :: x :: r, rfl, hs, hw =>
                refine ⟨a, b, lines, env, java, (x :: r).dropLast, (x :: r).getLast (by simp), vm, rfl, rfl, ht, .inl ?_, hf, hc, rfl, hw⟩
                rw [← h3, hs]
                simp only [List.cons_append, List.dropLast_concat_getLast]
            · rintro ⟨_, _, ls, env, java, args, last, vm', ⟨⟩, ⟨⟩, hl, h, hj, hc, rfl, hw⟩
              rw [ht] at hl
              cases hl
              rcases h with h | ⟨rfl, rfl, h⟩
              · rw [← h3, hs] at h
                cases h
                have : vmOf w (env :: java :: args ++ [last])[1]? = some vm' := (h4 _).2 ⟨java, rfl, hj, hc⟩
                rw [hv] at this
                cases this
                have e1 : ((env :: java :: args ++ [last]).dropLast.drop 2) = args := by
                  rw [List.dropLast_concat]; rfl
                rw [e1]
                exact ⟨rfl, hw⟩
              · rw [← h3, hs] at h
                cases h
                have : vmOf w [env, last][1]? = some vm' := (h4 _).2 ⟨last, rfl, hj, hc⟩
                rw [hv] at this
                cases this
                exact ⟨rfl, hw⟩

/-- C88.  Likewise for Scala, where arguments about the size of the heap are left out. -/
theorem C88_scala (w : World) (verbose : Bool) (e : Exec) (he : e.how = .scala) (c : Config) :
    (autoconfig w verbose e).1 = .success c ↔ ∃ scalac scala lines java args last vm, FirstAt w ["scalac"] scalac ∧ FirstAt w ["scala"] scala ∧
      w.trace scala = some lines ∧
      (Last "scala.tools.nsc.MainGenericRunner" lines (java :: args ++ [last]) ∨
        last = java ∧ args = [] ∧ Last "scala.tools.nsc.MainGenericRunner" lines [java]) ∧
      FirstAt w [java] vm ∧ w.content vm ≠ none ∧
      c = [("scalac", .path scalac), ("scala_vm", .path vm),
        ("scala_args", .args (args.filter fun a => !decide ("-Xmx".toList <+: a.toList ∨ "-Xms".toList <+: a.toList)))] ∧
      Works w verbose e c := by
  have hfil : ∀ l : List String, (l.filter fun a => !("-Xmx".toList.isPrefixOf a.toList || "-Xms".toList.isPrefixOf a.toList)) =
      l.filter fun a => !decide ("-Xmx".toList <+: a.toList ∨ "-Xms".toList <+: a.toList) := by
    intro l
    congr 1
    funext a
    congr 1
    rw [Bool.eq_iff_iff, Bool.or_eq_true, List.isPrefixOf_iff_prefix, List.isPrefixOf_iff_prefix, decide_eq_true_iff]
  unfold autoconfig
  rw [he]
  dsimp only
  have h1 := Ac.findCommand_iff w ["scalac"]
  have h2 := Ac.findCommand_iff w ["scala"]
  generalize findCommand w ["scalac"] = a at h1
  generalize findCommand w ["scala"] = b at h2
  simp only [← h1, ← h2, hfil]
  cases a with
  | none => simp
  | some a =>
    cases b with
    | none => simp
    | some b =>
      dsimp only
      cases ht : w.trace b with
      | none => simp +contextual [ht]
      | some lines =>
        dsimp only
        have h3 := Ac.starter_iff "scala.tools.nsc.MainGenericRunner" lines
        cases hs : starter "scala.tools.nsc.MainGenericRunner" lines with
        | none =>
          simp only [reduceCtorEq, false_iff]
          rintro ⟨_, _, ls, _, _, _, _, ⟨⟩, ⟨⟩, hl, h, _⟩
          rw [ht] at hl
          cases hl
          rcases h with h | ⟨_, _, h⟩ <;> rw [← h3, hs] at h <;> cases h
        | some ws =>
          dsimp only
          have h4 := Ac.vmOf_iff w ws[0]?
          cases hv : vmOf w ws[0]? with
          | none =>
            simp only [reduceCtorEq, false_iff]
            rintro ⟨_, _, ls, java, args, last, vm, ⟨⟩, ⟨⟩, hl, h, hj, hc, _⟩
            rw [ht] at hl
            cases hl
            have : vmOf w ws[0]? = some vm := by
              rw [h4]
              rcases h with h | ⟨_, _, h⟩ <;> rw [← h3, hs] at h <;> cases h <;> exact ⟨java, rfl, hj, hc⟩
            rw [hv] at this
            cases this
          | some vm =>
            dsimp only
            rw [Ac.runTest_iff]
            constructor
            · rintro ⟨rfl, hw⟩
              obtain ⟨java, hj, hf, hc⟩ := (h4 vm).1 hv
              match ws, hj, hs, hw with
              | [_], rfl, hs, hw => exact ⟨a, b, lines, java, [], java, vm, rfl, rfl, ht, .inr ⟨rfl, rfl, (h3 _).1 hs⟩, hf, hc, rfl, hw⟩
              | _ :: x :: r, rfl, hs, hw =>
                refine ⟨a, b, lines, java, (x :: r).dropLast, (x :: r).getLast (by simp), vm, rfl, rfl, ht, .inl ?_, hf, hc, rfl, hw⟩
                rw [← h3, hs]
                simp only [List.cons_append, List.dropLast_concat_getLast]
            · rintro ⟨_, _, ls, java, args, last, vm', ⟨⟩, ⟨⟩, hl, h, hj, hc, rfl, hw⟩
              rw [ht] at hl
              cases hl
              rcases h with h | ⟨rfl, rfl, h⟩
              · rw [← h3, hs] at h
                cases h
                have : vmOf w (java :: args ++ [last])[0]? = some vm' := (h4 _).2 ⟨java, rfl, hj, hc⟩
                rw [hv] at this
                cases this
                have e1 : ((java :: args ++ [last]).dropLast.drop 1) = args := by
                  rw [List.dropLast_concat]; rfl
                rw [e1]
                exact ⟨rfl, hw⟩
              · rw [← h3, hs] at h
                cases h
                have : vmOf w [last][0]? = some vm' := (h4 _).2 ⟨last, rfl, hj, hc⟩
                rw [hv] at this
                cases this
                exact ⟨rfl, hw⟩

/-- C88.  fails for a `java` that is a script to start the real one, which should have been looked for: the script itself is configured. -/
theorem C88_script_fails (w : World) (verbose : Bool) (e : Exec) (he : e.how = .kotlin) (c : Config) (h : (autoconfig w verbose e).1 = .success c)
    (java : String) (rest : Bytes)
    (_hs : w.content java = some (0x23 :: 0x21 :: rest)) (hj : FirstAt w ["java"] java) :
    c.lookup "kotlin_vm" = some (.path java) := by
  obtain ⟨k, j, _, h2, _, rfl, _⟩ := (C88_kotlin w verbose e he c).1 h
  rw [← Ac.findCommand_iff] at h2 hj
  rw [h2] at hj
  cases hj
  rfl

/-- C88.  An executor that is configured passes its self-test with what is configured, though entries equal to a default are left out. -/
theorem C88_tested (w : World) (verbose : Bool) (e : Exec) (he : e ∈ table) (c : Config) (h : (autoconfig w verbose e).1 = .success c) :
    Works w verbose e c := by
  have hf := Ac.fine e he
  unfold Ac.Fine at hf
  cases hm : e.how with
  | first m => exact ((C88_found w verbose e he m hm c).1 h).2
  | asm abi m => exact ((C88_assembler w verbose e he abi m hm c).1 h).2.2
  | gcc command arch files =>
    rw [hm] at hf
    obtain ⟨p, _, h⟩ := (C88_gcc w verbose e he command arch files hm c).1 h
    rcases h with ⟨h1, rfl⟩ | ⟨_, h1, rfl⟩
    · refine ⟨_, ?_, h1⟩
      rw [hf.1]
      exact .cons (.inl (by simp)) (.cons (.inr ⟨by simp [List.lookup, beq_false_of_ne hf.2], rfl⟩) .nil)
    · refine ⟨_, ?_, h1⟩
      rw [hf.1]
      exact .cons (.inl (by simp)) (.cons (.inl (by simp [List.lookup, beq_false_of_ne hf.2])) .nil)
  | jvm bs vm compiler =>
    rw [hm] at hf
    obtain ⟨hr, h1, h2, h3⟩ := hf
    obtain ⟨_, item, _, mode, _, hj, _, rfl⟩ := (C88_java w verbose e he bs vm compiler hm c).1 h
    obtain ⟨_, _, _, hg, _⟩ := hj.mode
    refine ⟨_, ?_, hg⟩
    rw [hr]
    by_cases hc : mode = "client"
    · subst hc
      rw [if_pos rfl]
      exact .cons (.inl (by simp)) (.cons (.inr ⟨by simp [List.lookup, beq_false_of_ne h1.symm, beq_false_of_ne h2.symm], rfl⟩)
        (.cons (.inl (by simp [List.lookup, beq_false_of_ne h3])) .nil))
    · rw [if_neg hc]
      exact .cons (.inl (by simp)) (.cons (.inl (by simp [List.lookup, beq_false_of_ne h1.symm]))
        (.cons (.inl (by simp [List.lookup, beq_false_of_ne h3, beq_false_of_ne h2])) .nil))
  | groovy =>
    obtain ⟨_, _, _, _, _, _, _, _, _, _, _, _, _, _, _, h⟩ := (C88_groovy w verbose e hm c).1 h
    exact h
  | scala =>
    obtain ⟨_, _, _, _, _, _, _, _, _, _, _, _, _, _, h⟩ := (C88_scala w verbose e hm c).1 h
    exact h
  | kotlin =>
    obtain ⟨_, _, _, _, _, _, h⟩ := (C88_kotlin w verbose e hm c).1 h
    exact h

/-! ## All of them -/

namespace Ac

/-- Keys for which a list of files is looked through. -/
def fileKeys (e : Exec) : List (String × List String) :=
  match e.how with
  | .first m => m
  | .asm _ m => m
  | .gcc command _ files => [(command, files)]
  | _ => []

/-- Other keys. -/
def otherKeys (e : Exec) : List String :=
  match e.how with
  | .gcc _ arch _ => [arch]
  | .jvm _ vm compiler => [vm, vm ++ "_mode", compiler]
  | .groovy => ["groovyc", "groovy_vm", "groovy_args"]
  | .scala => ["scalac", "scala_vm", "scala_args"]
  | .kotlin => ["kotlinc", "kotlin_vm"]
  | _ => []

/-- The target of a C compiler. -/
def archKey (e : Exec) : Option String :=
  match e.how with
  | .gcc _ arch _ => some arch
  | _ => none

theorem allAt_lookup {w : World} {m : List (String × List String)} {c : Config} (h : AllAt w m c) (k : String) (v : Val) (hk : c.lookup k = some v) :
    ∃ files p, (k, files) ∈ m ∧ v = .path p ∧ FirstAt w files p := by
  unfold AllAt at h
  induction h with
  | nil => simp at hk
  | @cons a b m c h _ ih =>
    obtain ⟨b1, b2⟩ := b
    obtain ⟨a1, a2⟩ := a
    obtain ⟨h1, p, h2, h3⟩ := h
    dsimp only at h1 h2 h3
    subst h1 h2
    by_cases hx : k = b1
    · subst hx
      simp at hk
      exact ⟨a2, p, .head _, hk.symm, h3⟩
    · rw [List.lookup, beq_false_of_ne hx] at hk
      obtain ⟨f, p, h1, h2, h3⟩ := ih hk
      exact ⟨f, p, .tail _ h1, h2, h3⟩

/-- Where an entry comes from. -/
theorem source (w : World) (verbose : Bool) (e : Exec) (he : e ∈ table) (c : Config) (h : (autoconfig w verbose e).1 = .success c) :
    (c.map (·.1)).Nodup ∧ ∀ k v, c.lookup k = some v → (∃ files p, (k, files) ∈ fileKeys e ∧ v = .path p ∧ FirstAt w files p) ∨ k ∈ otherKeys e := by
  have hf := Ac.fine e he
  unfold Ac.Fine at hf
  unfold fileKeys otherKeys
  have three : ∀ (a b d k : String) (x y z v : Val), List.lookup k [(a, x), (b, y), (d, z)] = some v → k ∈ [a, b, d] := by
    intro a b d k x y z v h
    simp only [List.lookup] at h
    grind
  cases hm : e.how with
  | first m =>
    rw [hm] at hf
    have := (C88_found w verbose e he m hm c).1 h
    exact ⟨(AllAt.keys this.1) ▸ hf, fun k v hk => .inl (allAt_lookup this.1 k v hk)⟩
  | asm abi m =>
    rw [hm] at hf
    have := (C88_assembler w verbose e he abi m hm c).1 h
    exact ⟨(AllAt.keys this.2.1) ▸ hf, fun k v hk => .inl (allAt_lookup this.2.1 k v hk)⟩
  | gcc command arch files =>
    rw [hm] at hf
    obtain ⟨p, hp, h⟩ := (C88_gcc w verbose e he command arch files hm c).1 h
    rcases h with ⟨_, rfl⟩ | ⟨_, _, rfl⟩
    · refine ⟨by simp, fun k v hk => .inl ?_⟩
      by_cases hx : k = command
      · subst hx
        simp at hk
        exact ⟨files, p, .head _, hk.symm, hp⟩
      · simp [List.lookup, beq_false_of_ne hx] at hk
    · refine ⟨by simpa using Ne.symm hf.2, fun k v hk => ?_⟩
      by_cases hx : k = command
      · subst hx
        simp at hk
        exact .inl ⟨files, p, .head _, hk.symm, hp⟩
      · by_cases hy : k = arch
        · exact .inr (by simp [hy])
        · simp [List.lookup, beq_false_of_ne hx, beq_false_of_ne hy] at hk
  | jvm bs vm compiler =>
    rw [hm] at hf
    obtain ⟨hr, h1, h2, h3⟩ := hf
    obtain ⟨_, item, _, mode, _, hj, _, rfl⟩ := (C88_java w verbose e he bs vm compiler hm c).1 h
    by_cases hc : mode = "client"
    · rw [if_pos hc]
      refine ⟨by simpa using h3.symm, fun k v hk => .inr ?_⟩
      simp only [List.lookup] at hk
      grind
    · rw [if_neg hc]
      exact ⟨by simpa using ⟨⟨h1, h3.symm⟩, h2.symm⟩, fun k v hk => .inr (three _ _ _ _ _ _ _ _ hk)⟩
  | groovy =>
    obtain ⟨_, _, _, _, _, _, _, _, _, _, _, _, _, _, rfl, _⟩ := (C88_groovy w verbose e hm c).1 h
    exact ⟨by simp, fun k v hk => .inr (three _ _ _ _ _ _ _ _ hk)⟩
  | scala =>
    obtain ⟨_, _, _, _, _, _, _, _, _, _, _, _, _, rfl, _⟩ := (C88_scala w verbose e hm c).1 h
    exact ⟨by simp, fun k v hk => .inr (three _ _ _ _ _ _ _ _ hk)⟩
  | kotlin =>
    obtain ⟨_, _, _, _, _, rfl, _⟩ := (C88_kotlin w verbose e hm c).1 h
    refine ⟨by simp, fun k v hk => .inr ?_⟩
    simp only [List.lookup] at hk
    grind

/-- Two executors of the table do not get into each other's way, but for the target. -/
def calm (verbose : Bool) (e e' : Exec) : Bool :=
  (otherKeys e').all (fun k => !((e.reads (moduleName verbose e)).map (·.1)).contains k || (archKey e == some k && archKey e' == some k)) &&
  (fileKeys e').all (fun f => !((e.reads (moduleName verbose e)).map (·.1)).contains f.1 || (fileKeys e).contains f)

theorem table_calm : table.Pairwise fun e e' => calm true e e' = true ∧ calm false e e' = true ∧ calm true e' e = true ∧ calm false e' e = true := by
  decide +kernel

theorem calm_of (verbose : Bool) {e e' : Exec} (he : e ∈ table) (he' : e' ∈ table) (hne : e ≠ e') : calm verbose e e' = true := by
  have : Std.Symm fun e e' : Exec => calm true e e' = true ∧ calm false e e' = true ∧ calm true e' e = true ∧ calm false e' e = true :=
    ⟨fun _ _ h => ⟨h.2.2.1, h.2.2.2, h.1, h.2.1⟩⟩
  have := table_calm.forall he he' hne
  cases verbose
  · exact this.2.1
  · exact this.1

theorem loop_iff (w : World) (verbose : Bool) (es : List Exec) (hes : ∀ e ∈ es, e ∈ table) (c : Config) (k : String) (v : Val) :
    (loop w verbose es c).1.lookup k = some v ↔
      (∃ pre e post d, es = pre ++ e :: post ∧ (autoconfig w verbose e).1 = .success d ∧ d.lookup k = some v ∧
        ∀ e' ∈ post, ∀ d', (autoconfig w verbose e').1 = .success d' → d'.lookup k = none) ∨
      c.lookup k = some v ∧ ∀ e ∈ es, ∀ d, (autoconfig w verbose e).1 = .success d → d.lookup k = none := by
  induction es generalizing c with
  | nil => simp [loop]
  | cons e es ih =>
    have step : ∀ c', (loop w verbose (e :: es) c).1 = (loop w verbose es c').1 →
        (c'.lookup k = some v ↔ (∃ d, (autoconfig w verbose e).1 = .success d ∧ d.lookup k = some v) ∨
          c.lookup k = some v ∧ ∀ d, (autoconfig w verbose e).1 = .success d → d.lookup k = none) → 
        ((loop w verbose (e :: es) c).1.lookup k = some v ↔
      (∃ pre e1 post d, e :: es = pre ++ e1 :: post ∧ (autoconfig w verbose e1).1 = .success d ∧ d.lookup k = some v ∧
        ∀ e' ∈ post, ∀ d', (autoconfig w verbose e').1 = .success d' → d'.lookup k = none) ∨
      c.lookup k = some v ∧ ∀ e1 ∈ e :: es, ∀ d, (autoconfig w verbose e1).1 = .success d → d.lookup k = none) := by
      intro c' he hc
      rw [he, ih (fun e h => hes e (.tail _ h)), hc]
      constructor
      · rintro (⟨pre, e1, post, d, rfl, h⟩ | ⟨⟨d, h1, h2⟩ | ⟨h1, h2⟩, h⟩)
        · exact .inl ⟨e :: pre, e1, post, d, rfl, h⟩
        · exact .inl ⟨[], e, es, d, rfl, h1, h2, h⟩
        · refine .inr ⟨h1, ?_⟩
          intro e1 he1
          rcases List.mem_cons.1 he1 with rfl | he1
          · exact h2
          · exact h e1 he1
      · rintro (⟨pre, e1, post, d, h0, h1, h2, h3⟩ | ⟨h1, h⟩)
        · cases pre with
          | nil =>
            rw [List.nil_append, List.cons.injEq] at h0
            obtain ⟨rfl, rfl⟩ := h0
            exact .inr ⟨.inl ⟨d, h1, h2⟩, h3⟩
          | cons a pre =>
            rw [List.cons_append, List.cons.injEq] at h0
            obtain ⟨rfl, rfl⟩ := h0
            exact .inl ⟨pre, e1, post, d, rfl, h1, h2, h3⟩
        · exact .inr ⟨.inr ⟨h1, h e (.head _)⟩, fun e1 he1 => h e1 (.tail _ he1)⟩
    cases hr : autoconfig w verbose e with
    | mk r out =>
      cases r with
      | success d =>
        refine step (update c d) ?_ ?_
        · rw [loop, hr]
        · rw [lookup_update c d (source w verbose e (hes e (.head _)) d (by rw [hr])).1]
          have hd' : ∀ d', (autoconfig w verbose e).1 = .success d' ↔ d = d' := by rw [hr]; simp
          simp only [hd', exists_eq_left', forall_eq']
          cases hd : d.lookup k with
          | none => simp
          | some x => simp
      | failed =>
        refine step c ?_ ?_
        · rw [loop, hr]
        · simp [hr]
      | raised =>
        refine step c ?_ ?_
        · rw [loop, hr]
        · simp [hr]

theorem fileKeys_nodup (e : Exec) (he : e ∈ table) : ((fileKeys e).map (·.1)).Nodup := by
  have hf := fine e he
  unfold Fine at hf
  unfold fileKeys
  cases hm : e.how with
  | first m => rw [hm] at hf; exact hf
  | asm abi m => rw [hm] at hf; exact hf
  | gcc command arch files => simp
  | jvm bs vm compiler => simp
  | groovy => simp
  | scala => simp
  | kotlin => simp

theorem file_read (w : World) (verbose : Bool) (e : Exec) (he : e ∈ table) (c : Config) (h : (autoconfig w verbose e).1 = .success c) (k : String)
    (files : List String) (hk : (k, files) ∈ fileKeys e) : ∃ p, FirstAt w files p ∧ c.lookup k = some (.path p) := by
  have hf := fine e he
  unfold Fine at hf
  have all : ∀ m : List (String × List String), (m.map (·.1)).Nodup → ∀ c, AllAt w m c → (k, files) ∈ m → ∃ p, FirstAt w files p ∧ c.lookup k = some (.path p) := by
    intro m hm c hc hk
    unfold AllAt at hc
    induction hc with
    | nil => cases hk
    | @cons a b m c h _ ih =>
      obtain ⟨b1, b2⟩ := b
      obtain ⟨a1, a2⟩ := a
      obtain ⟨h1, p, h2, h3⟩ := h
      dsimp only at h1 h2 h3
      subst h1 h2
      simp only [List.map_cons, List.nodup_cons] at hm
      rcases List.mem_cons.1 hk with hk | hk
      · cases hk
        exact ⟨p, h3, by simp⟩
      · have : k ≠ b1 := by
          rintro rfl
          exact hm.1 (List.mem_map.2 ⟨(k, files), by assumption, rfl⟩)
        rw [List.lookup, beq_false_of_ne this]
        exact ih hm.2 hk
  unfold fileKeys at hk
  cases hm : e.how with
  | first m =>
    rw [hm] at hf hk
    exact all m hf c ((C88_found w verbose e he m hm c).1 h).1 hk
  | asm abi m =>
    rw [hm] at hf hk
    exact all m hf c ((C88_assembler w verbose e he abi m hm c).1 h).2.1 hk
  | gcc command arch fs =>
    rw [hm] at hf hk
    simp only [List.mem_singleton, Prod.mk.injEq] at hk
    obtain ⟨rfl, rfl⟩ := hk
    obtain ⟨p, hp, h⟩ := (C88_gcc w verbose e he k arch files hm c).1 h
    rcases h with ⟨_, rfl⟩ | ⟨_, _, rfl⟩ <;> exact ⟨p, hp, by simp⟩
  | jvm bs vm compiler => rw [hm] at hk; cases hk
  | groovy => rw [hm] at hk; cases hk
  | scala => rw [hm] at hk; cases hk
  | kotlin => rw [hm] at hk; cases hk

end Ac

/-- C88.  The entries printed are those of the executors configured; where several have the same, the last one's. -/
theorem C88_entries (w : World) (verbose : Bool) (es : List Exec) (hes : ∀ e ∈ es, e ∈ table) (k : String) (v : Val) :
    (autoconf w verbose es).1.lookup k = some v ↔
      ∃ pre e post d, es = pre ++ e :: post ∧ (autoconfig w verbose e).1 = .success d ∧ d.lookup k = some v ∧
        ∀ e' ∈ post, ∀ d', (autoconfig w verbose e').1 = .success d' → d'.lookup k = none := by
  unfold autoconf
  rw [Ac.loop_iff w verbose es hes]
  simp

/-- C88.  Every executor configured passes its self-test with all that is printed, if those that share a target agree on it. -/
theorem C88_whole_partial (w : World) (verbose : Bool) (es : List Exec) (hes : ∀ e ∈ es, e ∈ table) (e : Exec) (he : e ∈ es) (c : Config)
    (h : (autoconfig w verbose e).1 = .success c)
    (hagree : ∀ command arch files, e.how = .gcc command arch files → ∀ e' ∈ es, ∀ command' files', e'.how = .gcc command' arch files' →
      ∀ c', (autoconfig w verbose e').1 = .success c' → c'.lookup arch = c.lookup arch) :
    Works w verbose e (autoconf w verbose es).1 := by
  have same : ∀ r ∈ e.reads (moduleName verbose e), (autoconf w verbose es).1.lookup r.1 = c.lookup r.1 := by
    intro r hr
    have other : ∀ e' ∈ es, ∀ c', (autoconfig w verbose e').1 = .success c' → ∀ v, c'.lookup r.1 = some v → c.lookup r.1 = some v := by
      intro e' he' c' h' v hv
      by_cases hne : e = e'
      · subst hne
        rw [h] at h'
        cases h'
        exact hv
      · have hcalm := Ac.calm_of verbose (hes e he) (hes e' he') hne
        unfold Ac.calm at hcalm
        rw [Bool.and_eq_true, List.all_eq_true, List.all_eq_true] at hcalm
        have hin : ((e.reads (moduleName verbose e)).map (·.1)).contains r.1 = true := by
          rw [List.contains_iff_mem]
          exact List.mem_map_of_mem hr
        rcases (Ac.source w verbose e' (hes e' he') c' h').2 r.1 v hv with ⟨files, p, hf, rfl, hp⟩ | ho
        · have := hcalm.2 _ hf
          rw [hin, Bool.not_true, Bool.false_or, List.contains_iff_mem] at this
          obtain ⟨q, hq, hl⟩ := Ac.file_read w verbose e (hes e he) c h r.1 files this
          rw [← Ac.findCommand_iff] at hp hq
          rw [hp] at hq
          cases hq
          exact hl
        · have := hcalm.1 _ ho
          rw [hin, Bool.not_true, Bool.false_or, Bool.and_eq_true, beq_iff_eq, beq_iff_eq] at this
          obtain ⟨h1, h2⟩ := this
          unfold Ac.archKey at h1 h2
          cases hm : e.how with
          | gcc command arch files =>
            rw [hm] at h1
            cases hm' : e'.how with
            | gcc command' arch' files' =>
              rw [hm'] at h2
              simp only [Option.some.injEq] at h1 h2
              subst h1 h2
              rw [← hagree command _ files hm e' he' command' files' hm' c' h', hv]
            | _ => rw [hm'] at h2; cases h2
          | _ => rw [hm] at h1; cases h1
    cases hc : c.lookup r.1 with
    | none =>
      cases hx : (autoconf w verbose es).1.lookup r.1 with
      | none => rfl
      | some v =>
        obtain ⟨pre, e', post, d, rfl, h1, h2, _⟩ := (C88_entries w verbose es hes r.1 v).1 hx
        have := other e' (by simp) d h1 v h2
        rw [hc] at this
        cases this
    | some v =>
      cases hx : (autoconf w verbose es).1.lookup r.1 with
      | some v' =>
        obtain ⟨pre, e', post, d, rfl, h1, h2, _⟩ := (C88_entries w verbose es hes r.1 v').1 hx
        have := other e' (by simp) d h1 v' h2
        rw [hc] at this
        exact this.symm
      | none =>
        exfalso
        have last : ∀ l : List Exec, (∃ e ∈ l, ∃ d, (autoconfig w verbose e).1 = .success d ∧ d.lookup r.1 ≠ none) →
            ∃ pre e post d, l = pre ++ e :: post ∧ (autoconfig w verbose e).1 = .success d ∧ d.lookup r.1 ≠ none ∧
              ∀ e' ∈ post, ∀ d', (autoconfig w verbose e').1 = .success d' → d'.lookup r.1 = none := by
          intro l
          induction l with
          | nil => rintro ⟨_, h, _⟩; cases h
          | cons a l ih =>
            rintro ⟨x, hx, d, h1, h2⟩
            by_cases hl : ∃ e ∈ l, ∃ d, (autoconfig w verbose e).1 = .success d ∧ d.lookup r.1 ≠ none
            · obtain ⟨pre, e, post, d, rfl, h⟩ := ih hl
              exact ⟨a :: pre, e, post, d, rfl, h⟩
            · rcases List.mem_cons.1 hx with rfl | hx
              · refine ⟨[], x, l, d, rfl, h1, h2, ?_⟩
                intro e' he' d' h'
                by_cases hn : d'.lookup r.1 = none
                · exact hn
                · exact absurd ⟨e', he', d', h', hn⟩ hl
              · exact absurd ⟨x, hx, d, h1, h2⟩ hl
        obtain ⟨pre, e', post, d, h0, h1, h2, h3⟩ := last es ⟨e, he, c, h, by simp [hc]⟩
        cases hd : d.lookup r.1 with
        | none => exact h2 hd
        | some v' =>
          have := (C88_entries w verbose es hes r.1 v').2 ⟨pre, e', post, d, h0, h1, hd, h3⟩
          rw [hx] at this
          cases this
  obtain ⟨vs, h1, h2⟩ := C88_tested w verbose e (hes e he) c h
  refine ⟨vs, ?_, h2⟩
  unfold Looks at h1 ⊢
  generalize e.reads (moduleName verbose e) = rs at same h1
  clear h2
  induction h1 with
  | nil => exact .nil
  | cons a _ ih =>
    refine .cons ?_ (ih fun r hr => same r (.tail _ hr))
    rw [same _ (.head _)]
    exact a

/-- A machine on which only what is given is found. -/
def Ac.only (files : List String) (test : String → List Val → Test) : World where
  which f := if f ∈ files then some ("/usr/bin/" ++ f) else none
  present _ := false
  isFile _ := false
  isDir _ := false
  isLink _ := false
  jvms := []
  traceable _ := false
  trace _ := none
  content _ := none
  test := test

/-- A self-test that passes. -/
def Ac.passes : Test := .ran false false false false false "echo: Hello, World!\n".toList [] false

/-- C88.  fails in general: C is tested for the machine it runs on, and C++ can only be compiled for none in particular, which the configuration then says of
both. -/
theorem C88_whole_fails : ∃ w : World, ∃ e ∈ table, ∃ c, (autoconfig w false e).1 = .success c ∧ ¬ Works w false e (autoconf w false table).1 := by
  refine ⟨Ac.only ["gcc", "g++"] fun name vs => if (name = "C") = (vs.contains (.word "native") = true) then Ac.passes else .raised,
    gnu "C" "gcc" "gcc_target_arch" ["gcc"], .tail _ (.tail _ (.tail _ (.head _))), [("gcc", .path "/usr/bin/gcc")], ?_, ?_⟩
  · decide +kernel
  · rw [← Ac.tryOut_iff, Bool.not_eq_true]
    decide +kernel

/-- C88.  fails for Ruby unless `-V` is given: it is never configured, whatever is installed. -/
theorem C88_ruby_fails (w : World) (e : Exec) (he : e ∈ table) (hn : e.name = "RUBY2") (c : Config) : (autoconfig w false e).1 ≠ .success c := by
  have key : ∀ e ∈ table, e.name = "RUBY2" → (∃ files, e.how = .first [("ruby2", files)]) ∧ e.reads (moduleName false e) = [("abc", .stops)] := by
    unfold table
    dsimp only
    simp only [List.forall_mem_cons]
    and_intros
    all_goals first
      | (intro e he; cases he; done)
      | (intro h; exact absurd h (by decide))
      | exact fun _ => ⟨⟨_, rfl⟩, rfl⟩
  obtain ⟨⟨files, h1⟩, h2⟩ := key e he hn
  intro h
  obtain ⟨h3, vs, h4, _⟩ := (C88_found w false e he _ h1 c).1 h
  have := Ac.AllAt.keys h3
  rw [h2] at h4
  unfold Looks at h4
  rw [List.forall₂_cons_left_iff] at h4
  obtain ⟨v, _, h4 | h4, _⟩ := h4
  · obtain ⟨f, p, h5, _⟩ := Ac.allAt_lookup h3 "abc" v h4
    simp at h5
  · exact absurd h4.2 (by simp)

/-- C88.  With `-V` Ruby is configured, as any other: with the first file found, exactly if its self-test is good with that. -/
theorem C88_ruby_partial (w : World) (e : Exec) (he : e ∈ table) (hn : e.name = "RUBY2") (c : Config) :
    ∃ files, e.how = .first [("ruby2", files)] ∧
      ((autoconfig w true e).1 = .success c ↔ ∃ p, FirstAt w files p ∧ c = [("ruby2", .path p)] ∧ Good (w.test "RUBY2" [.path p])) := by
  have key : ∀ e ∈ table, e.name = "RUBY2" → (∃ files, e.how = .first [("ruby2", files)]) ∧ e.reads (moduleName true e) = [("ruby2", .stops)] := by
    unfold table
    dsimp only
    simp only [List.forall_mem_cons]
    and_intros
    all_goals first
      | (intro e he; cases he; done)
      | (intro h; exact absurd h (by decide))
      | exact fun _ => ⟨⟨_, rfl⟩, rfl⟩
  obtain ⟨⟨files, h1⟩, h2⟩ := key e he hn
  refine ⟨files, h1, ?_⟩
  rw [C88_found w true e he _ h1 c]
  unfold AllAt Works Looks
  rw [h2, hn]
  simp only [List.forall₂_cons_left_iff, List.forall₂_nil_left_iff]
  constructor
  · rintro ⟨⟨b, _, ⟨hb, p, hp, hf⟩, rfl, rfl⟩, vs, ⟨v, _, hv, rfl, rfl⟩, hg⟩
    obtain ⟨b1, b2⟩ := b
    dsimp only at hb hp
    subst hb hp
    rcases hv with hv | hv
    · simp at hv
      subst hv
      exact ⟨p, hf, rfl, hg⟩
    · simp at hv
  · rintro ⟨p, hf, rfl, hg⟩
    exact ⟨⟨_, [], ⟨rfl, p, rfl, hf⟩, rfl, rfl⟩, [.path p], ⟨_, [], .inl (by simp), rfl, rfl⟩, hg⟩

/-- C88.  fails for Objective-C: an entry without which it is not offered is never printed. -/
theorem C88_objc_fails (w : World) (verbose : Bool) (es : List Exec) (hes : ∀ e ∈ es, e ∈ table) :
    (autoconf w verbose es).1.lookup "gnustep-config" = none := by
  cases hx : (autoconf w verbose es).1.lookup "gnustep-config" with
  | none => rfl
  | some v =>
    obtain ⟨pre, e, post, d, rfl, h1, h2, _⟩ := (C88_entries w verbose es hes _ v).1 hx
    have he := hes e (by simp)
    have key : ∀ e ∈ table, "gnustep-config" ∉ (Ac.fileKeys e).map (·.1) ∧ "gnustep-config" ∉ Ac.otherKeys e := by decide +kernel
    rcases (Ac.source w verbose e he d h1).2 _ v h2 with ⟨f, p, h3, _⟩ | h3
    · exact absurd (List.mem_map_of_mem (f := (·.1)) h3) (key e he).1
    · exact absurd h3 (key e he).2

/-! ## Standard output -/

namespace Ac

theorem tryOut_quiet (w : World) (verbose : Bool) (e : Exec) (c : Config)
    (h : ∀ name vs tle mle ir rte ole out err fr, w.test name vs = .ran tle mle ir rte ole out err fr → tle = false ∧ mle = false) :
    (tryOut w verbose e c).2 = [] := by
  unfold tryOut
  cases view (e.reads (moduleName verbose e)) c with
  | none => rfl
  | some vs =>
    dsimp only
    cases ht : w.test e.name vs with
    | raised => rfl
    | ran tle mle ir rte ole out err fr =>
      obtain ⟨rfl, rfl⟩ := h _ _ _ _ _ _ _ _ _ _ ht
      simp [quietTest]

theorem runTest_quiet (w : World) (verbose : Bool) (e : Exec) (h : ∀ c, (tryOut w verbose e c).2 = []) (c : Config) : (runTest w verbose e c).2 = [] := by
  unfold runTest
  have := h c
  generalize tryOut w verbose e c = x at this
  obtain ⟨a, b⟩ := x
  exact this

theorem gccTest_quiet (w : World) (verbose : Bool) (e : Exec) (h : ∀ c, (tryOut w verbose e c).2 = []) (arch : String) (c : Config) :
    (gccTest w verbose e arch c).2 = [] := by
  unfold gccTest
  dsimp only
  have h1 := h (put c arch (.word "native"))
  have h2 := h (put (put c arch (.word "native")) arch .null)
  generalize tryOut w verbose e (put c arch (.word "native")) = x at h1
  generalize tryOut w verbose e (put (put c arch (.word "native")) arch .null) = y at h2
  obtain ⟨a, b⟩ := x
  obtain ⟨a', b'⟩ := y
  dsimp only at h1 h2 ⊢
  subst h1 h2
  split <;> rfl

theorem tryModes_quiet (w : World) (verbose : Bool) (e : Exec) (h : ∀ c, (tryOut w verbose e c).2 = []) (vm p compiler q : String) (modes : List String) :
    (tryModes w verbose e vm p compiler q modes).2 = [] := by
  induction modes with
  | nil => rfl
  | cons mode modes ih =>
    rw [tryModes]
    dsimp only
    have h1 := h [(vm, .path p), (vm ++ "_mode", .word mode), (compiler, .path q)]
    generalize tryOut w verbose e [(vm, .path p), (vm ++ "_mode", .word mode), (compiler, .path q)] = x at h1
    obtain ⟨a, b⟩ := x
    dsimp only at h1 ⊢
    subst h1
    split
    · rfl
    · simp [ih]

theorem tryJvms_quiet (w : World) (verbose : Bool) (e : Exec) (h : ∀ c, (tryOut w verbose e c).2 = []) (bs : List String) (vm compiler : String)
    (items : List String) : (tryJvms w verbose e bs vm compiler items).2 = [] := by
  have hj : ∀ path, (testJvm w verbose e vm compiler path).2 = [] := by
    intro path
    unfold testJvm
    split
    · exact tryModes_quiet w verbose e h _ _ _ _ _
    · rfl
  induction items with
  | nil => rfl
  | cons item items ih =>
    rw [tryJvms]
    dsimp only
    have h1 := hj ("/usr/lib/jvm/" ++ item)
    generalize testJvm w verbose e vm compiler ("/usr/lib/jvm/" ++ item) = x at h1
    obtain ⟨a, b⟩ := x
    dsimp only at h1
    subst h1
    split
    · exact ih
    · split
      · cases a <;> simp [ih]
      · exact ih

theorem autoconfig_quiet (w : World) (verbose : Bool) (e : Exec) (h : ∀ c, (tryOut w verbose e c).2 = []) : (autoconfig w verbose e).2 = [] := by
  have hr := runTest_quiet w verbose e h
  have hg := gccTest_quiet w verbose e h
  have hj := tryJvms_quiet w verbose e h
  unfold autoconfig
  cases e.how with
  | first m => dsimp only; cases collect w m [] <;> simp [hr]
  | asm abi m => dsimp only; split; · rfl
                 · cases collect w m [] <;> simp [hr]
  | gcc command arch files => dsimp only; cases collect w [(command, files)] [] <;> simp [hg]
  | jvm bs vm compiler => exact hj _ _ _ _
  | groovy => dsimp only; repeat' split
              all_goals first | rfl | exact hr _
  | scala => dsimp only; repeat' split
             all_goals first | rfl | exact hr _
  | kotlin => dsimp only; repeat' split
              all_goals first | rfl | exact hr _

end Ac

/-- C88.  Nothing but the configuration is written to standard output, if no self-test exceeds a limit. -/
theorem C88_output_partial (w : World) (verbose : Bool) (es : List Exec)
    (h : ∀ name vs tle mle ir rte ole out err fr, w.test name vs = .ran tle mle ir rte ole out err fr → tle = false ∧ mle = false) :
    (autoconf w verbose es).2 = [] := by
  unfold autoconf
  generalize ([] : Config) = c
  induction es generalizing c with
  | nil => rfl
  | cons e es ih =>
    have hq := Ac.autoconfig_quiet w verbose e (fun c => Ac.tryOut_quiet w verbose e c h)
    rw [loop]
    generalize autoconfig w verbose e = x at hq
    obtain ⟨r, out⟩ := x
    dsimp only at hq
    subst hq
    cases r <;> simp [ih]

/-- C88.  fails otherwise: the line is before the configuration, in what is kept as a file to be read. -/
theorem C88_output_fails : ∃ w : World, autoconf w false table = ([("cat", .path "/usr/bin/cat")], ["Time Limit Exceeded"]) := by
  refine ⟨Ac.only ["sed", "cat"] fun name _ => if name = "SED" then .ran true false false false false [] [] false else Ac.passes, ?_⟩
  decide +kernel

/-! ## Examples -/

/-- A machine with many things. -/
def Ac.machine : World where
  which f := if f ∈ ["gawk", "awk", "gcc", "g++", "nasm", "ld", "ruby2.5", "groovyc", "groovy", "scalac", "scala", "kotlinc", "java"] then
    some ("/usr/bin/" ++ f) else none
  present f := f = "/opt/jre/bin/java"
  isFile f := f ∈ ["/usr/lib/jvm/java-8-openjdk/bin/java", "/usr/lib/jvm/java-8-openjdk/bin/javac", "/usr/lib/jvm/java-8-broken/bin/java"]
  isDir f := f ∈ ["/usr/lib/jvm/java-8-openjdk", "/usr/lib/jvm/java-8-broken"]
  isLink _ := false
  jvms := ["default", "java-8-broken", "java-8-openjdk"]
  traceable abi := abi = "x64"
  trace f := if f = "/usr/bin/groovy" then some ["+ exec".toList, "+ exec /opt/jre/bin/java -cp x org.codehaus.groovy.tools.GroovyStarter -version".toList]
    else some ["++ /opt/jre/bin/java -Xmx256M -cp y scala.tools.nsc.MainGenericRunner -version".toList, "+ exit".toList]
  content f := if f = "/usr/bin/java" then some [0x23, 0x21, 0x2f] else if f = "/opt/jre/bin/java" then some [0x7f, 0x45] else none
  test name vs := if name = "JAVA8" ∧ vs.contains (.word "client") then .raised else if name = "BF" ∧ vs.contains (.word "native") then .raised else Ac.passes

-- C88_found and C88_tested: the first of the three names of an interpreter of awk that is there.
example : ∃ e ∈ table, e.name = "AWK" ∧ (autoconfig Ac.machine false e).1 = .success [("awk", .path "/usr/bin/gawk")] := by decide +kernel

-- C88_assembler: for one machine, not for the other.
example : (∃ e ∈ table, e.name = "NASM64" ∧ (autoconfig Ac.machine false e).1 = .success [("ld_x64", .path "/usr/bin/ld"), ("nasm", .path "/usr/bin/nasm")]) ∧
    ∃ e ∈ table, e.name = "NASM" ∧ (autoconfig Ac.machine false e).1 = .failed := by decide +kernel

-- C88_gcc: for the machine, and for none in particular.
example : (∃ e ∈ table, e.name = "C" ∧ (autoconfig Ac.machine false e).1 = .success [("gcc", .path "/usr/bin/gcc")]) ∧
    ∃ e ∈ table, e.name = "BF" ∧ (autoconfig Ac.machine false e).1 = .success [("gcc", .path "/usr/bin/gcc"), ("gcc_target_arch", .null)] := by decide +kernel

-- C88_java: the first directory has no compiler, and the second JVM no mode `client`.
example : ∃ e ∈ table, e.name = "JAVA8" ∧ (autoconfig Ac.machine false e).1 = .success [("java8", .path "/usr/lib/jvm/java-8-openjdk/bin/java"),
    ("java8_mode", .word "server"), ("javac8", .path "/usr/lib/jvm/java-8-openjdk/bin/javac")] := by decide +kernel

-- C88_groovy and C88_scala.
example : (∃ e ∈ table, e.how = .groovy ∧ (autoconfig Ac.machine false e).1 = .success [("groovyc", .path "/usr/bin/groovyc"),
    ("groovy_vm", .path "/opt/jre/bin/java"), ("groovy_args", .args ["-cp", "x", "org.codehaus.groovy.tools.GroovyStarter"])]) ∧
    ∃ e ∈ table, e.how = .scala ∧ (autoconfig Ac.machine false e).1 = .success [("scalac", .path "/usr/bin/scalac"),
    ("scala_vm", .path "/opt/jre/bin/java"), ("scala_args", .args ["-cp", "y", "scala.tools.nsc.MainGenericRunner"])] := by decide +kernel

-- C88_kotlin and C88_script_fails: `java` is a script.
example : (∃ e ∈ table, e.how = .kotlin ∧ (autoconfig Ac.machine false e).1 = .success [("kotlinc", .path "/usr/bin/kotlinc"),
    ("kotlin_vm", .path "/usr/bin/java")]) ∧ Ac.machine.content "/usr/bin/java" = some [0x23, 0x21, 0x2f] ∧
    findCommand Ac.machine ["java"] = some "/usr/bin/java" := by decide +kernel

-- C88_ruby_fails: with `-V` it is configured.
example : ∃ e ∈ table, e.name = "RUBY2" ∧ (autoconfig Ac.machine true e).1 = .success [("ruby2", .path "/usr/bin/ruby2.5")] ∧
    (autoconfig Ac.machine false e).1 = .failed := by decide +kernel

-- C88_entries, C88_whole_partial: two compilers agree on the target.
example : (autoconf (Ac.only ["gcc", "g++"] fun _ vs => if vs.contains .null then Ac.passes else .raised) false table).1 =
    [("gcc", .path "/usr/bin/gcc"), ("gcc_target_arch", .null), ("gcc11", .path "/usr/bin/gcc"), ("g++", .path "/usr/bin/g++"),
      ("g++11", .path "/usr/bin/g++"), ("g++14", .path "/usr/bin/g++"), ("g++17", .path "/usr/bin/g++"), ("g++20", .path "/usr/bin/g++")] := by decide +kernel

example (e : Exec) (he : e ∈ table) (c : Config) (h : (autoconfig (Ac.only ["awk", "cat"] fun _ _ => Ac.passes) false e).1 = .success c) :
    Works (Ac.only ["awk", "cat"] fun _ _ => Ac.passes) false e (autoconf (Ac.only ["awk", "cat"] fun _ _ => Ac.passes) false table).1 := by
  refine C88_whole_partial _ _ table (fun _ h => h) e he c h ?_
  intro command arch files hm
  exfalso
  obtain ⟨p, ⟨pre, f, post, h1, h2, _⟩, _⟩ := (C88_gcc _ _ e he command arch files hm c).1 h
  have key : ∀ e ∈ table, ∀ f ∈ (match e.how with | .gcc _ _ files => files | _ => []), f ∉ ["awk", "cat"] ∧ f.toList.head? ≠ some '/' := by decide +kernel
  have hk := key e he f (by rw [hm]; dsimp only; rw [h1]; simp)
  rcases h2 with h2 | h2
  · exact hk.2 h2.1
  · have := h2.2
    unfold Ac.only at this
    dsimp only at this
    rw [if_neg hk.1] at this
    cases this

-- C88_output_partial: the condition.
example : (autoconf (Ac.only ["awk", "cat"] fun _ _ => Ac.passes) false table).2 = [] := by
  apply C88_output_partial
  intro _ _ tle mle ir rte ole out err fr h
  unfold Ac.only Ac.passes at h
  cases h
  exact ⟨rfl, rfl⟩

end Verif.Props
