import Verif.Props.Autoconf
import Verif.Props.TestSuite
import Verif.Spec.Citest

/-!
# The test of all executors and the regression suite
-/

namespace Verif.Citest
open Verif.Autoconf Verif.Autoconf.Spec Verif.Spec.Citest

namespace Ct

theorem report_success (w : World) (ov : List (String × Config)) (e : Exec) (c : Config) (hd : ¬ Dropped ov e) :
    report w ov e = .success c ↔ Passed w ov e c := by
  unfold report Passed
  unfold Dropped at hd
  cases h : ov.lookup e.name with
  | none => simp
  | some o =>
    rw [h] at hd
    constructor
    · intro hm
      exact .inl ⟨o, rfl, fun h => hd (by rw [h]), hm⟩
    · rintro (⟨o', h', _, hm⟩ | ⟨h', _⟩)
      · cases h'; exact hm
      · cases h'

theorem tryJvms_raised (w : World) (v : Bool) (e : Exec) (bs : List String) (vm co : String) (items : List String) :
    (tryJvms w v e bs vm co items).1 ≠ .raised := by
  induction items with
  | nil => simp [tryJvms]
  | cons i is ih =>
    unfold tryJvms
    dsimp only
    split
    · exact ih
    · split
      · split
        · simp
        · exact ih
      · exact ih

theorem noJvm_iff (ov : List (String × Config)) (e : Exec) : noJvm ov e = true ↔ Java ov e := by
  unfold noJvm Java
  cases h : ov.lookup e.name <;> cases h' : e.how <;> simp

end Ct

open Ct

namespace Ct

theorem report_java (w : World) (ov : List (String × Config)) (e : Exec) (h : Java ov e) : report w ov e ≠ .raised := by
  obtain ⟨h1, b, v, c, h2⟩ := h
  unfold report
  rw [h1]
  simp only [autoconfig, h2]
  exact tryJvms_raised _ _ _ _ _ _ _

/-- The turn, by cases. -/
theorem turn_eq (w : World) (ov : List (String × Config)) (allow : List String) (s : Ci) (x : Option Exec) :
    (∃ e c, x = some e ∧ ¬ Dropped ov e ∧ Passed w ov e c ∧
      turn w ov allow s x = { s with entries := update s.entries c, executors := s.executors ++ [(e.name, c)] }) ∨
    ((∀ e c, x = some e → ¬ Dropped ov e → ¬ Passed w ov e c) ∧ ¬ Counts w ov allow x ∧ turn w ov allow s x = s) ∨
    ((∀ e c, x = some e → ¬ Dropped ov e → ¬ Passed w ov e c) ∧ Counts w ov allow x ∧
      turn w ov allow s x = { s with failed := true, names := s.names ++ (x.map (·.name)).toList }) := by
  cases x with
  | none =>
    refine .inr (.inr ⟨by simp, by simp [Counts], ?_⟩)
    simp [turn]
  | some e =>
    by_cases hd : Dropped ov e
    · refine .inr (.inl ⟨fun e' c h h' => ?_, fun h => (h e rfl).2.1 hd, ?_⟩)
      · cases h; exact absurd hd h'
      · unfold turn
        exact if_pos hd
    · have ht : turn w ov allow s (some e) = (match report w ov e with
          | .raised => blame allow s e.name
          | .success c => { s with entries := update s.entries c, executors := s.executors ++ [(e.name, c)] }
          | .failed => if noJvm ov e then s else blame allow s e.name) := by
        rw [turn]
        exact if_neg hd
      rw [ht]
      cases hr : report w ov e with
      | success c => exact .inl ⟨e, c, rfl, hd, (report_success w ov e c hd).1 hr, rfl⟩
      | raised =>
        have hp : ∀ e' c, some e = some e' → ¬ Dropped ov e' → ¬ Passed w ov e' c := by
          rintro _ c ⟨rfl⟩ _ h
          rw [(report_success w ov e c hd).2 h] at hr
          cases hr
        have hj : ¬ Java ov e := fun h => report_java w ov e h hr
        by_cases ha : e.name ∈ allow
        · exact .inr (.inl ⟨hp, fun h => (h e rfl).1 ha, by simp [blame, ha]⟩)
        · refine .inr (.inr ⟨hp, ?_, by simp [blame, ha]⟩)
          rintro _ ⟨rfl⟩
          exact ⟨ha, hd, hj, fun c => hp e c rfl hd⟩
      | failed =>
        have hp : ∀ e' c, some e = some e' → ¬ Dropped ov e' → ¬ Passed w ov e' c := by
          rintro _ c ⟨rfl⟩ _ h
          rw [(report_success w ov e c hd).2 h] at hr
          cases hr
        by_cases hj : Java ov e
        · exact .inr (.inl ⟨hp, fun h => (h e rfl).2.2.1 hj, by simp [(noJvm_iff ov e).2 hj]⟩)
        · have hj' : noJvm ov e = false := by
            rw [← Bool.not_eq_true, noJvm_iff]; exact hj
          by_cases ha : e.name ∈ allow
          · exact .inr (.inl ⟨hp, fun h => (h e rfl).1 ha, by simp [blame, ha]⟩)
          · refine .inr (.inr ⟨hp, ?_, by simp [blame, ha, hj']⟩)
            rintro _ ⟨rfl⟩
            exact ⟨ha, hd, hj, fun c => hp e c rfl hd⟩

theorem all_from (w : World) (ov : List (String × Config)) (allow : List String) (es : List (Option Exec)) (s : Ci) :
    let r := es.foldl (turn w ov allow) s
    (r.failed = true ↔ s.failed = true ∨ ∃ x ∈ es, Counts w ov allow x) ∧
    (∀ n, n ∈ r.names ↔ n ∈ s.names ∨ ∃ e, some e ∈ es ∧ e.name = n ∧ Counts w ov allow (some e)) ∧
    (∀ p, p ∈ r.executors ↔ p ∈ s.executors ∨ ∃ e, some e ∈ es ∧ e.name = p.1 ∧ ¬ Dropped ov e ∧ Passed w ov e p.2) := by
  induction es generalizing s with
  | nil => simp
  | cons x es ih =>
    have := ih (turn w ov allow s x)
    dsimp only [List.foldl_cons] at this ⊢
    refine ⟨?_, ?_, ?_⟩
    · rw [this.1]
      rcases turn_eq w ov allow s x with ⟨e, c, rfl, hd, hp, h⟩ | ⟨hp, hc, h⟩ | ⟨hp, hc, h⟩
      · rw [h]
        have : ¬ Counts w ov allow (some e) := fun h => (h e rfl).2.2.2 c hp
        simp [this]
      · rw [h]; simp [hc]
      · rw [h]; simp [hc]
    · intro n
      rw [this.2.1]
      rcases turn_eq w ov allow s x with ⟨e, c, rfl, hd, hp, h⟩ | ⟨hp, hc, h⟩ | ⟨hp, hc, h⟩
      · rw [h]
        have hc : ¬ Counts w ov allow (some e) := fun h => (h e rfl).2.2.2 c hp
        grind
      · rw [h]; grind
      · rw [h]
        cases x with
        | none => grind
        | some e => grind
    · intro p
      rw [this.2.2]
      rcases turn_eq w ov allow s x with ⟨e, c, rfl, hd, hp, h⟩ | ⟨hp, hc, h⟩ | ⟨hp, hc, h⟩
      · rw [h]
        have huniq : ∀ c', Passed w ov e c' → c' = c := by
          intro c' h'
          have h1 := (report_success w ov e c hd).2 hp
          rw [(report_success w ov e c' hd).2 h'] at h1
          cases h1; rfl
        obtain ⟨pn, pc⟩ := p
        simp only [List.mem_append, List.mem_singleton, Prod.mk.injEq]
        grind
      · rw [h]; grind
      · rw [h]; grind

end Ct

/-- The suite is run with exactly the executors that were found, or given, and passed their test, each with the configuration it passed
with. -/
theorem C108_executors (w : World) (ov : List (String × Config)) (allow : List String) (es : List (Option Exec)) (n : String) (c : Config) :
    (n, c) ∈ (all w ov allow es).executors ↔ ∃ e, some e ∈ es ∧ e.name = n ∧ ¬ Dropped ov e ∧ Passed w ov e c := by
  rw [all, (all_from w ov allow es {}).2.2]
  simp

/-- The languages of the suite are those whose executors passed, and the rest is as it is. -/
theorem C108_languages (w : World) (ov : List (String × Config)) (allow : List String) (grading : List (String × Config) → TestSuite.World)
    (es : List (Option Exec)) (n : String) :
    (n ∈ (suiteWorld grading (all w ov allow es).executors).executors ↔ ∃ e c, some e ∈ es ∧ e.name = n ∧ ¬ Dropped ov e ∧ Passed w ov e c) ∧
    (suiteWorld grading (all w ov allow es).executors).work = (grading (all w ov allow es).executors).work := by
  refine ⟨?_, rfl⟩
  simp only [suiteWorld, List.mem_map, Prod.exists, exists_eq_right]
  constructor
  · rintro ⟨a, c, h, rfl⟩
    obtain ⟨e, h⟩ := (C108_executors w ov allow es a c).1 h
    exact ⟨e, c, h⟩
  · rintro ⟨e, c, h⟩
    exact ⟨n, c, (C108_executors w ov allow es n c).2 ⟨e, h⟩, rfl⟩

namespace Ct

theorem lookup_del (c : Config) (k k' : String) : (del c k).lookup k' = if k' = k then none else c.lookup k' := by
  unfold del
  induction c with
  | nil => simp
  | cons a c ih =>
    obtain ⟨x, y⟩ := a
    by_cases hx : x = k
    · subst hx
      simp only [List.filter_cons, ne_eq, not_true_eq_false, decide_false, Bool.false_eq_true, if_false, ih]
      split
      · rfl
      · rename_i hk; rw [List.lookup_cons, beq_false_of_ne hk]
    · simp only [List.filter_cons, ne_eq, hx, not_false_eq_true, decide_true, if_true, List.lookup_cons, ih]
      cases hk : k' == x
      · rfl
      · have : k' = x := by simpa using hk
        simp [this, hx]

theorem manual_works (w : World) (e : Exec) (he : e ∈ table) (o c : Config) (h : manual w e o = .success c) :
    Works w true e c ∧ ∀ k, (∀ cmd arch files, e.how = .gcc cmd arch files → k ≠ arch) → c.lookup k = o.lookup k := by
  have hf := Props.Ac.fine e he
  unfold Props.Ac.Fine at hf
  unfold manual at h
  cases hm : e.how with
  | gcc cmd arch files =>
    rw [hm] at hf h
    dsimp only at hf h
    unfold gccTest at h
    have h1 := Props.Ac.tryOut_iff w true e (put o arch (.word "native"))
    have h2 := Props.Ac.tryOut_iff w true e (put (put o arch (.word "native")) arch .null)
    have key : ∀ v, ∀ k, (∀ c' a f, How.gcc cmd arch files = How.gcc c' a f → k ≠ a) → (put o arch v).lookup k = o.lookup k := by
      intro v k hk
      rw [Props.Ac.lookup_put, if_neg (hk _ _ _ rfl)]
    dsimp only at h
    generalize tryOut w true e (put o arch (.word "native")) = x at h1 h
    generalize tryOut w true e (put (put o arch (.word "native")) arch .null) = y at h2 h
    obtain ⟨a, u⟩ := x
    obtain ⟨b, u'⟩ := y
    dsimp only at h1 h2 h
    cases a with
    | true =>
      simp only [if_true, Report.success.injEq] at h
      subst h
      obtain ⟨vs, hv, hg⟩ := h1.1 rfl
      refine ⟨⟨vs, ?_, hg⟩, fun k hk => ?_⟩
      · rw [hf.1] at hv ⊢
        unfold Looks at hv ⊢
        cases hv with
        | cons a1 hv =>
        cases hv with
        | cons a2 hv =>
        cases hv
        refine .cons ?_ (.cons ?_ .nil)
        · dsimp only at a1 ⊢
          rw [lookup_del, if_neg (Ne.symm hf.2)]
          exact a1
        · dsimp only at a2 ⊢
          rw [lookup_del, if_pos rfl]
          rw [Props.Ac.lookup_put, if_pos rfl] at a2
          rcases a2 with a2 | ⟨a2, -⟩
          · cases a2; exact .inr ⟨rfl, rfl⟩
          · cases a2
      · rw [lookup_del, if_neg (hk _ _ _ rfl)]
        exact key _ k hk
    | false =>
      simp only [Bool.false_eq_true, if_false] at h
      cases b with
      | false => cases h
      | true =>
        simp only [if_true, Report.success.injEq] at h
        subst h
        refine ⟨h2.1 rfl, fun k hk => ?_⟩
        rw [Props.Ac.lookup_put, if_neg (hk _ _ _ rfl)]
        exact key _ k hk
  | _ =>
    rw [hm] at h
    obtain ⟨rfl, hw⟩ := (Props.Ac.runTest_iff w true e o c).1 h
    exact ⟨hw, fun _ _ => rfl⟩

end Ct

/-- Every executor the suite is run with works, also those given by hand, and these are tried as they are given, but for the architecture. -/
theorem C108_works (w : World) (ov : List (String × Config)) (allow : List String) (es : List (Option Exec)) (hes : ∀ e, some e ∈ es → e ∈ table)
    (n : String) (c : Config) (h : (n, c) ∈ (all w ov allow es).executors) :
    ∃ e, some e ∈ es ∧ e.name = n ∧ Works w true e c ∧ ∀ o, ov.lookup n = some o → ∀ k,
      (∀ cmd arch files, e.how = .gcc cmd arch files → k ≠ arch) → c.lookup k = o.lookup k := by
  obtain ⟨e, h1, h2, h3, h4⟩ := (C108_executors w ov allow es n c).1 h
  refine ⟨e, h1, h2, ?_⟩
  rcases h4 with ⟨o, ho, -, hm⟩ | ⟨ho, ha⟩
  · obtain ⟨hw, hk⟩ := Ct.manual_works w e (hes e h1) o c hm
    refine ⟨hw, fun o' ho' => ?_⟩
    rw [← h2, ho] at ho'
    cases ho'
    exact hk
  · refine ⟨Props.C88_tested w true e (hes e h1) c ha, fun o' ho' => ?_⟩
    rw [← h2, ho] at ho'
    cases ho'

/-- The run is green exactly if no executor counts against it and no case of the suite fails with the executors that passed. -/
theorem C108_green (w : World) (ov : List (String × Config)) (allow : List String) (grading : List (String × Config) → TestSuite.World)
    (es : List (Option Exec)) (suite : Suite) :
    (ciTest w ov allow grading es suite = 0 ↔ (∀ x ∈ es, ¬ Counts w ov allow x) ∧
      TestSuite.exitStatus (suiteWorld grading (all w ov allow es).executors) suite = 0) ∧
    (ciTest w ov allow grading es suite = 0 ∨ ciTest w ov allow grading es suite = 1) := by
  have hf := (all_from w ov allow es {}).1
  have hx : TestSuite.exitStatus (suiteWorld grading (all w ov allow es).executors) suite = 0 ↔
      TestSuite.testAll (suiteWorld grading (all w ov allow es).executors) suite = 0 := by
    unfold TestSuite.exitStatus
    split <;> simp_all
  have hc : (∀ x ∈ es, ¬ Counts w ov allow x) ↔ (all w ov allow es).failed = false := by
    rw [← Bool.not_eq_true, all, hf]
    simp
  rw [hx, hc]
  unfold ciTest
  dsimp only
  cases (all w ov allow es).failed <;>
    by_cases h : TestSuite.testAll (suiteWorld grading (all w ov allow es).executors) suite = 0 <;> simp [h]

/-- The five of the test on x86-64 may fail: whatever becomes of them, the run is as green as without them. -/
theorem C108_excused (w : World) (grading : List (String × Config) → TestSuite.World) (suite : Suite) (es : List (Option Exec)) :
    ciTest w [] dockerAllow grading es suite = 0 ↔
      (∀ x ∈ es, (∃ e, x = some e ∧ e.name ∈ ["GASARM", "JAVA9", "JAVA10", "OBJC", "GROOVY"]) ∨ ¬ Counts w [] dockerAllow x) ∧
        TestSuite.exitStatus (suiteWorld grading (all w [] dockerAllow es).executors) suite = 0 := by
  rw [(C108_green w [] dockerAllow grading es suite).1]
  refine and_congr_left fun _ => forall_congr' fun x => imp_congr_right fun _ => ⟨.inr, ?_⟩
  rintro (⟨e, rfl, he⟩ | h)
  · intro hc
    exact (hc e rfl).1 he
  · exact h

/-- In a green run of the test of all executors on x86-64 every executor but the five that may fail, and those of Java, was found and works
with the configuration it was found with. -/
theorem C108_docker (w : World) (grading : List (String × Config) → TestSuite.World) (suite : Suite)
    (h : ciTest w [] dockerAllow grading (table.map some) suite = 0) (e : Exec) (he : e ∈ table)
    (ha : e.name ∉ ["GASARM", "JAVA9", "JAVA10", "OBJC", "GROOVY"])
    (hj : ∀ b v c, e.how ≠ .jvm b v c) : ∃ c, (autoconfig w true e).1 = .success c ∧ Works w true e c := by
  have h1 := ((C108_green w [] dockerAllow grading (table.map some) suite).1.1 h).1 (some e) (List.mem_map_of_mem he)
  have h2 : ∃ c, Passed w [] e c := by
    refine Classical.byContradiction fun hn => h1 ?_
    rintro _ ⟨rfl⟩
    refine ⟨ha, by simp [Dropped], ?_, fun c hc => hn ⟨c, hc⟩⟩
    rintro ⟨_, b, v, c, hh⟩
    exact hj b v c hh
  obtain ⟨c, hc⟩ := h2
  rcases hc with ⟨o, ho, _⟩ | ⟨_, hc⟩
  · simp at ho
  · exact ⟨c, hc, Props.C88_tested w true e he c hc⟩

/-- The configuration printed is the one `dmoj-autoconf` would make for these executors (C88), unless some are given by hand. -/
theorem C108_entries (w : World) (allow : List String) (es : List Exec) :
    (all w [] allow (es.map some)).entries = (autoconf w true es).1 := by
  have h : ∀ (es : List Exec) (s : Ci), ((es.map some).foldl (turn w [] allow) s).entries = (loop w true es s.entries).1 := by
    intro es
    induction es with
    | nil => intro s; rfl
    | cons e es ih =>
      intro s
      rw [List.map_cons, List.foldl_cons, ih]
      have hb : ∀ (s : Ci) n, (blame allow s n).entries = s.entries := by
        intro s n; unfold blame; split <;> rfl
      have ht : (turn w [] allow s (some e)).entries = (match (autoconfig w true e).1 with
          | .success d => update s.entries d
          | _ => s.entries) := by
        unfold turn report
        simp only [List.lookup_nil, reduceCtorEq, if_false]
        cases (autoconfig w true e).1 with
        | raised => exact hb _ _
        | success c => rfl
        | failed =>
          dsimp only
          split
          · rfl
          · exact hb _ _
      rw [ht]
      conv => rhs; rw [loop.eq_2]
      rcases autoconfig w true e with ⟨r, out⟩
      cases r <;> rfl
  exact h es {}

/-- The names printed are those of the executors that count against the run. -/
theorem C108_named (w : World) (ov : List (String × Config)) (allow : List String) (es : List (Option Exec)) (n : String) :
    n ∈ (all w ov allow es).names ↔ ∃ e, some e ∈ es ∧ e.name = n ∧ Counts w ov allow (some e) := by
  rw [all, (all_from w ov allow es {}).2.1]
  simp

/-- A Java executor that fails its test with every virtual machine installed is no reason for a red run, whatever may fail: it is taken for
one that is not installed. -/
theorem C108_java_fails (w : World) (allow : List String) (grading : List (String × Config) → TestSuite.World) (e : Exec) (he : e ∈ table)
    (b : List String) (v c : String) (hh : e.how = .jvm b v c) (hw : ∀ vs, ¬ Good (w.test e.name vs)) :
    (∀ d, ¬ Passed w [] e d) ∧ ciTest w [] allow grading [some e] [] = 0 := by
  refine ⟨?_, (C108_green w [] allow grading [some e] []).1.2 ⟨?_, rfl⟩⟩
  · rintro d (⟨o, ho, _⟩ | ⟨_, hd⟩)
    · simp at ho
    · obtain ⟨vs, _, hg⟩ := Props.C88_tested w true e he d hd
      exact hw vs hg
  · intro x hx hc
    rw [List.mem_singleton] at hx
    exact (hc e hx).2.2.1 ⟨rfl, b, v, c, hh⟩

/-- A module without an executor makes the run red even if it may fail, and is not named. -/
theorem C108_unnamed_fails (w : World) (ov : List (String × Config)) (allow : List String) (grading : List (String × Config) → TestSuite.World) :
    ciTest w ov allow grading [none] [] = 1 ∧ (all w ov allow [none]).names = [] := by
  constructor <;> rfl

/-- If no executor passes, and all may, the run is green and no source is graded, whatever grading would say. -/
theorem C108_nothing_fails (w : World) (allow : List String) (es : List Exec) (ha : ∀ e ∈ es, e.name ∈ allow) (hn : ∀ e ∈ es, ∀ c, ¬ Passed w [] e c)
    (grading : List (String × Config) → TestSuite.World) (p : String) (d : TestSuite.Doc) (hd : d.language ≠ none) :
    ciTest w [] allow grading (es.map some) [(p, [[some d]])] = 0 := by
  refine (C108_green w [] allow grading (es.map some) _).1.2 ⟨?_, ?_⟩
  · intro x hx hc
    obtain ⟨e, he, rfl⟩ := List.mem_map.1 hx
    exact (hc e rfl).1 (ha e he)
  · have hx : (all w [] allow (es.map some)).executors = [] := by
      rw [List.eq_nil_iff_forall_not_mem]
      rintro ⟨n, c⟩ h
      obtain ⟨e, he, _, _, hp⟩ := (C108_executors w [] allow (es.map some) n c).1 h
      obtain ⟨e', he', h'⟩ := List.mem_map.1 he
      cases h'
      exact hn e he' c hp
    rw [hx]
    obtain ⟨l, hl⟩ := Option.ne_none_iff_exists'.1 hd
    have hu : ([d].foldl TestSuite.Doc.update {}).language = some l := by
      show (d.language <|> none) = some l
      rw [hl]; rfl
    have : TestSuite.runTestCase (suiteWorld grading []) p [some d] = some 0 := by
      unfold TestSuite.runTestCase
      have hm : [some d].mapM id = some [d] := by simp
      rw [hm]
      dsimp only
      split
      · rfl
      · split
        · rfl
        · rw [hu]
          simp [suiteWorld]
    simp [TestSuite.exitStatus, TestSuite.testAll, TestSuite.testProblem, this]

/-! ## Cases -/

/-- A machine on which every command is there and every self-test passes, but for those of Java. -/
def good (java : Bool) : World where
  which f := some ("/usr/bin/" ++ f)
  present _ := true
  isFile _ := true
  isDir _ := true
  isLink _ := false
  jvms := ["java-8-openjdk"]
  traceable _ := true
  trace _ := some ["exec java -cp x scala.tools.nsc.MainGenericRunner -version".toList]
  content _ := some []
  test n _ := if !java && "JAVA".toList.isPrefixOf n.toList then .raised else .ran false false false false false Loader.message [] false

/-- A suite in which everything is refused. -/
def refusing (_ : List (String × Config)) : TestSuite.World :=
  ⟨fun _ => none, fun _ _ => false, "", [], fun _ _ _ _ _ => ([.case 1 "WA" 0 ""], none)⟩

/-- A green run of all executors: hypotheses of `C108_docker`; Java is broken in it. -/
example : ciTest (good false) [] dockerAllow refusing (table.map some) [] = 0 := by decide +kernel

/-- And one in which the five that may fail do. -/
example : ciTest { good true with test := fun n c => if n ∈ ["GASARM", "JAVA9", "JAVA10", "OBJC", "GROOVY"] then .raised else (good true).test n c }
    [] dockerAllow refusing (table.map some) [] = 0 := by decide +kernel

/-- An executor given by hand, hypotheses of `C108_works`. -/
example : ("C", [("gcc", Val.path "/opt/gcc")]) ∈ (all (good true) [("C", [("gcc", .path "/opt/gcc")])] [] [table[3]?]).executors := by decide +kernel

/-- A red run: a case of a language that is offered fails; without the executor it is green (`C108_nothing_fails`). -/
example : ciTest (good true) [] [] refusing [table[3]?]
    [("aplusb", [[some { language := some "C", time := some 1, memory := some 65536, source := some [some ""] }]])] = 1 ∧
    ciTest (good true) [("C", [])] [] refusing [table[3]?]
    [("aplusb", [[some { language := some "C", time := some 1, memory := some 65536, source := some [some ""] }]])] = 0 := by
  decide +kernel

/-- A broken executor of Java, hypotheses of `C108_java_fails`. -/
example : ∃ e ∈ table, ∃ b v c, e.how = .jvm b v c ∧ ∀ vs, ¬ Good ((good false).test e.name vs) := by
  have hm : java "JAVA8" "8" ["java-8-", "jdk-8-", "openjdk8", "oracle-java8"] ∈ table := by
    unfold table
    dsimp only
    simp only [List.mem_cons, true_or, or_true]
  refine ⟨java "JAVA8" "8" ["java-8-", "jdk-8-", "openjdk8", "oracle-java8"], hm, _, _, _, rfl, ?_⟩
  rintro vs ⟨_, _, _, _, h, _⟩
  have hc : (!false && "JAVA".toList.isPrefixOf "JAVA8".toList) = true := by decide +kernel
  change (if (!false && "JAVA".toList.isPrefixOf "JAVA8".toList) = true then Loader.Test.raised
    else .ran false false false false false Loader.message [] false) = _ at h
  rw [if_pos hc] at h
  cases h

end Verif.Citest
