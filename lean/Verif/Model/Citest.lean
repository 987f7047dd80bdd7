import Verif.Model.Autoconf
import Verif.Model.TestSuite

/-!
# The test of all executors and the regression suite: dmoj/citest.py, .docker.test.py

`ci_test`, on top of finding runtimes (Autoconf.lean) and of the suite (TestSuite.lean). Simplified: importing a module and asking for the
versions of a runtime do not raise; every class of executors has `autoconfig`, as `BaseExecutor` does. What is printed is left out but for
the entries of the configuration and the names of executors that failed.
-/

namespace Verif.Citest
open Verif.Autoconf

/-- What is collected. (citest.py:39-41, 81-83) -/
structure Ci where
  entries : Config := []
  failed : Bool := false
  /-- `failed_executors` -/
  names : List String := []
  /-- `executors`, with the `runtime_dict` of each -/
  executors : List (String × Config) := []
deriving DecidableEq

/-- `autoconfig_run_test` of an executor. (base_executor.py:262-274, gcc_executor.py:105-123) -/
def manual (w : World) (e : Exec) (c : Config) : Report :=
  match e.how with
  | .gcc _ arch _ => (gccTest w true e arch c).1
  | _ => (runTest w true e c).1

/-- How finding or trying an executor ends. (citest.py:57-64) -/
def report (w : World) (overrides : List (String × Config)) (e : Exec) : Report :=
  match overrides.lookup e.name with
  | some c => manual w e c
  | none => (autoconfig w true e).1

/-- The feedback is "Could not find JVM". (citest.py:88, java_executor.py:183-198) -/
def noJvm (overrides : List (String × Config)) (e : Exec) : Bool :=
  match overrides.lookup e.name, e.how with
  | none, .jvm _ _ _ => true
  | _, _ => false

/-- The name is added to those that failed, unless it may fail. (citest.py:72-74, 99-101) -/
def blame (allow : List String) (s : Ci) (name : String) : Ci :=
  if name ∈ allow then s else { s with failed := true, names := s.names ++ [name] }

/-- One turn of the loop over the executors; `none`: the module has no `Executor`. (citest.py:43-101) -/
def turn (w : World) (overrides : List (String × Config)) (allow : List String) (s : Ci) : Option Exec → Ci
  | none => { s with failed := true }
  | some e =>
    if overrides.lookup e.name = some [] then s
    else
      match report w overrides e with
      | .raised => blame allow s e.name
      | .success c => { s with entries := update s.entries c, executors := s.executors ++ [(e.name, c)] }
      | .failed => if noJvm overrides e then s else blame allow s e.name

/-- The loop. (citest.py:43-101) -/
def all (w : World) (overrides : List (String × Config)) (allow : List String) (es : List (Option Exec)) : Ci :=
  es.foldl (turn w overrides allow) {}

/-- Problems with the documents of their test cases. (testsuite.py:130-150) -/
abbrev Suite := List (String × List (List (Option TestSuite.Doc)))

/-- The suite is run with the executors that succeeded, each with the configuration it succeeded with; `grading` is what it is run in
otherwise. (citest.py:81-83, 113-117) -/
def suiteWorld (grading : List (String × Config) → TestSuite.World) (x : List (String × Config)) : TestSuite.World :=
  { grading x with executors := x.map (·.1) }

/-- The exit status of `ci_test`. (citest.py:103-127) -/
def ciTest (w : World) (overrides : List (String × Config)) (allow : List String) (grading : List (String × Config) → TestSuite.World)
    (es : List (Option Exec)) (suite : Suite) : Nat :=
  let s := all w overrides allow es
  (s.failed || decide (TestSuite.testAll (suiteWorld grading s.executors) suite ≠ 0)).toNat

/-- `ALLOW_FAIL` on x86-64, .docker.test.py:10. -/
def dockerAllow : List String := ["GASARM", "JAVA9", "JAVA10", "OBJC", "GROOVY"]

end Verif.Citest
