import Mathlib.Data.List.Forall2
import Mathlib.Data.List.SplitOn
import Verif.Spec.Loader
import Verif.Model.Autoconf

/-! # What an automatic configuration should be -/

namespace Verif.Autoconf.Spec

open Verif.Loader (Test)
open Verif.Loader (Echoes)

/-- A self-test that repeats its input within the limits and says nothing else. -/
def Good (t : Test) : Prop := ∃ ir rte ole out, t = .ran false false ir rte ole out [] false ∧ Echoes out

/-- What an executor looks up: the value of each key, or its default. -/
def Looks (reads : List (String × Missing)) (c : Config) (vs : List Val) : Prop :=
  List.Forall₂ (fun r v => c.lookup r.1 = some v ∨ c.lookup r.1 = none ∧ r.2 = .takes v) reads vs

/-- The executor's self-test is good with this configuration. -/
def Works (w : World) (verbose : Bool) (e : Exec) (c : Config) : Prop :=
  ∃ vs, Looks (e.reads (moduleName verbose e)) c vs ∧ Good (w.test e.name vs)

/-- Where a file of a list is. -/
def At (w : World) (f p : String) : Prop :=
  f.toList.head? = some '/' ∧ w.present f = true ∧ p = f ∨ f.toList.head? ≠ some '/' ∧ w.which f = some p

/-- The first of the files that is there is at `p`. -/
def FirstAt (w : World) (files : List String) (p : String) : Prop :=
  ∃ pre f post, files = pre ++ f :: post ∧ At w f p ∧ ∀ g ∈ pre, ∀ q, ¬ At w g q

/-- Each key with the first of its files. -/
def AllAt (w : World) (m : List (String × List String)) (c : Config) : Prop :=
  List.Forall₂ (fun a b => b.1 = a.1 ∧ ∃ p, b.2 = .path p ∧ FirstAt w a.2 p) m c

/-- A directory with a JVM of the right version, and the mode in which it works first. -/
structure Jvm (w : World) (name : String) (beginnings : List String) (item mode : String) : Prop where
  dir : w.isDir ("/usr/lib/jvm/" ++ item) = true
  link : w.isLink ("/usr/lib/jvm/" ++ item) = false
  version : ∃ b ∈ beginnings, b.toList <+: item.toList
  vm : w.isFile ("/usr/lib/jvm/" ++ item ++ "/bin/java") = true
  compiler : w.isFile ("/usr/lib/jvm/" ++ item ++ "/bin/javac") = true
  mode : ∃ pre post, ["client", "server", "dcevm", "zero"] = pre ++ mode :: post ∧
    Good (w.test name [.path ("/usr/lib/jvm/" ++ item ++ "/bin/java"), .word mode, .path ("/usr/lib/jvm/" ++ item ++ "/bin/javac")]) ∧
    ∀ other ∈ pre, ¬ Good (w.test name [.path ("/usr/lib/jvm/" ++ item ++ "/bin/java"), .word other, .path ("/usr/lib/jvm/" ++ item ++ "/bin/javac")])

/-- The words of a line. -/
def wordsOf (l : List Char) : List String :=
  ((l.splitOnP fun c => c ∈ [' ', '\t', '\n', '\r', Char.ofNat 11, Char.ofNat 12]).filter (fun t => t ≠ [])).map String.ofList

/-- The words of the last line that mentions a class, without the signs `bash -x` puts in front. -/
def Last (cls : String) (lines : List (List Char)) (ws : List String) : Prop :=
  ∃ pre line post signs command, lines = pre ++ line :: post ∧ cls.toList <:+: line ∧ (∀ l ∈ post, ¬ cls.toList <:+: l) ∧
    line = signs ++ command ∧ (∀ c ∈ signs, c = '+' ∨ c = ' ') ∧ (∀ c, command.head? = some c → c ≠ '+' ∧ c ≠ ' ') ∧ ws = wordsOf command

end Verif.Autoconf.Spec
