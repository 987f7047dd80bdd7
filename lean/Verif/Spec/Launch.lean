import Verif.Model.Launch
/-!
Specification of C71: what a submission finds in its environment.
-/

namespace Verif.Launch

/-- The configured variables of an executor, if it looks at any. -/
def configured : Kind → Dict
  | .gcc conf => conf
  | .script conf => conf.getD []
  | .shell conf => conf.getD []
  | _ => []

/-- Names the judge itself gives to every program. -/
def everyone : List String :=
  ["LANG", "LD_LIBRARY_PATH", "LD_PRELOAD", "CPTBOX_STDOUT_BUFFER_SIZE", "CPTBOX_STDERR_BUFFER_SIZE"]

/-- Names the judge gives to programs of an executor only. -/
def special : Kind → List String
  | .shell _ => ["PATH"]
  | .mono => ["MONO_DISABLE_SHARED_AREA", "MONO_CRASH_NOFILE"]
  | _ => []

/-- The value the configuration gives to a name: that of its last entry (there is only one for each name in a
dictionary). -/
def Configures (conf : Dict) (name : String) (v : Val) : Prop :=
  ∃ pre post, conf = pre ++ (name, v) :: post ∧ ∀ q ∈ post, q.1 ≠ name

/-- The configuration has nothing about a name. -/
def Unconfigured (conf : Dict) (name : String) : Prop := ∀ q ∈ conf, q.1 ≠ name

/-- What the judge alone gives a name. -/
inductive Default (c : Cfg) : String → Val → Prop
  | lang : Default c "LANG" (.str c.locale)
  | path s : c.judge "LD_LIBRARY_PATH" = some s → Default c "LD_LIBRARY_PATH" (.str s)
  | nopath : c.judge "LD_LIBRARY_PATH" = none → Default c "LD_LIBRARY_PATH" (.str "")
  | preload : Default c "LD_PRELOAD" (.str c.agent)
  | forced : c.unbuffered = true → Default c "CPTBOX_STDOUT_BUFFER_SIZE" (.int 0)
  | out z : c.unbuffered = false → c.outSize = some z → Default c "CPTBOX_STDOUT_BUFFER_SIZE" (.int z)
  | err z : c.errSize = some z → Default c "CPTBOX_STDERR_BUFFER_SIZE" (.int z)

/-- What a program is to find under a name. -/
inductive Sees (c : Cfg) (k : Kind) (name : String) (v : Val) : Prop
  | special : name ∈ special k → (∃ s, v = .str s ∧ (c.judge name = some s ∧ name = "PATH" ∨ s = "1" ∧ name ≠ "PATH")) →
      Sees c k name v
  | configured : name ∉ special k → Configures (configured k) name v → v ≠ .none → Sees c k name v
  | default : name ∉ special k → Unconfigured (configured k) name → Default c name v → Sees c k name v

/-- The names of a dictionary can be told from their values in `NAME=value`. -/
def Clean (conf : Dict) : Prop := ∀ q ∈ conf, '=' ∉ q.1.toList

/-- The buffering asked for by a size. -/
inductive Asked : Option Int → Buffering → Prop
  | none : Asked none .untouched
  | zero : Asked (some 0) .unbuffered
  | size (n : Nat) : 0 < n → n < 2 ^ 64 → Asked (some n) (.full n)

end Verif.Launch
