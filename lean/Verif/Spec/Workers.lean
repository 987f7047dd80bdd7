import Verif.Model.Workers

/-! # What surrounds the workers -/

namespace Verif.Workers
open Verif.Cache

/-- The judge between submissions: nothing in the cache, no executor; names that were not used yet are free. -/
structure Idle (s : State) : Prop where
  cache : s.cache = []
  held : s.held = []
  execs : ∀ n, s.execs n = none
  free : ∀ d, s.next ≤ d → s.disk d = false

/-- A compilation of what is not to be cached, or a reference that goes away. -/
def Uncached : Op → Prop
  | .call _ cached _ => cached = false
  | .release _ => True
  | .lose _ => False

/-- The worker refers to no executor any more when it ends; killed workers need not be orderly. -/
def Orderly (s : State) (w : Worker) : Prop := (work s w).held = []

end Verif.Workers
