import Verif.Model.Submission
import Verif.Spec.Checkers
import Verif.Spec.Verdict
import Verif.Spec.Worker

/-!
# Specification: what a submission is awarded (C93)
-/

namespace Verif.Spec
open Verif Verif.Worker Verif.Submission

/-- The run is right: the program did nothing wrong and wrote the tokens of the answer file (as the author wrote it), line by
line. -/
def Right (a : Answer) (r : Run) : Prop :=
  Clean r.proc ∧ tokenLines r.stdout = tokenLines (a.file.getD [])

/-- The results sent, with their case numbers, in order. -/
def resultsOf : List Act → List (Nat × Res)
  | [] => []
  | .send (.result _ n r) :: l => (n, r) :: resultsOf l
  | _ :: l => resultsOf l

/-- The sum of the points of the results. -/
def awarded (l : List Act) : Rat := ((resultsOf l).map (fun x => x.2.points)).sum

/-- The sum of the points of a problem. -/
def worth (items : List Item) : Rat := ((caseList 0 items).map Prod.snd).sum

/-- No case of a batch is worth nothing. -/
def NoFreeInBatch (items : List Item) : Prop := ∀ b p, (some b, p) ∈ caseList 0 items → p ≠ 0

end Verif.Spec
