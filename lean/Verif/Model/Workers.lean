import Verif.Model.Cache

/-!
# The compiled-binary cache and the worker processes: dmoj/judge.py:298-313, 357-435, dmoj/executors/compiled_executor.py:30-69

The cache is a variable of the process that compiles. Every submission is graded by a process of its own, forked from the judge, which compiles the submission and
the helper programs of the problem and then ends. What it keeps in memory ends with it; what it has on disk stays. Simplified: one worker at a time (C19), and the
judge compiles nothing meanwhile; names of directories are never used twice (`tempfile.mkdtemp`).
-/

namespace Verif.Workers
open Verif.Cache

/-- What a worker does to executors: compiles, hits of the cache, references that go away. (judge.py:357-435) -/
abbrev Worker := List Op

/-- The worker begins with a copy of the memory of the judge. (judge.py:306-311) -/
def work (judge : State) (w : Worker) : State := w.foldl step judge

/-- After the end of the worker: the memory of the judge, the disk of the worker. A process of `multiprocessing` ends by `os._exit`, so nothing is done for
executors it still refers to, such as those in its cache. (judge.py:306-313, 430-435) -/
def rejoin (judge worker : State) : State :=
  { judge with disk := worker.disk, exe := worker.exe, built := worker.built, next := worker.next }

/-- A submission. (judge.py:298-313, 357-435) -/
def submission (judge : State) (w : Worker) : State := rejoin judge (work judge w)

/-- Submissions, one after another. (judge.py:298-313, 357-435) -/
def history (judge : State) (ws : List Worker) : State := ws.foldl submission judge

/-- Each worker compiles the same checker, and lets go of it at the end (judge.py:435). -/
def oneHelper (k : Key) (first count : Nat) : List Worker := (List.range' first count).map fun i => [.call k true .ok, .release i]

end Verif.Workers
