import Verif.Basic

/-!
# The commands of the local judge (dmoj/commands/, dmoj/cli.py:63-67)

Names, ids and sources are strings of characters. What the commands print in colour, the regular expression of
`problems` and the editor are not modelled; reading a file and typing in a source are parameters. `argparse` is not
modelled: the arguments are given as parsed. Time limits are rational (NaN and infinities are left out).
-/

namespace Verif.Commands

/-- commands/submit.py:42-46. -/
abbrev Name := List Char

/-- What is kept of a submission: dmoj/commands/submit.py:75. -/
structure Sub where
  problem : Name
  language : Name
  source : Name
  time : Rat
  memory : Int
deriving DecidableEq

/-- `LocalJudge`, dmoj/cli.py:63-67. -/
structure Judge where
  counter : Nat
  graded : List Sub
deriving DecidableEq

/-- A started judge. (cli.py:63-67) -/
def Judge.start : Judge := ⟨0, []⟩

/-- `InvalidCommandException` by cause. (commands/base_command.py:34-49) -/
inductive Err where
  | invalidSubmission
  | unknownProblem
  | invalidFileName
  | noLanguage
  | unknownLanguage
  | badTime
  | badMemory
  | badLimit
  | source
deriving DecidableEq

/-- What the commands get from outside. (commands/base_command.py:34-49) -/
structure World where
  /-- names of `judgeenv.get_supported_problems()` -/
  problems : List Name
  /-- keys of `executors` -/
  executors : List Name
  /-- `get_source`; `none` if the file cannot be read -/
  file : Name → Option Name
  /-- `open_editor`: language, source to begin with; `none` if it fails -/
  editor : Name → Name → Option Name
  /-- `str.upper` -/
  upper : Name → Name
  /-- `int(text)`; `none` is `ValueError` -/
  int : Name → Option Int

/-- `get_submission_data`, dmoj/commands/base_command.py:41-49. A list index is never negative here. -/
def getSubmission (j : Judge) (id : Int) : Except Err Sub :=
  if id > 0 then
    match j.graded[(id - 1).toNat]? with
    | some s => .ok s
    | none => .error .invalidSubmission
  else .error .invalidSubmission

/-- `source_file.partition('.')[2]`: what follows the first dot. (commands/submit.py:56) -/
def extension (f : Name) : Name := (f.dropWhile (· ≠ '.')).drop 1

/-- The lookup of submit.py:62. -/
def guess (ext : Name) : Name :=
  if ext = "PY".toList then "PY2".toList
  else if ext = "CPP".toList then "CPP11".toList
  else if ext = "JAVA".toList then "JAVA8".toList
  else ext

/-- A command that grades begins grading under an id. (commands/submit.py:77-83) -/
structure Begun where
  id : Nat
  sub : Sub
deriving DecidableEq

/-- Record a submission and begin grading it: submit.py:74-85, resubmit.py:48-57. -/
def record (j : Judge) (s : Sub) : Judge × Except Err Begun :=
  (⟨j.counter + 1, j.graded ++ [s]⟩, .ok ⟨j.counter + 1, s⟩)

/-- A missing or empty string. (commands/submit.py:42-46) -/
def falsy (o : Option Name) : Bool := match o with | none => true | some n => n.isEmpty

/-- The checks of submit.py:48-70, giving language and file. -/
def submitChecks (w : World) (problem : Name) (language file : Option Name) (time : Rat) (memory : Int) :
    Except Err (Name × Option Name) :=
  let (language, file) : Option Name × Option Name :=
    match language with
    | some l => if l ∈ w.executors then (some l, file) else (none, some l)
    | none => (none, none)
  if problem ∉ w.problems then .error .unknownProblem
  else
    match (if falsy language then none else language) with
    | none =>
      match file with
      | none => .error .noLanguage
      | some f =>
        if f.isEmpty then .error .noLanguage
        else if (extension f).isEmpty then .error .invalidFileName
        else .ok (guess (w.upper (extension f)), some f)
    | some l =>
      if l ∉ w.executors then .error .unknownLanguage
      else if time ≤ 0 then .error .badTime
      else if memory ≤ 0 then .error .badMemory
      else .ok (l, file)

/-- `submit`, dmoj/commands/submit.py:39-85. -/
def submit (w : World) (j : Judge) (problem : Name) (language file : Option Name) (time : Rat) (memory : Int) :
    Judge × Except Err Begun :=
  match submitChecks w problem language file time memory with
  | .error e => (j, .error e)
  | .ok (l, f) =>
    match (if falsy f then w.editor l [] else f.bind w.file) with
    | none => (j, .error .source)
    | some src => record j ⟨problem, l, src, time, memory⟩

/-- `x in map(itemgetter(0), get_supported_problems())` where `x` is the builtin function `id` (resubmit.py:37): it
equals no string. -/
def builtinId : Option Name := none

/-- `resubmit`, dmoj/commands/resubmit.py:27-57. An empty string or a zero is like no argument. -/
def resubmit (w : World) (j : Judge) (id : Int) (problem language : Option Name) (time : Option Rat) (memory : Option Int) :
    Judge × Except Err Begun :=
  match getSubmission j id with
  | .error e => (j, .error e)
  | .ok s =>
    let problem := if falsy problem then s.problem else problem.getD []
    let language := if falsy language then s.language else language.getD []
    let time := match time with | none => s.time | some t => if t = 0 then s.time else t
    let memory := match memory with | none => s.memory | some m => if m = 0 then s.memory else m
    if builtinId ∉ w.problems.map some then (j, .error .unknownProblem)
    else if language ∉ w.executors then (j, .error .unknownLanguage)
    else if time ≤ 0 then (j, .error .badTime)
    else if memory ≤ 0 then (j, .error .badMemory)
    else
      match w.editor language s.source with
      | none => (j, .error .source)
      | some src => record j ⟨problem, language, src, time, memory⟩

/-- `rejudge`, dmoj/commands/rejudge.py:12-20. -/
def rejudge (j : Judge) (id : Int) : Judge × Except Err Begun :=
  match getSubmission j id with
  | .error e => (j, .error e)
  | .ok s => (j, .ok ⟨j.counter, s⟩)

/-- `submissions`, dmoj/commands/submissions.py:15-25: the lines printed (id, problem, language). -/
def submissions (j : Judge) (limit : Option Int) : Except Err (List (Nat × Name × Name)) :=
  match limit with
  | some l =>
    if l ≤ 0 then .error .badLimit
    else .ok (((j.graded.take l.toNat).zipIdx).map fun (s, i) => (i + 1, s.problem, s.language))
  | none => .ok ((j.graded.zipIdx).map fun (s, i) => (i + 1, s.problem, s.language))

/-- The source meant by an argument of `show` and `diff`: dmoj/commands/show.py:14-21, diff.py:17-23. -/
def sourceOf (w : World) (j : Judge) (arg : Name) : Except Err Name :=
  match w.int arg with
  | some id =>
    match getSubmission j id with
    | .error e => .error e
    | .ok s => .ok s.source
  | none =>
    match w.file arg with
    | none => .error .source
    | some s => .ok s

/-- `problems`, dmoj/commands/problems.py:18-40: the names listed; `keep` is the filter, if any. -/
def problems (w : World) (keep : Option (Name → Bool)) (limit : Option Int) : Except Err (List Name) :=
  match limit with
  | some l =>
    if l ≤ 0 then .error .badLimit
    else
      let found := (match keep with | none => w.problems | some k => w.problems.filter k).take l.toNat
      if found = [] then .error .unknownProblem else .ok found
  | none =>
    let found := match keep with | none => w.problems | some k => w.problems.filter k
    if found = [] then .error .unknownProblem else .ok found

/-- A typed command that may change the judge. The world may be another one each time. (cli.py:107-133) -/
inductive Cmd where
  | submit (w : World) (problem : Name) (language file : Option Name) (time : Rat) (memory : Int)
  | resubmit (w : World) (id : Int) (problem language : Option Name) (time : Option Rat) (memory : Option Int)
  | rejudge (id : Int)

/-- One command. (cli.py:107-133) -/
def step (j : Judge) : Cmd → Judge × Except Err Begun
  | .submit w p l f t m => Commands.submit w j p l f t m
  | .resubmit w id p l t m => Commands.resubmit w j id p l t m
  | .rejudge id => Commands.rejudge j id

/-- A session: the judge afterwards and what each command did. (cli.py:107-133) -/
def run : Judge → List Cmd → Judge × List (Except Err Begun)
  | j, [] => (j, [])
  | j, c :: cs => ((run (step j c).1 cs).1, (step j c).2 :: (run (step j c).1 cs).2)

end Verif.Commands
