import Verif.Model.Commands
import Verif.Model.Ansi

/-!
# The prompt of the local judge (dmoj/cli.py:72-139)

The judge's own threads, readline's history and what is printed are left out, except complaints, because they can fail to be printed. `argparse`, `re` and `pygments` are parameters. A source from `$EDITOR` is bytes in
the code and text here; that `difflib` refuses bytes is in `Env.rendered`. `shlex.split` belongs to Python and is modelled because its errors are the judge's.
-/

namespace Verif.Cli
open Verif.Commands

/-- Characters. (cli.py:129) -/
abbrev Str := List Char

/-! ## `shlex.split`, as called by cli.py:130 -/

/-- `shlex.whitespace`. (cli.py:130) -/
def blanks : List Char := [' ', '\t', '\r', '\n']

/-- `shlex.quotes`. (cli.py:130) -/
def quotes : List Char := ['\'', '"']

/-- `shlex.state`, with `escapedstate` where it is read. (cli.py:130) -/
inductive State where
  | blank
  | word
  | quote (q : Char)
  | escape
  | escapeIn (q : Char)

/-- `shlex.read_token` over and over, in POSIX mode, with `whitespace_split` and no comments; `none` is `ValueError`. The token is empty in the blank state.
(cli.py:130) -/
def lex : State → Str → Bool → Str → Option (List Str)
  | .blank, _, _, [] => some []
  | .blank, _, _, c :: s =>
    if c ∈ blanks then lex .blank [] false s
    else if c = '\\' then lex .escape [] false s
    else if c ∈ quotes then lex (.quote c) [] false s
    else lex .word [c] false s
  | .word, tok, quoted, [] => if tok = [] ∧ quoted = false then some [] else some [tok]
  | .word, tok, quoted, c :: s =>
    if c ∈ blanks then
      if tok = [] ∧ quoted = false then lex .blank [] false s
      else (lex .blank [] false s).map (tok :: ·)
    else if c ∈ quotes then lex (.quote c) tok quoted s
    else if c = '\\' then lex .escape tok quoted s
    else lex .word (tok ++ [c]) quoted s
  | .quote _, _, _, [] => none
  | .quote q, tok, _, c :: s =>
    if c = q then lex .word tok true s
    else if c = '\\' ∧ q = '"' then lex (.escapeIn q) tok true s
    else lex (.quote q) (tok ++ [c]) true s
  | .escape, _, _, [] => none
  | .escape, tok, quoted, c :: s => lex .word (tok ++ [c]) quoted s
  | .escapeIn _, _, _, [] => none
  | .escapeIn q, tok, quoted, c :: s =>
    lex (.quote q) (tok ++ (if c ≠ '\\' ∧ c ≠ q then ['\\', c] else [c])) quoted s

/-- `shlex.split`. (cli.py:130) -/
def split (s : Str) : Option (List Str) := lex .blank [] false s

/-- `str.isspace` of a character. (cli.py:129) -/
def isSpace (c : Char) : Bool :=
  (9 ≤ c.toNat && c.toNat ≤ 13) || (28 ≤ c.toNat && c.toNat ≤ 32) || c.toNat == 0x85 || c.toNat == 0xA0 || c.toNat == 0x1680 ||
    (0x2000 ≤ c.toNat && c.toNat ≤ 0x200A) || c.toNat == 0x2028 || c.toNat == 0x2029 || c.toNat == 0x202F || c.toNat == 0x205F || c.toNat == 0x3000

/-- `str.strip`. (cli.py:129) -/
def strip (s : Str) : Str := (((s.dropWhile isSpace).reverse).dropWhile isSpace).reverse

/-! ## Commands -/

/-- When Control-C is pressed, if at all. (commands/submit.py:72-85) -/
inductive CtrlC where
  | never
  /-- while the source is typed or edited -/
  | typing
  /-- while it is graded -/
  | grading
deriving DecidableEq

/-- What a command meets. A parser gives `none` for `InvalidCommandException` (commands/base_command.py:15-23). -/
structure Env where
  w : World
  submitArgs : List Str → Option (Name × Option Name × Option Name × Rat × Int)
  resubmitArgs : List Str → Option (Int × Option Name × Option Name × Option Rat × Option Int)
  idArg : List Str → Option Int
  limitArg : List Str → Option (Option Int)
  showArg : List Str → Option Name
  diffArgs : List Str → Option (Name × Name)
  problemsArgs : List Str → Option (Option Name × Option Int)
  /-- `re.compile(...).match`; `none` is `re.error` -/
  regex : Name → Option (Name → Bool)
  /-- `pygments` and `difflib` can deal with what they get -/
  rendered : Bool
  ctrlC : CtrlC
  /-- `str(io)` for a source that cannot be had (commands/base_command.py:38-39, 72-73) -/
  reason : Str
  /-- `judgeenv.no_ansi` -/
  noAnsi : Bool

/-- How `execute` ends. (cli.py:113-117) -/
inductive Outcome where
  /-- `None` is returned -/
  | done
  /-- `InvalidCommandException`, with its message -/
  | refused (message : Option Str)
  /-- `SystemExit(0)` -/
  | exits
  /-- another exception -/
  | raises
  /-- `KeyboardInterrupt` -/
  | interrupted
deriving DecidableEq

/-- `'%d'`. (commands/base_command.py:49) -/
def decimal : Int → Str
  | .ofNat n => Nat.toDigits 10 n
  | .negSucc n => '-' :: Nat.toDigits 10 (n + 1)

/-- The message of the exception. (commands/base_command.py:39-49, 73, submit.py:53-70, resubmit.py:38-44, submissions.py:19, problems.py:22) -/
def complaint (e : Env) (problem language : Str) (id : Int) : Err → Str
  | .invalidSubmission => "invalid submission '".toList ++ decimal id ++ ['\'']
  | .unknownProblem => "unknown problem '".toList ++ problem ++ ['\'']
  | .invalidFileName => "invalid file name".toList
  | .noLanguage => "no language is selected".toList
  | .unknownLanguage => "unknown language '".toList ++ language ++ ['\'']
  | .badTime => "--time-limit must be >= 0".toList
  | .badMemory => "--memory-limit must be >= 0".toList
  | .badLimit => "--limit must be >= 0".toList
  | .source => e.reason

/-- The end of a command that prints. (commands/show.py:36-40) -/
def printed {α : Type} (ok : Bool) (message : Err → Str) : Except Err α → Outcome
  | .error er => .refused (some (message er))
  | .ok _ => if ok then .done else .raises

/-- The end of `show` and `diff`: the number complained about is the argument. (commands/show.py:14-21, diff.py:17-23) -/
def numbered (e : Env) (a : Name) : Err → Str := complaint e [] [] ((e.w.int a).getD 0)

/-- `SubmitCommand.execute`, commands/submit.py:39-85. -/
def submitCmd (e : Env) (j : Judge) (args : List Str) : Judge × Outcome :=
  match e.submitArgs args with
  | none => (j, .refused none)
  | some (p, l, f, t, m) =>
    match submitChecks e.w p l f t m with
    | .error er => (j, .refused (some (complaint e p (l.getD []) 0 er)))
    | .ok (_, f') =>
      if falsy f' ∧ e.ctrlC = .typing then (j, .interrupted)
      else
        match Commands.submit e.w j p l f t m with
        | (j', .error er) => (j', .refused (some (complaint e p (l.getD []) 0 er)))
        | (j', .ok _) => (j', .done)

/-- What `resubmit` takes for the problem or the language, commands/resubmit.py:30-33; it is not looked at if there is no such submission. -/
def chosen (j : Judge) (id : Int) (old : Sub → Name) (arg : Option Name) : Name :=
  if falsy arg then
    match getSubmission j id with
    | .ok s => old s
    | .error _ => []
  else arg.getD []

/-- `ResubmitCommand.execute`, commands/resubmit.py:27-57. (The source is never edited: `C49_resubmit_fails`.) -/
def resubmitCmd (e : Env) (j : Judge) (args : List Str) : Judge × Outcome :=
  match e.resubmitArgs args with
  | none => (j, .refused none)
  | some (id, p, l, t, m) =>
    match Commands.resubmit e.w j id p l t m with
    | (j', .error er) => (j', .refused (some (complaint e (chosen j id Sub.problem p) (chosen j id Sub.language l) id er)))
    | (j', .ok _) => (j', .done)

/-- `RejudgeCommand.execute`, commands/rejudge.py:12-20: an interrupt is not caught. -/
def rejudgeCmd (e : Env) (j : Judge) (args : List Str) : Judge × Outcome :=
  match e.idArg args with
  | none => (j, .refused none)
  | some id =>
    match Commands.rejudge j id with
    | (j', .error er) => (j', .refused (some (complaint e [] [] id er)))
    | (j', .ok _) => (j', if e.ctrlC = .grading then .interrupted else .done)

/-- `ListSubmissionsCommand.execute`, commands/submissions.py:15-25. -/
def submissionsCmd (e : Env) (j : Judge) (args : List Str) : Outcome :=
  match e.limitArg args with
  | none => .refused none
  | some l => printed true (complaint e [] [] 0) (Commands.submissions j l)

/-- `ShowCommand.execute`, commands/show.py:36-40. -/
def showCmd (e : Env) (j : Judge) (args : List Str) : Outcome :=
  match e.showArg args with
  | none => .refused none
  | some a => printed e.rendered (numbered e a) (sourceOf e.w j a)

/-- `DifferenceCommand.execute`, commands/diff.py:25-43. -/
def diffCmd (e : Env) (j : Judge) (args : List Str) : Outcome :=
  match e.diffArgs args with
  | none => .refused none
  | some (a, b) =>
    match sourceOf e.w j a with
    | .error er => .refused (some (numbered e a er))
    | .ok _ => printed e.rendered (numbered e b) (sourceOf e.w j b)

/-- `ListProblemsCommand.execute`, commands/problems.py:18-40. An empty filter is none. -/
def problemsCmd (e : Env) (args : List Str) : Outcome :=
  match e.problemsArgs args with
  | none => .refused none
  | some (filter, limit) =>
    match limit with
    | some l => if l ≤ 0 then .refused (some "--limit must be >= 0".toList) else go filter limit
    | none => go filter limit
where
  /-- commands/problems.py:24-40. -/
  go (filter : Option Name) (limit : Option Int) : Outcome :=
    if falsy filter then printed true message (Commands.problems e.w none limit)
    else
      match e.regex (filter.getD []) with
      | none => .raises
      | some k => printed true message (Commands.problems e.w (some k) limit)
  /-- commands/problems.py:40. -/
  message : Err → Str := fun _ => "No problems matching filter found.".toList

/-- `commands[name].execute(args)`; `none` if there is no such command. `help` and `quit` do not look at their arguments. (cli.py:107-117) -/
def execute (e : Env) (j : Judge) (name : Str) (args : List Str) : Option (Judge × Outcome) :=
  if name = "problems".toList then some (j, problemsCmd e args)
  else if name = "submissions".toList then some (j, submissionsCmd e j args)
  else if name = "submit".toList then some (submitCmd e j args)
  else if name = "resubmit".toList then some (resubmitCmd e j args)
  else if name = "rejudge".toList then some (rejudgeCmd e j args)
  else if name = "diff".toList then some (j, diffCmd e j args)
  else if name = "show".toList then some (j, showCmd e j args)
  else if name = "help".toList then some (j, .done)
  else if name = "quit".toList then some (j, .exits)
  else none

/-- What `run_command` does: returns a status (`None` is 0) or lets something through. -/
inductive Ret where
  | status (n : Nat)
  | exits
  | raises
  | interrupted
deriving DecidableEq

/-- `print_ansi('#ansi[...](red|bold)')` does not raise, cli.py:117, 121 (the line feed after the first makes no difference). -/
def printable (e : Env) (text : Str) : Bool := (Ansi.style e.noAnsi ("#ansi[".toList ++ text ++ "](red|bold)".toList)).isSome

/-- cli.py:116-117: a message that is empty or not there is not printed. -/
def complains (e : Env) : Option Str → Bool
  | none => true
  | some [] => true
  | some m => printable e m

/-- `run_command`, cli.py:107-122. -/
def runCommand (e : Env) (j : Judge) : List Str → Judge × Ret
  | [] => (j, .status 127)
  | name :: args =>
    match execute e j name args with
    | none => (j, if printable e ("Unrecognized command ".toList ++ name) then .status 127 else .raises)
    | some (j', .done) => (j', .status 0)
    | some (j', .refused m) => (j', if complains e m then .status 1 else .raises)
    | some (j', .exits) => (j', .exits)
    | some (j', .raises) => (j', .raises)
    | some (j', .interrupted) => (j', .interrupted)

/-- The exit status with a command on the command line, cli.py:72-73, 127-128, 132-135. An exception makes Python exit with 1. -/
def oneShot (e : Env) (line : List Str) : Nat :=
  match (runCommand e Judge.start line).2 with
  | .status n => n
  | .exits => 0
  | .raises => 1
  | .interrupted => 0

/-- What happens at the prompt. (cli.py:129-133) -/
inductive Input where
  | line (text : Str) (e : Env)
  /-- Control-D -/
  | eof
  /-- Control-C -/
  | interrupt

/-- The session is waiting or has ended. (cli.py:129-135) -/
inductive End where
  | waiting
  | ended (status : Nat)
deriving DecidableEq

/-- The loop, cli.py:129-135: judge, what `run_command` returned line by line, end. -/
def session : Judge → List Input → Judge × List Nat × End
  | j, [] => (j, [], .waiting)
  | j, .eof :: _ => (j, [], .ended 0)
  | j, .interrupt :: _ => (j, [], .ended 0)
  | j, .line text e :: rest =>
    match split (strip text) with
    | none => (j, [], .ended 1)
    | some words =>
      match runCommand e j words with
      | (j', .status n) => ((session j' rest).1, n :: (session j' rest).2.1, (session j' rest).2.2)
      | (j', .exits) => (j', [], .ended 0)
      | (j', .raises) => (j', [], .ended 1)
      | (j', .interrupted) => (j', [], .ended 0)

end Verif.Cli
