import Verif.Model.Cli

/-!
# The arguments of checkers and interactors (dmoj/checkers/bridged.py:44-60, dmoj/graders/bridged.py:54-83, dmoj/contrib/)

The names of temporary files come from outside. `str.format` is modelled for fields without nested braces; what a field other than the three names gives (an unknown
name raises, `{input_file!r}` does not) is a parameter. `shlex.split` is `Cli.split`.
-/

namespace Verif.Args

/-- Text. (checkers/bridged.py:51-57) -/
abbrev Str := List Char

/-- The three keyword arguments of `format`. (checkers/bridged.py:53-55) -/
inductive Field where
  | input
  | output
  | answer
deriving DecidableEq

/-- Their names. (checkers/bridged.py:53-55) -/
def Field.name : Field → Str
  | .input => "input_file".toList
  | .output => "output_file".toList
  | .answer => "answer_file".toList

/-- The contrib modules, dmoj/contrib/*.py. -/
inductive Kind where
  | default
  | testlib
  | coci
  | peg
deriving DecidableEq

/-- `get_checker_args_format_string`: contrib/default.py:12-14, contrib/peg.py:9-11; testlib and coci inherit. -/
def checkerFormat : Kind → Str
  | .default => "{input_file} {output_file} {answer_file}".toList
  | .testlib => "{input_file} {output_file} {answer_file}".toList
  | .coci => "{input_file} {output_file} {answer_file}".toList
  | .peg => "{answer_file} {output_file} {input_file}".toList

/-- `get_interactor_args_format_string`: contrib/default.py:16-18, contrib/testlib.py:19-21, contrib/coci.py:12-14; peg inherits the first. -/
def interactorFormat : Kind → Str
  | .default => "{input_file} {answer_file}".toList
  | .testlib => "{input_file} {output_file} {answer_file}".toList
  | .coci => "{input_file} {answer_file}".toList
  | .peg => "{input_file} {answer_file}".toList

/-- `contrib_modules[type]`, loaded by contrib/__init__.py; `none` for a name that is no module. -/
def kindOf (type : Str) : Option Kind :=
  if type = "default".toList then some .default
  else if type = "testlib".toList then some .testlib
  else if type = "coci".toList then some .coci
  else if type = "peg".toList then some .peg
  else none

/-- Characters `shlex.quote` finds safe: ASCII letters, digits and the ten below. (checkers/bridged.py:53) -/
def safe (c : Char) : Bool := c.isAlphanum || c ∈ ['_', '@', '%', '+', '=', ':', ',', '.', '/', '-']

/-- `shlex.quote`. (checkers/bridged.py:53) -/
def quote (s : Str) : Str :=
  if s = [] then "''".toList
  else if s.all safe then s
  else '\'' :: (s.flatMap (fun c => if c = '\'' then ['\'', '"', '\'', '"', '\''] else [c]) ++ ['\''])

/-- A replacement field: one of the three, or what `other` says; `none` raises. (checkers/bridged.py:52-56) -/
def field (vals : Field → Str) (other : Str → Option Str) (n : Str) : Option Str :=
  if n = Field.input.name then some (vals .input)
  else if n = Field.output.name then some (vals .output)
  else if n = Field.answer.name then some (vals .answer)
  else other n

/-- `format`, outside (`none`) and inside a field (`some`, with its text so far). Doubled braces stand for one, a lone one raises `ValueError`.
(checkers/bridged.py:52-56) -/
def format (vals : Field → Str) (other : Str → Option Str) : Option Str → Str → Option Str
  | none, [] => some []
  | none, '{' :: '{' :: s => (format vals other none s).map ('{' :: ·)
  | none, '}' :: '}' :: s => (format vals other none s).map ('}' :: ·)
  | none, c :: s =>
    if c = '{' then format vals other (some []) s
    else if c = '}' then none
    else (format vals other none s).map (c :: ·)
  | some _, [] => none
  | some n, c :: s =>
    if c = '}' then
      match field vals other n with
      | none => none
      | some v => (format vals other none s).map (v ++ ·)
    else if c = '{' then none
    else format vals other (some (n ++ [c])) s

/-- `shlex.split(format_string.format(...))` with the quoted names; `none` raises. (checkers/bridged.py:51-57) -/
def arguments (names : Field → Str) (other : Str → Option Str) (fmt : Str) : Option (List Str) :=
  (format (fun f => quote (names f)) other none fmt).bind Cli.split

/-- `args_format_string or ...`. (checkers/bridged.py:48, graders/bridged.py:59-62) -/
def choose (given : Option Str) (dflt : Str) : Str :=
  match given with
  | none => dflt
  | some s => if s = [] then dflt else s

/-- What a helper program is started with: its arguments and the files written for it. (checkers/bridged.py:50-60) -/
structure Started where
  args : List Str
  files : List (Str × Bytes)

/-- `check` up to the launch, checkers/bridged.py:43-60. A name that is no contrib module raises `InternalError`. -/
def checker (type : Str) (given : Option Str) (names : Field → Str) (other : Str → Option Str) (processOutput judgeOutput judgeInput : Bytes) :
    Option Started :=
  match kindOf type with
  | none => none
  | some k =>
    (arguments names other (choose given (checkerFormat k))).map fun args =>
      ⟨args, [(names .input, judgeInput), (names .output, processOutput), (names .answer, judgeOutput)]⟩

/-- `_interact_with_process` up to the launch, graders/bridged.py:54-83: the output file is `/dev/null`. An unknown kind raises in `__init__`, :18-20. -/
def interactor (type : Str) (given : Option Str) (names : Field → Str) (other : Str → Option Str) (judgeOutput input : Bytes) : Option Started :=
  match kindOf type with
  | none => none
  | some k =>
    (arguments (fun f => if f = .output then "/dev/null".toList else names f) other (choose given (interactorFormat k))).map fun args =>
      ⟨args, [(names .input, input), (names .answer, judgeOutput)]⟩

/-- The limits of an interactor, graders/bridged.py:56-58: seconds and kilobytes. Zero counts as missing. -/
def interactorLimits (preprocessing : Option Rat) (memory : Option Nat) (timeLimit : Rat) (envMemory : Nat) : Rat × Nat :=
  ((match preprocessing with | none => 2 | some p => if p = 0 then 2 else p) + timeLimit,
   match memory with | none => envMemory | some m => if m = 0 then envMemory else m)

end Verif.Args
