/-!
The environment a submission is started with, and what becomes of the buffering of its standard streams:
`get_env` of the executors, `launch` (dmoj/executors/mixins.py:90-119), the environment list of `TracedPopen`
(dmoj/cptbox/tracer.py:115-119) and the preloaded library (dmoj/utils/setbufsize.c).
-/

namespace Verif.Launch

/-- A value in an environment dictionary: `None`, a string, or a whole number. Values of other types that the
configuration may hold (truth values, floating point numbers) are taken as the string `'%s'` makes of them.
(tracer.py:115-119) -/
inductive Val
  | none
  | str (s : String)
  | int (z : Int)
deriving DecidableEq, Repr

/-- A Python dictionary, in insertion order. (mixins.py:90-119) -/
abbrev Dict := List (String × Val)

/-- `d[k] = v`: in place if the key is there, otherwise at the end. (mixins.py:90-119) -/
def put (k : String) (v : Val) : Dict → Dict
  | [] => [(k, v)]
  | (k', v') :: d => if k' = k then (k, v) :: d else (k', v') :: put k v d

/-- `d.update(e)`. (mixins.py:90-119) -/
def update (d e : Dict) : Dict := e.foldl (fun d p => put p.1 p.2 d) d

/-- `d.get(k)`. (mixins.py:90-119) -/
def look (k : String) : Dict → Option Val
  | [] => none
  | (k', v) :: d => if k' = k then some v else look k d

/-- Which `get_env` an executor has.
(mixins.py:90-94, gcc_executor.py:79-82, script_executor.py:46-52, shell_executor.py:41-44, mono_executor.py:48-55) -/
inductive Kind
  /-- Most executors: `PlatformExecutorMixin.get_env` alone. -/
  | plain
  /-- `GCCExecutor`, with `GCC_ENV` from the configuration (gcc_executor.py:11). -/
  | gcc (conf : Dict)
  /-- `ScriptExecutor`, with `<name>_env` from the configuration if it is there. -/
  | script (conf : Option Dict)
  /-- `ShellExecutor`, a `ScriptExecutor`. -/
  | shell (conf : Option Dict)
  /-- `MonoExecutor`. -/
  | mono

/-- What `launch` looks at: the judge's own environment, whether the executor was made with `unbuffered`, the
path of the copied library, the keyword arguments `stdout_buffer_size` and `stderr_buffer_size` (`none`: not
given). (mixins.py:90-119) -/
structure Cfg where
  judge : String → Option String
  locale : String := "C.UTF-8"
  unbuffered : Bool := false
  agent : String
  outSize : Option Int := none
  errSize : Option Int := none

/-- `PlatformExecutorMixin.get_env`, mixins.py:90-94. -/
def baseEnv (c : Cfg) : Dict :=
  let env : Dict := [("LANG", .str c.locale)]
  if c.unbuffered then put "CPTBOX_STDOUT_BUFFER_SIZE" (.int 0) env else env

/-- `ScriptExecutor.get_env`, script_executor.py:46-52. (`env or {}`: the base environment is never empty.) -/
def scriptEnv (c : Cfg) : Option Dict → Dict
  | none => baseEnv c
  | some conf => update (baseEnv c) conf

/-- `get_env`: gcc_executor.py:79-82, script_executor.py:46-52, shell_executor.py:41-44 (`KeyError`, here `none`,
if the judge has no `PATH`), mono_executor.py:48-55. -/
def getEnv (c : Cfg) : Kind → Option Dict
  | .plain => some (baseEnv c)
  | .gcc conf => some (update (baseEnv c) conf)
  | .script conf => some (scriptEnv c conf)
  | .shell conf => (c.judge "PATH").map fun p => put "PATH" (.str p) (scriptEnv c conf)
  | .mono => some (put "MONO_CRASH_NOFILE" (.str "1") (put "MONO_DISABLE_SHARED_AREA" (.str "1") (baseEnv c)))

/-- `kwargs.get(..)`. (mixins.py:90-119) -/
def size : Option Int → Val
  | none => .none
  | some z => .int z

/-- The dictionary `launch` makes, mixins.py:111-119. -/
def launchEnv (c : Cfg) (k : Kind) : Option Dict :=
  (getEnv c k).map fun e => update
    [("LD_LIBRARY_PATH", .str ((c.judge "LD_LIBRARY_PATH").getD "")),
     ("LD_PRELOAD", .str c.agent),
     ("CPTBOX_STDOUT_BUFFER_SIZE", size c.outSize),
     ("CPTBOX_STDERR_BUFFER_SIZE", size c.errSize)] e

/-- `str` of a number that is not negative. (mixins.py:90-119) -/
def natChars (n : Nat) : List Char := Nat.toDigits 10 n

/-- `'%s' % val` for values other than `None`. (tracer.py:115-119) -/
def render : Val → List Char
  | .none => "None".toList
  | .str s => s.toList
  | .int (.ofNat n) => natChars n
  | .int (.negSucc n) => '-' :: natChars (n + 1)

/-- The list of strings given to `execve`, tracer.py:115-119. Strings are lists of characters here; the encoding
to UTF-8 is left out. -/
def envp (d : Dict) : List (List Char) :=
  (d.filter fun p => p.2 ≠ .none).map fun p => p.1.toList ++ '=' :: render p.2

/-- What follows a prefix. (setbufsize.c:6-21) -/
def after : List Char → List Char → Option (List Char)
  | [], s => some s
  | _ :: _, [] => none
  | a :: p, b :: s => if a = b then after p s else none

/-- C's `getenv`: the first entry that begins with the name and `=`. (setbufsize.c:6-21) -/
def getenv (name : String) : List (List Char) → Option (List Char)
  | [] => none
  | e :: es =>
    match after (name.toList ++ ['=']) e with
    | some v => some v
    | none => getenv name es

/-- `isspace` of C. (setbufsize.c:6-21) -/
def cspace (c : Char) : Bool := c = ' ' || ('\t' ≤ c && c ≤ '\r')

/-- The digits at the beginning of a string: their value and the rest. (setbufsize.c:6-21) -/
def digits (acc : Nat) : List Char → Nat × List Char
  | [] => (acc, [])
  | c :: cs => if '0' ≤ c ∧ c ≤ '9' then digits (acc * 10 + (c.toNat - '0'.toNat)) cs else (acc, c :: cs)

/-- The values of `unsigned long`. (setbufsize.c:6-21) -/
def ulong : Nat := 2 ^ 64

/-- An optional sign: whether it is a minus, and the rest. (setbufsize.c:6-21) -/
def sign : List Char → Bool × List Char
  | '-' :: t => (true, t)
  | '+' :: t => (false, t)
  | t => (false, t)

/-- `strtoul(s, &end, 10)`: the value and the characters from `end` on. Without a digit, `end` is the beginning;
too large numbers give the largest; a minus sign negates in `unsigned long`. (setbufsize.c:6-21) -/
def strtoul (s : List Char) : Nat × List Char :=
  let t := sign (s.dropWhile cspace)
  match t.2 with
  | [] => (0, s)
  | c :: _ =>
    if '0' ≤ c ∧ c ≤ '9' then
      let r := digits 0 t.2
      (if r.1 ≥ ulong then ulong - 1 else if t.1 then (ulong - r.1) % ulong else r.1, r.2)
    else (0, s)

/-- What the library does to a stream. (setbufsize.c:6-21) -/
inductive Buffering
  /-- Nothing: C's own choice stays. -/
  | untouched
  /-- `setvbuf(.., _IOFBF, n)`. -/
  | full (n : Nat)
  /-- `setvbuf(.., _IONBF, 0)`. -/
  | unbuffered
deriving DecidableEq, Repr

/-- `_DMOJ_setbuffer`, setbufsize.c:6-21. -/
def setbuffer (env : List (List Char)) (name : String) : Buffering :=
  match getenv name env with
  | none => .untouched
  | some s =>
    match strtoul s with
    | (n, []) => if n ≠ 0 then .full n else .unbuffered
    | (_, _ :: _) => .untouched

/-- `_DMOJ_setbuffersize`, setbufsize.c:23-26: what becomes of standard output and standard error. -/
def setbuffersize (env : List (List Char)) : Buffering × Buffering :=
  (setbuffer env "CPTBOX_STDOUT_BUFFER_SIZE", setbuffer env "CPTBOX_STDERR_BUFFER_SIZE")

end Verif.Launch
