import Verif.Model.Source

/-!
# The command lines of all executors: `get_compile_args`, `get_compiled_file`, `get_executable`, `get_cmdline`, `launch`

A command line is a list of templates, filled in from the configuration and the submission. `self._file(x)` is `x` in the directory of the submission;
compilers and programs are started in that directory (compiled_executor.py:188, mixins.py:135). The options that have nothing to do with files are kept,
but for the flags of C compilers, which are one list, and the flag `-b` that the INTERCAL compiler gets in its self-test (ICK.py:35-37). `runtime_dict`
is given as a function; that what is needed is configured is what `initialize` checks (C74).
-/

namespace Verif.CmdLine

/-- base_executor.py:39-66. -/
abbrev Str := List Char

/-- What a command line is made from. (base_executor.py:39-66, judgeenv.py) -/
structure Ctx where
  /-- `runtime_dict` -/
  rt : String → Str
  /-- lists in it, and the flags for C compilers -/
  many : String → List Str
  dir : Str
  problem : Str
  /-- `self._class_name` of Java -/
  cls : Str
  /-- the memory limit, in KB -/
  memory : Nat
  unbuffered : Bool
  hints : List Str
  /-- JAVA_SANDBOX -/
  agent : Str
  /-- DMOJ_CARGO_OFFLINE -/
  offline : Bool

/-- A file of the submission, by name. (compiled_executor.py:134-137, 237-238) -/
inductive File where
  /-- the file with the submission, and something added to its name -/
  | code (add : String)
  /-- the name of the problem, and something added -/
  | problem (add : String)
  /-- a fixed name -/
  | fixed (name : String)
deriving DecidableEq, Repr

/-- A part of a command line. (the `get_cmdline` and `get_compile_args` of executors/*.py) -/
inductive Tok where
  | lit (s : String)
  /-- a path from the configuration -/
  | rt (key : String)
  /-- the directory of such a path -/
  | rtDir (key : String)
  /-- `self._file(..)`, after some text -/
  | file (pre : String) (f : File)
  /-- a name without directory, after some text -/
  | rel (pre : String) (f : File)
  /-- several arguments -/
  | many (key : String)
  | cls
  | dir
  | xmx
  | space
  | agent
  | pyflags
  | offline
  | lisp
deriving DecidableEq, Repr

/-- The decimal digits of a number. (java_executor.py:104, SBCL.py:30) -/
def num (n : Nat) : Str := (toString n).toList

/-- The name of the file with the submission. (compiled_executor.py:135, script_executor.py:12, java_executor.py:223) -/
def codeName (k : Source.Kind) (ext : String) (c : Ctx) : Str :=
  match k with
  | .d => "main.".toList ++ ext.toList
  | .javac => c.cls ++ ".java".toList
  | _ => c.problem ++ '.' :: ext.toList

/-- compiled_executor.py:134-137, 237-238. -/
def fileName (code : Str) (c : Ctx) : File → Str
  | .code add => code ++ add.toList
  | .problem add => c.problem ++ add.toList
  | .fixed n => n.toList

/-- `os.path.dirname` of an absolute path with no slashes in a row. (TUR.py:22) -/
def dirname (p : Str) : Str := (p.reverse.dropWhile (· ≠ '/')).tail.reverse

/-- `get_agent_flag`, java_executor.py:89-95. -/
def agentFlag (c : Ctx) : Str :=
  "-javaagent:".toList ++ c.agent ++ "=policy:".toList ++ c.dir ++ "/security.policy".toList ++ c.hints.flatMap (',' :: ·) ++
    (if c.unbuffered then ",nobuf".toList else [])

/-- Filling in. (executors/*.py) -/
def render (code : Str) (c : Ctx) : Tok → List Str
  | .lit s => [s.toList]
  | .rt k => [c.rt k]
  | .rtDir k => [dirname (c.rt k)]
  | .file pre f => [pre.toList ++ (c.dir ++ '/' :: fileName code c f)]
  | .rel pre f => [pre.toList ++ fileName code c f]
  | .many k => c.many k
  | .dir => [c.dir]
  | .cls => [c.cls]
  | .xmx => ["-Xmx".toList ++ num c.memory ++ "K".toList]
  | .space => [num (c.memory / 1024 + 1)]
  | .agent => [agentFlag c]
  | .pyflags => [if c.unbuffered then "-BSu".toList else "-BS".toList]
  | .offline => if c.offline then ["--offline".toList] else []
  | .lisp => ["(compile-file \"".toList ++ (c.dir ++ '/' :: code) ++ "\")".toList]

/-- What the limit of the sandbox is made from: java_executor.py:110-112, BF.py:61-65. -/
inductive Limit where
  | same
  | none
  | more
deriving DecidableEq, Repr

/-- An executor: the command lines of the compilers (none for scripts), the program to be started, its arguments. (executors/*.py) -/
structure Row where
  lang : String
  kind : Source.Kind
  ext : String
  compile : List (List Tok)
  exe : Tok
  argv : List Tok
  limit : Limit := .same

/-! ## The families -/

/-- `ScriptExecutor`: script_executor.py:36-44. -/
def script (lang ext cmd : String) (argv : List Tok) : Row := ⟨lang, .plain, ext, [], .rt cmd, argv, .same⟩

/-- The file with the submission. (script_executor.py:12) -/
def code : Tok := .file "" (.code "")

/-- The compiled file: compiled_executor.py:237-238. -/
def out (pre : String) : Tok := .file pre (.problem "")

/-- `CompiledExecutor`: compiled_executor.py:249-260. -/
def own (lang : String) (kind : Source.Kind) (ext : String) (compile : List (List Tok)) : Row :=
  ⟨lang, kind, ext, compile, out "", [.rel "" (.problem "")], .same⟩

/-- `GCCExecutor`: gcc_executor.py:62-74. -/
def gcc (lang ext cmd : String) : Row :=
  own lang .gcc ext [[.rt cmd, .lit "-Wall", .many "colour", .many "sources", .many "defines", .lit "-O2", .lit "-lm", .many "march", .many "flags",
    .many "ldflags", .lit "-s", .lit "-o", out ""]]

/-- `ASMExecutor`: asm_executor.py:51-80, 126-130, 153-154; `emu`: with the emulator (the directory of the executor is then its argument). -/
def asm (lang : String) (emu : Bool) : Row :=
  let compile := [
    if lang = "NASM" ∨ lang = "NASM64" then [.rt "as", .lit "-f", .many "nasm_format", code, .lit "-o", .file "" (.problem ".o")]
    else [.rt "as", .lit "-o", .file "" (.problem ".o"), code, .many "as_platform_flag"],
    [.rt "ld", .lit "-s", .lit "-o", out "", .lit "-m", .many "ld_m", .many "pre", .file "" (.problem ".o"), .many "post"]]
  if emu then ⟨lang, .asm, "asm", compile, .rt "qemu", [.rt "qemu", out ""], .same⟩ else own lang .asm "asm" compile

/-- `PythonExecutor`: python_executor.py:27-36. -/
def python (lang cmd : String) : Row :=
  ⟨lang, .python, "py", [[.rt cmd, .lit "-m", .lit "compileall", .lit "-q", .dir]], .rt cmd, [.rt cmd, .pyflags, .file "" (.fixed "-loader.py"), code], .same⟩

/-- `JavaExecutor.get_cmdline`, java_executor.py:97-108. -/
def javaLine : List Tok :=
  [.lit "java", .many "mode", .agent, .lit "-Xss128m", .xmx, .lit "-XX:+UseSerialGC", .lit "-XX:ErrorFile=submission_jvm_crash.log", .cls]

/-- `JavacExecutor`: java_executor.py:97-112, 233-234. -/
def javac (lang vm compiler : String) : Row :=
  ⟨lang, .javac, "java", [[.rt compiler, .lit "-Xlint", .lit "-encoding", .lit "UTF-8", code]], .rt vm, javaLine, .none⟩

/-- `MonoExecutor`: mono_executor.py:57-64. -/
def mono (lang ext : String) (compile : List Tok) : Row :=
  ⟨lang, .plain, ext, [compile], .rt "mono", [.lit "mono", .file "" (.problem ".exe")], .same⟩

/-- All executors. (executors/*.py) -/
def table : List Row := [
  gcc "ADA" "adb" "gnatmake",
  script "AWK" "awk" "awk" [.rt "awk", .lit "-f", code],
  script "BASH" "sh" "bash" [.lit "bash", code],
  { own "BF" .gcc "c" [[.rt "gcc", .lit "-O0", .many "sources", .lit "-o", out ""]] with limit := .more },
  gcc "C" "c" "gcc", gcc "C11" "c" "gcc11",
  own "CBL" .plain "cbl" [[.rt "cobc", .lit "-x", .lit "-free", code]],
  gcc "CLANG" "c" "clang", gcc "CLANGX" "cpp" "clang++",
  script "COFFEE" "coffee" "node" [.rt "node", .rt "coffee", code],
  gcc "CPP03" "cpp" "g++", gcc "CPP11" "cpp" "g++11", gcc "CPP14" "cpp" "g++14", gcc "CPP17" "cpp" "g++17", gcc "CPP20" "cpp" "g++20",
  own "D" .d "d" [[.rt "dmd", .lit "-O", .lit "-inline", .lit "-release", .lit "-w", code, .rel "-of" (.problem "")]],
  ⟨"DART", .plain, "dart", [[.rt "dart", out "--snapshot=", code]], .rt "dart", [.rt "dart", out ""], .same⟩,
  gcc "F95" "f95" "gfortran",
  script "FORTH" "fs" "gforth" [.rt "gforth", code, .lit "-e", .lit "bye"],
  asm "GAS32" false, asm "GAS64" false, asm "GASARM" false, asm "GASARM" true,
  own "GO" .plain "go" [[.rt "go", .lit "build", code]],
  ⟨"GROOVY", .plain, "groovy", [[.rt "groovyc", code]], .rt "groovy_vm",
    javaLine.take (javaLine.length - 2) ++ [.rel "-Dsubmission.file=" (.problem ""), .many "groovy_args"] ++ [.rel "" (.problem "")], .none⟩,
  own "HASK" .plain "hs" [[.rt "ghc", .lit "-O2", .lit "-o", .rel "" (.problem ""), code]],
  own "ICK" .plain "i" [[.rt "ick", .lit "-O", code]],
  javac "JAVA10" "java10" "javac10", javac "JAVA11" "java11" "javac11", javac "JAVA15" "java15" "javac15", javac "JAVA8" "java8" "javac8",
  javac "JAVA9" "java9" "javac9",
  ⟨"KOTLIN", .plain, "kt", [[.rt "kotlinc", .lit "-include-runtime", .lit "-d", .rel "" (.problem ".jar"), code]], .rt "kotlin_vm",
    javaLine.take (javaLine.length - 2) ++ [.lit "-jar", .rel "" (.problem ".jar")], .none⟩,
  script "LUA" "lua" "lua" [.rt "lua", code],
  mono "MONOCS" "cs" [.rt "mono-csc", code, .lit "-r:System.Numerics.dll", .file "-out:" (.problem ".exe")],
  mono "MONOFS" "fs" [.rt "fsharpc", .lit "--nologo", .lit "--optimize", .lit "--tailcalls", .file "--out:" (.problem ".exe"), code],
  mono "MONOVB" "vb" [.rt "mono-vbnc", .lit "/nologo", .lit "/quiet", .lit "/optimize+", .file "/out:" (.problem ".exe"), code],
  asm "NASM" false, asm "NASM64" false,
  gcc "OBJC" "m" "gobjc",
  own "OCAML" .plain "ml" [[.rt "ocamlfind", .lit "opt", .many "packages", .lit "-thread", .lit "-linkpkg", code, .lit "-o", .rel "" (.problem "")]],
  own "PAS" .plain "pas" [[.rt "fpc", .lit "-Fe/dev/stderr", .lit "-So", .lit "-O2", code]],
  script "PERL" "pl" "perl" [.lit "perl", .lit "-Mre=eval", code],
  script "PHP" "php" "php" [.lit "php", code],
  script "PIKE" "pike" "pike" [.rt "pike", code],
  script "PRO" "pl" "swipl" [.rt "swipl", .lit "--goal=main", .lit "-c", code],
  python "PY2" "python", python "PY3" "python3", python "PYPY" "pypy", python "PYPY3" "pypy3",
  ⟨"RKT", .plain, "rkt", [[.rt "raco", .lit "make", code]], .rt "racket", [.rt "racket", code], .same⟩,
  script "RUBY2" "rb" "ruby2" [.rt "ruby2", .lit "--disable-gems", code],
  ⟨"RUST", .rust, "rs", [[.rt "cargo", .lit "build", .lit "--release", .offline]], .file "" (.fixed "target/release/user_submission"),
    [.rel "" (.problem "")], .same⟩,
  ⟨"SBCL", .plain, "cl", [[.rt "sbcl", .lit "--eval", .lisp, .lit "--quit"]], .rt "sbcl",
    [.rt "sbcl", .lit "--dynamic-space-size", .space, .lit "--noinform", .lit "--no-sysinit", .lit "--no-userinit", .lit "--load",
      .rel "" (.problem ".fasl"), .lit "--quit", .lit "--end-toplevel-options"], .same⟩,
  ⟨"SCALA", .plain, "scala", [[.rt "scalac", code]], .rt "scala_vm",
    javaLine.take (javaLine.length - 2) ++ [.many "scala_args"] ++ [.rel "" (.problem "")], .none⟩,
  own "SCM" .plain "scm" [[.rt "chicken-csc", code]],
  script "SED" "sed" "sed" [.rt "sed", .lit "-f", code],
  own "SWIFT" .plain "swift" [[.rt "swiftc", code]],
  script "TCL" "tcl" "tclsh" [.rt "tclsh", code],
  script "TEXT" "txt" "cat" [.rt "cat", code],
  ⟨"TUR", .plain, "t", [[.rt "tprologc", code, .rtDir "tprologc"]], .rt "tprolog", [.rt "tprolog", .file "" (.code "bc")], .same⟩,
  script "V8JS" "js" "v8dmoj" [.rt "v8dmoj", .lit "--stack-size=131072", code],
  own "ZIG" .zig "zig" [[.rt "zig", .lit "build-exe", code, .lit "--release-safe", .lit "--name", .rel "" (.problem "")]]]

/-! ## Starting -/

/-- What the sandbox gets: mixins.py:121-137. -/
structure Launch where
  exe : List Str
  argv : List Str
  memory : Nat
deriving DecidableEq

/-- All templates of a line. (mixins.py:122) -/
def line (r : Row) (c : Ctx) (l : List Tok) : List Str := l.flatMap (render (codeName r.kind r.ext c) c)

/-- `launch`, mixins.py:121-138, java_executor.py:110-112, BF.py:61-65: Brainf*** gets the size of its tape instead of arguments. A memory limit of 0
means none. -/
def launch (r : Row) (c : Ctx) (args : List Str) : Launch where
  exe := render (codeName r.kind r.ext c) c r.exe
  argv := line r c r.argv ++ (if r.limit = .more then [num (c.memory * 1024)] else args)
  memory := match r.limit with
    | .same => c.memory
    | .none => 0
    | .more => c.memory + 8192

/-- The classes that start programs: tracer.py:292-294 and mono_executor.py:14-16. -/
inductive Popen where
  | traced
  | mono
deriving DecidableEq, Repr

/-- `cptbox_popen_class`, mono_executor.py:34. -/
def declared (lang : String) : Popen := if lang ∈ ["MONOCS", "MONOFS", "MONOVB"] then .mono else .traced

/-- `TracedPopen(..)`, mixins.py:121: the attribute is not looked at. -/
def used (_lang : String) : Popen := .traced

/-- `_cpu_time_exceeded`, called at every SIGXCPU (_cptbox.pyx:435-437): whether the time limit now counts as exceeded. -/
def onXcpu (p : Popen) (tle : Bool) : Bool :=
  match p with
  | .traced => true
  | .mono => tle

end Verif.CmdLine
