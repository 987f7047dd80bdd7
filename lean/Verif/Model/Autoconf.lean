import Verif.Basic
import Verif.Model.Loader

/-!
# Finding runtimes: `dmoj-autoconf`

dmoj/executors/autoconfig.py, `autoconfig`, `autoconfig_find_first`, `autoconfig_run_test` and `find_command_from_list` of base_executor.py:237-284 with the
overrides of gcc_executor.py:105-127, java_executor.py:172-211, 241-267, asm_executor.py:115-119, GROOVY.py:40-67, SCALA.py:46-74 and KOTLIN.py:40-50.

Simplified: the self-test of an executor is a function of what it looks up in the configuration (it goes the same way when repeated); executors of scripts
can also be configured by a directory `<name>_home` and an environment `<name>_env`, which are never written here; what is printed on standard error and the
texts that say how it went are left out. On FreeBSD the directories of `/usr/local` are looked through instead of `/usr/lib/jvm`.
-/

namespace Verif.Autoconf

open Verif.Loader (Test)

/-- A value of the configuration: a path; `null`; a word (a target, a mode of the JVM); arguments. (base_executor.py:250-274) -/
inductive Val where
  | path (p : String)
  | null
  | word (s : String)
  | args (l : List String)
deriving DecidableEq, Repr

/-- A dictionary, in the order of insertion. (base_executor.py:250-274) -/
abbrev Config := List (String × Val)

/-- `d.get(key)` (gcc_executor.py:95) -/
def get (c : Config) (k : String) : Option Val := c.lookup k

/-- `d[key] = value` (base_executor.py:259) -/
def put : Config → String → Val → Config
  | [], k, v => [(k, v)]
  | (a, b) :: c, k, v => if a = k then (a, v) :: c else (a, b) :: put c k v

/-- `del d[key]` (gcc_executor.py:121) -/
def del (c : Config) (k : String) : Config := c.filter fun e => e.1 ≠ k

/-- `d.update(e)` (autoconfig.py:80) -/
def update (c d : Config) : Config := d.foldl (fun c e => put c e.1 e.2) c

/-- What an executor makes of a missing entry: it cannot run, or it takes a default. (base_executor.py:120-122, gcc_executor.py:95) -/
inductive Missing where
  | stops
  | takes (v : Val)
deriving DecidableEq, Repr

/-- How an executor is configured. (base_executor.py:276-284) -/
inductive How where
  /-- The first file found for each key, base_executor.py:249-260. -/
  | first (m : List (String × List String))
  /-- The same, and trying two targets, gcc_executor.py:105-123. -/
  | gcc (command arch : String) (files : List String)
  /-- The same as the first, if programs for the machine can be traced, asm_executor.py:115-119. -/
  | asm (abi : String) (m : List (String × List String))
  /-- One of the directories of `/usr/lib/jvm`, java_executor.py:172-198. -/
  | jvm (beginnings : List String) (vm compiler : String)
  /-- GROOVY.py:40-67. -/
  | groovy
  /-- SCALA.py:46-74. -/
  | scala
  /-- KOTLIN.py:40-50. -/
  | kotlin
deriving DecidableEq, Repr

/-- What the classes differ in. (base_executor.py:22-33) -/
structure Exec where
  /-- The name of the module. -/
  name : String
  how : How
  /-- What it looks up, given the name of its module in lower case. -/
  reads : String → List (String × Missing)
  /-- The name of the module in lower case, where it matters. -/
  lower : String := ""
  /-- A `NullStdoutMixin` by itself. -/
  null : Bool := false

/-- A compiler that is found under its name or one of a list. (base_executor.py:276-280) -/
def compiled (name command : String) (files : List String) : Exec :=
  { name, how := .first [(command, files)], reads := fun _ => [(command, .stops)] }

/-- Several keys. (base_executor.py:276-280) -/
def several (name : String) (m : List (String × List String)) : Exec :=
  { name, how := .first m, reads := fun _ => m.map fun e => (e.1, .stops) }

/-- A `GCCExecutor`. (gcc_executor.py:92-123) -/
def gnu (name command arch : String) (files : List String) : Exec :=
  { name, how := .gcc command arch files, reads := fun _ => [(command, .stops), (arch, .takes (.word "native"))] }

/-- An `ASMExecutor`. (asm_executor.py:40-46, 132-139, 160-164) -/
def assembler (name abi : String) (m : List (String × List String)) : Exec :=
  { name, how := .asm abi m, reads := fun _ => m.map fun e => (e.1, .stops) }

/-- A `JavacExecutor`. (java_executor.py:140-150) -/
def java (name version : String) (beginnings : List String) : Exec :=
  { name, how := .jvm beginnings ("java" ++ version) ("javac" ++ version)
    reads := fun _ => [("java" ++ version, .stops), ("java" ++ version ++ "_mode", .takes (.word "client")), ("javac" ++ version, .stops)] }

/-- The executors, dmoj/executors/*.py. `RUBY2` looks itself up under the name of the module of its class, RUBY2.py:36-42. -/
def table : List Exec :=
  [gnu "ADA" "gnatmake" "gcc_target_arch" ["gnatmake"],
    compiled "AWK" "awk" ["mawk", "gawk", "awk"],
    gnu "BF" "gcc" "gcc_target_arch" ["gcc"],
    gnu "C" "gcc" "gcc_target_arch" ["gcc"],
    gnu "C11" "gcc11" "gcc_target_arch" ["gcc"],
    compiled "CBL" "cobc" ["cobc"],
    gnu "CLANG" "clang" "clang_target_arch" ["clang-3.9", "clang-3.8", "clang-3.7", "clang-3.6", "clang-3.5", "clang"],
    gnu "CLANGX" "clang++" "clang_target_arch" ["clang++-3.9", "clang++-3.8", "clang++-3.7", "clang++-3.6", "clang++-3.5", "clang++"],
    several "COFFEE" [("node", ["nodejs", "node"]), ("coffee", ["coffee"])],
    gnu "CPP03" "g++" "gcc_target_arch" ["g++"],
    gnu "CPP11" "g++11" "gcc_target_arch" ["g++-5", "g++-4.9", "g++-4.8", "g++"],
    gnu "CPP14" "g++14" "gcc_target_arch" ["g++-5", "g++"],
    gnu "CPP17" "g++17" "gcc_target_arch" ["g++-7", "g++"],
    gnu "CPP20" "g++20" "gcc_target_arch" ["g++-11", "g++"],
    compiled "D" "dmd" ["dmd"],
    compiled "DART" "dart" ["dart"],
    gnu "F95" "gfortran" "gcc_target_arch" ["gfortran"],
    compiled "FORTH" "gforth" ["gforth"],
    assembler "GAS32" "x86" [("as_x86", ["i586-linux-gnu-as", "as"]), ("ld_x86", ["i586-linux-gnu-ld", "ld"])],
    assembler "GAS64" "x64" [("as_x64", ["x86_64-linux-gnu-as", "as"]), ("ld_x64", ["x86_64-linux-gnu-ld", "ld"])],
    assembler "GASARM" "arm" [("as_arm", ["arm-linux-gnueabihf-as", "as"]), ("ld_arm", ["arm-linux-gnueabihf-ld", "ld"])],
    compiled "GO" "go" ["go"],
    { name := "GROOVY", how := .groovy
      reads := fun _ => [("groovyc", .stops), ("groovy_vm", .stops), ("groovy_vm_mode", .takes (.word "client")), ("groovy_args", .stops)] },
    { compiled "HASK" "ghc" ["ghc"] with null := true, lower := "hask" },
    compiled "ICK" "ick" ["ick"],
    java "JAVA10" "10" ["java-10-", "openjdk10"],
    java "JAVA11" "11" ["java-11-", "openjdk11"],
    java "JAVA15" "15" ["java-15-", "openjdk15"],
    java "JAVA8" "8" ["java-8-", "jdk-8-", "openjdk8", "oracle-java8"],
    java "JAVA9" "9" ["java-9-", "openjdk9", "oracle-java9"],
    { name := "KOTLIN", how := .kotlin
      reads := fun _ => [("kotlinc", .stops), ("kotlin_vm", .stops), ("kotlin_vm_mode", .takes (.word "client"))] },
    compiled "LUA" "lua" ["lua", "lua5.3", "lua5.2", "lua5.1"],
    several "MONOCS" [("mono-csc", ["mono-csc", "mcs", "dmcs", "gmcs"]), ("mono", ["mono"])],
    several "MONOFS" [("fsharpc", ["fsharpc"]), ("mono", ["mono"])],
    several "MONOVB" [("mono-vbnc", ["mono-vbnc", "vbnc"]), ("mono", ["mono"])],
    assembler "NASM" "x86" [("ld_x86", ["i586-linux-gnu-ld", "ld"]), ("nasm", ["nasm"])],
    assembler "NASM64" "x64" [("ld_x64", ["x86_64-linux-gnu-ld", "ld"]), ("nasm", ["nasm"])],
    gnu "OBJC" "gobjc" "gcc_target_arch" ["gobjc"],
    compiled "OCAML" "ocamlfind" ["ocamlfind"],
    { compiled "PAS" "fpc" ["fpc"] with null := true, lower := "pas" },
    compiled "PERL" "perl" ["perl"],
    compiled "PHP" "php" ["php7", "php5", "php"],
    compiled "PIKE" "pike" ["pike"],
    compiled "PRO" "swipl" ["swipl"],
    compiled "PY2" "python" ["python2.7", "python2", "python"],
    compiled "PY3" "python3" ["python3.6", "python3.5", "python3.4", "python3.3", "python3.2", "python3.1", "python3"],
    compiled "PYPY" "pypy" ["pypy"],
    compiled "PYPY3" "pypy3" ["pypy3"],
    several "RKT" [("racket", ["racket"]), ("raco", ["raco"])],
    { name := "RUBY2", lower := "ruby2"
      how := .first [("ruby2", ["ruby2.7", "ruby2.6", "ruby2.5", "ruby2.4", "ruby2.3", "ruby2.2", "ruby2.1", "ruby2.0", "ruby27", "ruby26", "ruby25", "ruby24",
        "ruby23", "ruby22", "ruby21", "ruby20"])]
      reads := fun m => [(m, .stops)] },
    compiled "RUST" "cargo" ["cargo"],
    { compiled "SBCL" "sbcl" ["sbcl"] with null := true, lower := "sbcl" },
    { name := "SCALA", how := .scala
      reads := fun _ => [("scalac", .stops), ("scala_vm", .stops), ("scala_vm_mode", .takes (.word "client")), ("scala_args", .stops)] },
    compiled "SCM" "chicken-csc" ["chicken-csc", "csc"],
    compiled "SED" "sed" ["sed"],
    compiled "SWIFT" "swiftc" ["swiftc"],
    compiled "TCL" "tclsh" ["tclsh"],
    compiled "TEXT" "cat" ["cat"],
    several "TUR" [("tprolog", ["tprolog"]), ("tprologc", ["tprologc"])],
    compiled "V8JS" "v8dmoj" ["v8dmoj"],
    compiled "ZIG" "zig" ["zig"]]

/-- The machine. `which`: `find_executable` and `abspath`. `trace`: standard error of `bash -x` on a script with `-version` (`none`: it cannot be started, or
is not UTF-8). `content`: what a file begins with (`none`: it cannot be opened). `test`: how the self-test of an executor goes, given what it looked up.
(base_executor.py:133-187, 237-247, java_executor.py:177-186, 201-211) -/
structure World where
  which : String → Option String
  present : String → Bool
  isFile : String → Bool
  isDir : String → Bool
  isLink : String → Bool
  jvms : List String
  traceable : String → Bool
  trace : String → Option (List (List Char))
  content : String → Option Bytes
  test : String → List Val → Test

/-- What an executor looks up; `none`: something it needs is missing, an exception. (base_executor.py:120-122) -/
def view (reads : List (String × Missing)) (c : Config) : Option (List Val) :=
  match reads with
  | [] => some []
  | (k, m) :: rs =>
    match get c k, m, view rs c with
    | some v, _, some vs => some (v :: vs)
    | none, .takes v, some vs => some (v :: vs)
    | _, _, _ => none

/-- The name `get_executor_name` gives, in lower case: a class made by `type` belongs to the module that called `type.__new__`, here Python's `abc`; the
executor derived from it inherits that. (autoconfig.py:38-41, base_executor.py:85-87, 264-265) -/
def moduleName (verbose : Bool) (e : Exec) : String := if verbose || e.null then e.lower else "abc"

/-- `run_self_test(output=False)`: whether it passes, and what it prints on standard output nevertheless. (base_executor.py:133-187) -/
def quietTest : Test → Bool × List String
  | .raised => (false, [])
  | .ran tle mle _ _ _ stdout stderr faultRaises =>
    if tle then (false, ["Time Limit Exceeded"])
    else if mle then (false, ["Memory Limit Exceeded"])
    else (!faultRaises && Loader.strip stdout == Loader.message && stderr.isEmpty, [])

/-- The self-test with `runtime_dict` replaced; a missing entry is an exception that is caught. (base_executor.py:264-267) -/
def tryOut (w : World) (verbose : Bool) (e : Exec) (c : Config) : Bool × List String :=
  match view (e.reads (moduleName verbose e)) c with
  | none => (false, [])
  | some v => quietTest (w.test e.name v)

/-- How `autoconfig` ends: an exception; not successful; successful with this configuration. (autoconfig.py:49-80) -/
inductive Report where
  | raised
  | failed
  | success (c : Config)
deriving DecidableEq, Repr

/-- `find_command_from_list`, base_executor.py:237-247. -/
def findCommand (w : World) : List String → Option String
  | [] => none
  | f :: fs =>
    match (if f.toList.head? = some '/' then (if w.present f then some f else none) else w.which f) with
    | some p => some p
    | none => findCommand w fs

/-- The loop of `autoconfig_find_first`, base_executor.py:255-259. -/
def collect (w : World) : List (String × List String) → Config → Option Config
  | [], c => some c
  | (k, files) :: m, c =>
    match findCommand w files with
    | none => none
    | some p => collect w m (put c k (.path p))

/-- `autoconfig_run_test`, base_executor.py:262-274. -/
def runTest (w : World) (verbose : Bool) (e : Exec) (c : Config) : Report × List String :=
  let (ok, out) := tryOut w verbose e c
  (if ok then .success c else .failed, out)

/-- `autoconfig_run_test`, gcc_executor.py:105-123. -/
def gccTest (w : World) (verbose : Bool) (e : Exec) (arch : String) (c : Config) : Report × List String :=
  let native := put c arch (.word "native")
  let (ok, out) := tryOut w verbose e native
  if ok then (.success (del native arch), out)
  else
    let generic := put native arch .null
    let (ok, out') := tryOut w verbose e generic
    (if ok then .success generic else .failed, out ++ out')

/-- The loop over the modes in `test_jvm`, java_executor.py:251-265. -/
def tryModes (w : World) (verbose : Bool) (e : Exec) (vm vmPath compiler compilerPath : String) : List String → Report × List String
  | [] => (.failed, [])
  | mode :: modes =>
    let c : Config := [(vm, .path vmPath), (vm ++ "_mode", .word mode), (compiler, .path compilerPath)]
    let (ok, out) := tryOut w verbose e c
    if ok then (.success (if mode = "client" then del c (vm ++ "_mode") else c), out)
    else
      let (r, out') := tryModes w verbose e vm vmPath compiler compilerPath modes
      (r, out ++ out')

/-- `test_jvm`, java_executor.py:241-267. -/
def testJvm (w : World) (verbose : Bool) (e : Exec) (vm compiler path : String) : Report × List String :=
  if w.isFile (path ++ "/bin/java") && w.isFile (path ++ "/bin/javac") then
    tryModes w verbose e vm (path ++ "/bin/java") compiler (path ++ "/bin/javac") ["client", "server", "dcevm", "zero"]
  else (.failed, [])

/-- The loop of `autoconfig`, java_executor.py:183-198; `re.match` of alternatives without special characters. -/
def tryJvms (w : World) (verbose : Bool) (e : Exec) (beginnings : List String) (vm compiler : String) : List String → Report × List String
  | [] => (.failed, [])
  | item :: items =>
    let path := "/usr/lib/jvm/" ++ item
    if !w.isDir path || w.isLink path then tryJvms w verbose e beginnings vm compiler items
    else if beginnings.any fun b => b.toList.isPrefixOf item.toList then
      match testJvm w verbose e vm compiler path with
      | (.success c, out) => (.success c, out)
      | (_, out) =>
        let (r, out') := tryJvms w verbose e beginnings vm compiler items
        (r, out ++ out')
    else tryJvms w verbose e beginnings vm compiler items

/-- `==` of bytes and a text in Python: they are never equal. (java_executor.py:203) -/
def bytesEqualText (_ : Bytes) (_ : String) : Bool := false

/-- `unravel_java`, java_executor.py:200-211: `none` is an exception. What would be done with a script is left out, as it is never reached. -/
def unravel (w : World) (p : String) : Option String :=
  match w.content p with
  | none => none
  | some b => if !bytesEqualText (b.take 2) "#!" then some p else none

/-- `a in b` (GROOVY.py:55) -/
def occurs (a : List Char) : List Char → Bool
  | [] => a.isEmpty
  | x :: r => a.isPrefixOf (x :: r) || occurs a r

/-- `s.split()` of the rest, after the characters `cur` of a word, backwards; white space beyond ASCII is left out. (GROOVY.py:60) -/
def words (cur : List Char) : List Char → List String
  | [] => if cur = [] then [] else [String.ofList cur.reverse]
  | c :: r => if Loader.space c then (if cur = [] then words [] r else String.ofList cur.reverse :: words [] r) else words (c :: cur) r

/-- The last line of the trace with the name of a class, as words. (GROOVY.py:55-60, SCALA.py:61-66) -/
def starter (cls : String) (lines : List (List Char)) : Option (List String) :=
  ((lines.filter fun l => occurs cls.toList l).getLast?).map fun l => words [] (l.dropWhile fun c => c = '+' ∨ c = ' ')

/-- `find_command_from_list([x])` and `unravel_java`; a missing argument and a missing file are exceptions. (GROOVY.py:62, SCALA.py:67) -/
def vmOf (w : World) (x : Option String) : Option String := (x.bind fun f => findCommand w [f]).bind (unravel w)

/-- `autoconfig` of an executor. (base_executor.py:283-284, asm_executor.py:115-119, GROOVY.py:40-67, SCALA.py:46-74, KOTLIN.py:40-50) -/
def autoconfig (w : World) (verbose : Bool) (e : Exec) : Report × List String :=
  match e.how with
  | .first m =>
    match collect w m [] with
    | none => (.failed, [])
    | some c => runTest w verbose e c
  | .gcc command arch files =>
    match collect w [(command, files)] [] with
    | none => (.failed, [])
    | some c => gccTest w verbose e arch c
  | .asm abi m =>
    if !w.traceable abi then (.failed, [])
    else
      match collect w m [] with
      | none => (.failed, [])
      | some c => runTest w verbose e c
  | .jvm beginnings vm compiler => tryJvms w verbose e beginnings vm compiler w.jvms
  | .groovy =>
    match findCommand w ["groovyc"], findCommand w ["groovy"] with
    | some groovyc, some groovy =>
      match w.trace groovy with
      | none => (.raised, [])
      | some lines =>
        match starter "org.codehaus.groovy.tools.GroovyStarter" lines with
        | none => (.failed, [])
        | some cmdline =>
          match vmOf w cmdline[1]? with
          | none => (.raised, [])
          | some vm => runTest w verbose e [("groovyc", .path groovyc), ("groovy_vm", .path vm), ("groovy_args", .args (cmdline.dropLast.drop 2))]
    | _, _ => (.failed, [])
  | .scala =>
    match findCommand w ["scalac"], findCommand w ["scala"] with
    | some scalac, some scala =>
      match w.trace scala with
      | none => (.raised, [])
      | some lines =>
        match starter "scala.tools.nsc.MainGenericRunner" lines with
        | none => (.failed, [])
        | some cmdline =>
          match vmOf w cmdline[0]? with
          | none => (.raised, [])
          | some vm =>
            runTest w verbose e [("scalac", .path scalac), ("scala_vm", .path vm),
              ("scala_args", .args ((cmdline.dropLast.drop 1).filter fun a => !("-Xmx".toList.isPrefixOf a.toList || "-Xms".toList.isPrefixOf a.toList)))]
    | _, _ => (.failed, [])
  | .kotlin =>
    match findCommand w ["kotlinc"], findCommand w ["java"] with
    | some kotlinc, some java =>
      match unravel w java with
      | none => (.raised, [])
      | some vm => runTest w verbose e [("kotlinc", .path kotlinc), ("kotlin_vm", .path vm)]
    | _, _ => (.failed, [])

/-- The loop of `main`, autoconfig.py:31-80: the entries, and what self-tests printed on standard output before them. -/
def loop (w : World) (verbose : Bool) : List Exec → Config → Config × List String
  | [], c => (c, [])
  | e :: es, c =>
    match autoconfig w verbose e with
    | (.success d, out) =>
      let (r, out') := loop w verbose es (update c d)
      (r, out ++ out')
    | (_, out) =>
      let (r, out') := loop w verbose es c
      (r, out ++ out')

/-- `main`, autoconfig.py:17-95, for the executors that could be imported: what is written to standard output, lines and then the configuration as YAML. -/
def autoconf (w : World) (verbose : Bool) (es : List Exec) : Config × List String := loop w verbose es []

end Verif.Autoconf
