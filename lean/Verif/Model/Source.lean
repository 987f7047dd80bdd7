import Verif.Basic
import Verif.Model.JavaClass

/-!
# What becomes of the text of a submission: the `create_files` of all executors

The files that are written into the directory of a submission, and what is looked up in its text before: the package of a Go program
(dmoj/executors/GO.py) and the features of an assembly program (dmoj/executors/asm_executor.py). A byte is the character with its number; `\w` and
`\s` of expressions on text are parameters. The class of a Java program is in `Model/JavaClass.lean`, the translation of Brainf*** in `Model/BF.lean`.
-/

namespace Verif.Source

/-- Text or bytes. (base_executor.py:39-66) -/
abbrev Str := List Char

/-! ## Go -/

/-- `\s` on bytes, and what `bytes.strip` removes. (GO.py:9, 55) -/
def ws (c : Char) : Bool := c ∈ [' ', '\t', '\n', '\r', '\x0b', '\x0c']

/-- `\w` on bytes. (GO.py:9) -/
def wordCh (c : Char) : Bool := ('A' ≤ c && c ≤ 'Z') || ('a' ≤ c && c ≤ 'z') || ('0' ≤ c && c ≤ '9') || c = '_'

/-- `decomment`, GO.py:7-8, 12-13: the expressions are those of the Java executor (java_executor.py:15, 17), on bytes. -/
def decomment (s : Str) : Str := JavaClass.stripLine (JavaClass.stripBlock s)

/-- `bytes.strip` (GO.py:55) -/
def trim (s : Str) : Str := ((s.dropWhile ws).reverse.dropWhile ws).reverse

/-- `repackage.match`, GO.py:9: `\s*package\s+main\b`. Giving back white space never helps, as a letter follows it. -/
def packageMain (l : Str) : Bool :=
  match JavaClass.word "package".toList (l.dropWhile ws) with
  | some (c :: r) =>
    ws c && (match JavaClass.word "main".toList (r.dropWhile ws) with
      | some [] => true
      | some (d :: _) => !wordCh d
      | none => false)
  | _ => false

/-- Whether the Go executor takes a program, GO.py:54-57; otherwise it is a compile error. -/
def goOk (src : Str) : Bool := packageMain ((trim (decomment src)).takeWhile (· ≠ '\n'))

/-! ## Assembly -/

/-- Cutting at the separators, without the empty pieces: `set(filter(None, feature_split(..)))`, asm_executor.py:11, 37. -/
def words (sep : Char → Bool) : Str → List Str
  | [] => []
  | c :: r => if sep c then words sep r else (c :: r.takeWhile (!sep ·)) :: words sep (r.dropWhile (!sep ·))
termination_by s => s.length
decreasing_by
  · simp
  · have := (List.dropWhile_sublist (!sep ·) (l := r)).length_le
    simp only [List.length_cons]; omega

/-- `[\s,]` (asm_executor.py:11) -/
def sepCh (sp : Char → Bool) (c : Char) : Bool := sp c || c = ','

/-- `[\w\s,]` (asm_executor.py:10) -/
def listCh (w sp : Char → Bool) (c : Char) : Bool := w c || sp c || c = ','

/-- `refeatures` at the beginning of a line, asm_executor.py:10, and the names in its group. The white space before the group is of the class of the
group as well, and no part of a name. -/
def featAt (w sp : Char → Bool) : Str → Option (List Str)
  | [] => none
  | c :: r =>
    if c ∈ ['#', ';', '@', '|', '!'] then
      match JavaClass.word "features:".toList (r.dropWhile sp) with
      | some t =>
        match t.takeWhile (listCh w sp) with
        | [] => none
        | g => some (words (sepCh sp) g)
      | none => none
    else none

/-- `refeatures.search` with `re.M`: the first line that has it; `start`: we are at the beginning of a line. (asm_executor.py:10, 34-38) -/
def features (w sp : Char → Bool) (start : Bool) : Str → List Str
  | [] => []
  | c :: r =>
    match (if start then featAt w sp (c :: r) else none) with
    | some f => f
    | none => features w sp (c = '\n') r

/-- `find_features` of NASM (`nasm`) and the others, asm_executor.py:34-38, 147-151, 60: is `libc` among them? -/
def usesLibc (w sp : Char → Bool) (nasm : Bool) (src : Str) : Bool :=
  (features w sp true src).contains "libc".toList || (nasm && "; libc".toList.isPrefixOf src)

/-! ## Zig -/

/-- `replace(b'\r\n', b'\r')` (ZIG.py:26) -/
def crlfToCr : Str → Str
  | [] => []
  | [c] => [c]
  | c :: d :: r => if c = '\r' ∧ d = '\n' then '\r' :: crlfToCr r else c :: crlfToCr (d :: r)

/-- `replace(b'\r', b'\n')` (ZIG.py:26) -/
def crToLf (s : Str) : Str := s.map fun c => if c = '\r' then '\n' else c

/-- ZIG.py:23-27. -/
def zigSource (s : Str) : Str := crToLf (crlfToCr s)

/-! ## The files -/

/-- `self.source_dict[problem_id + self.ext]`, and `.` with the extension if there is no dot in the name: gcc_executor.py:31, 39-40. -/
def gccName (ext name : Str) : Str := if '.' ∈ name then name else name ++ '.' :: ext

/-- The files a program of the GCC executors is made of, in the order of the dictionary: `aux` and then the submission (gcc_executor.py:29-31,
36-43; an auxiliary file with its name is replaced, which is left out). -/
def gccFiles (ext problem : Str) (aux : List (Str × Str)) (src : Str) : List (Str × Str) :=
  (aux ++ (if src = [] then [] else [(problem ++ ext, src)])).map fun f => (gccName ext f.1, f.2)

/-- The ways executors write the submission. (`create_files` of compiled_executor.py:134-137, script_executor.py:32-34, D.py:16, RUST.py:81-90,
java_executor.py:66-72, 215-231, gcc_executor.py:36-43, python_executor.py:38-47, asm_executor.py:28-32, ZIG.py:23-27) -/
inductive Kind where
  | plain
  | d
  | rust
  | javac
  | gcc
  | python
  | asm
  | zig
deriving DecidableEq, Repr

/-- The UTF-8 byte order mark. (python_executor.py:45) -/
def bom : Str := ['\xef', '\xbb', '\xbf']

/-- What is written for the submission itself: the names in its directory, and the contents. A Java program is written twice, as `cls` is the class
that was found (java_executor.py:215-231). (compiled_executor.py:134-137, script_executor.py:32-34,
python_executor.py:38-47, RUST.py:81-90) -/
def written (k : Kind) (ext problem cls src : Str) : List (Str × Str) :=
  match k with
  | .plain => [(problem ++ '.' :: ext, src)]
  | .d => [("main.".toList ++ ext, src)]
  | .rust => [("src/main.rs".toList, src)]
  | .javac => [(problem ++ '.' :: ext, src), (cls ++ ".java".toList, src)]
  | .gcc => gccFiles ext problem [] src
  | .python => [(problem ++ '.' :: ext, bom ++ src)]
  | .asm => [(problem ++ '.' :: ext, src ++ ['\n'])]
  | .zig => [(problem ++ '.' :: ext, zigSource src)]

/-- All executors but BF, which translates the text first and writes it as C: their names, ways and extensions. (executors/*.py, the class attributes
`ext` and the base classes) -/
def table : List (String × Kind × String) :=
  [("ADA", .gcc, "adb"), ("AWK", .plain, "awk"), ("BASH", .plain, "sh"), ("C", .gcc, "c"), ("C11", .gcc, "c"), ("CBL", .plain, "cbl"),
   ("CLANG", .gcc, "c"), ("CLANGX", .gcc, "cpp"), ("COFFEE", .plain, "coffee"), ("CPP03", .gcc, "cpp"), ("CPP11", .gcc, "cpp"),
   ("CPP14", .gcc, "cpp"), ("CPP17", .gcc, "cpp"), ("CPP20", .gcc, "cpp"), ("D", .d, "d"), ("DART", .plain, "dart"), ("F95", .gcc, "f95"),
   ("FORTH", .plain, "fs"), ("GAS32", .asm, "asm"), ("GAS64", .asm, "asm"), ("GASARM", .asm, "asm"), ("GO", .plain, "go"),
   ("GROOVY", .plain, "groovy"), ("HASK", .plain, "hs"), ("ICK", .plain, "i"), ("JAVA10", .javac, "java"), ("JAVA11", .javac, "java"),
   ("JAVA15", .javac, "java"), ("JAVA8", .javac, "java"), ("JAVA9", .javac, "java"), ("KOTLIN", .plain, "kt"), ("LUA", .plain, "lua"),
   ("MONOCS", .plain, "cs"), ("MONOFS", .plain, "fs"), ("MONOVB", .plain, "vb"), ("NASM", .asm, "asm"), ("NASM64", .asm, "asm"),
   ("OBJC", .gcc, "m"), ("OCAML", .plain, "ml"), ("PAS", .plain, "pas"), ("PERL", .plain, "pl"), ("PHP", .plain, "php"),
   ("PIKE", .plain, "pike"), ("PRO", .plain, "pl"), ("PY2", .python, "py"), ("PY3", .python, "py"), ("PYPY", .python, "py"),
   ("PYPY3", .python, "py"), ("RKT", .plain, "rkt"), ("RUBY2", .plain, "rb"), ("RUST", .rust, "rs"), ("SBCL", .plain, "cl"),
   ("SCALA", .plain, "scala"), ("SCM", .plain, "scm"), ("SED", .plain, "sed"), ("SWIFT", .plain, "swift"), ("TCL", .plain, "tcl"),
   ("TEXT", .plain, "txt"), ("TUR", .plain, "t"), ("V8JS", .plain, "js"), ("ZIG", .zig, "zig")]

end Verif.Source
