import Verif.Model.HelperFs
import Verif.Model.Path

/-!
# Files of interpreted programs

What the `get_fs` and `get_write_fs` of single executors add to the common patterns of FsPatterns.lean:

* `ScriptExecutor`: dmoj/executors/script_executor.py:10-30, for AWK, FORTH, LUA, PERL, PHP, PIKE, PRO, SED, TCL, TEXT, V8JS;
* `ShellExecutor`: dmoj/executors/shell_executor.py:8-19, for BASH;
* RUBY2.py:17-27, COFFEE.py:40-41, TUR.py:17-18, java_executor.py:83-87.
-/

namespace Verif.ScriptFs
open Verif.Regex Verif.FsPatterns

/-- Where the source is put: `'{problem_id}.{ext}'` in the directory. (script_executor.py:12, compiled_executor.py:135,
base_executor.py:34) -/
def codeFile (dir problem ext : Str) : Str := Path.join dir (problem ++ '.' :: ext)

/-- What there is to know of an installation: the home directory of the interpreter (`<name>_home`), what is found of the
commands of a shell, and the configured `coffee`. (script_executor.py:26, shell_executor.py:16, COFFEE.py:41) -/
structure Setup where
  home : Option Str
  cmds : List (Option Str)
  coffee : Str

/-- Which `get_fs` it is. (script_executor.py:25, shell_executor.py:18, RUBY2.py:17, COFFEE.py:40) -/
inductive Form where
  | plain
  | shell
  | ruby
  | coffee
deriving DecidableEq

/-- The executors, what their files are called and which `get_fs` they have: `ext` in AWK.py:5, BASH.py:5, COFFEE.py:7, FORTH.py:7, LUA.py:5,
PERL.py:5, PHP.py:6, PIKE.py:6, PRO.py:5, RUBY2.py:8, SED.py:5, TCL.py:7, TEXT.py:5, V8JS.py:5. -/
def scripts : List (String × String × Form) :=
  [("AWK", "awk", .plain), ("BASH", "sh", .shell), ("COFFEE", "coffee", .coffee), ("FORTH", "fs", .plain), ("LUA", "lua", .plain),
   ("PERL", "pl", .plain), ("PHP", "php", .plain), ("PIKE", "pike", .plain), ("PRO", "pl", .plain), ("RUBY2", "rb", .ruby),
   ("SED", "sed", .plain), ("TCL", "tcl", .plain), ("TEXT", "txt", .plain), ("V8JS", "js", .plain)]

/-- `[self._code]`, and the home directory if there is one. (script_executor.py:25-30) -/
def scriptMore (code : Str) (home : Option Str) : List (Option Str) :=
  some code :: match home with
    | none => []
    | some h => [some (escape h)]

/-- The loop of RUBY2.py:24-26; the components are given from the last to the first. -/
def parents : List Str → List Str
  | [] => []
  | c :: l => if c = [] then [] else (escape (Path.joinSlash (c :: l).reverse) ++ ['$']) :: parents l

/-- What RUBY2.py:19-26 adds. -/
def rubyMore : Option Str → List (Option Str)
  | none => []
  | some h => some (escape h) :: (parents (Path.split h).dropLast.reverse).map some

/-- What is added for an executor. (script_executor.py:25-30, shell_executor.py:18-19, RUBY2.py:17-27, COFFEE.py:40-41) -/
def more (f : Form) (s : Setup) (code : Str) : List (Option Str) :=
  scriptMore code s.home ++ match f with
    | .plain => []
    | .shell => s.cmds
    | .ruby => rubyMore s.home
    | .coffee => [some s.coffee, some code]

/-- Turing's byte code (TUR.py:17-18). -/
def turingMore (code : Str) : List (Option Str) := [some (code ++ "bc".toList)]

/-- Java's agent (java_executor.py:83-84). -/
def javaMore (agent : Str) : List (Option Str) := [some agent]

/-- Where the virtual machine writes when it crashes (java_executor.py:86-87). -/
def crashLog (dir : Str) : Str := Path.join dir "submission_jvm_crash.log".toList

end Verif.ScriptFs
