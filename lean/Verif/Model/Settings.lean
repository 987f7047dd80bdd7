/-!
# When settings are read: what the modules of dmoj do while they are imported

A setting read inside a function is the one in force when the function is called. A setting read by the body of a module, or by the
default of a parameter, is the one in force when the module was first imported. The configuration is loaded (judgeenv.py:55-208) after
the entry module and everything it imports.

Modelled: the order in which module bodies run, each once (`sys.modules`), also for circular imports; the reads of `env` and the
copies of the global variables of judgeenv.py they make; `load_env` as one step between; the limits then used by checkers,
generators and interactors. Simplified: an import inside `try` or `if` of a module body counts as made (except for the one of
packet.py:20-21, made by type checkers only); modules outside dmoj are left out; one entry stands for successive reads of the same
key. The table `body` was taken from the sources by a script reading their syntax trees.
-/

namespace Verif.Settings

/-- A value of YAML: null, a number, or something else (told apart by a number). (judgeenv.py:16-41) -/
inductive Value
  | null
  | int (n : Int)
  | other (n : Nat)
  deriving DecidableEq, Repr

/-- The mapping inside `env`, or in a configuration file. (judgeenv.py:16-41, config.py:47-54) -/
abbrev Map := List (String × Value)

/-- `d[k]`, or nothing. (config.py:86-120) -/
def Map.look (d : Map) (k : String) : Option Value :=
  (d.find? fun e => e.1 = k).map (·.2)

/-- `d.update(e)` (config.py:59-63): the entries of `e` come first. -/
def Map.update (d e : Map) : Map :=
  e ++ d

/-- `env[k]`; null and a missing key are both `None`. (config.py:86-120; `env` has no parent and is not dynamic) -/
def Map.get (d : Map) (k : String) : Option Value :=
  match d.look k with
  | some .null => none
  | v => v

/-- The defaults, judgeenv.py:17-39; `other 0` is an empty mapping, `other 1` an empty list. -/
def defaults : Map :=
  [("selftest_time_limit", .int 10), ("selftest_memory_limit", .int 131072),
   ("generator_compiler_time_limit", .int 30), ("generator_time_limit", .int 20),
   ("generator_memory_limit", .int 524288), ("compiler_time_limit", .int 10),
   ("compiler_size_limit", .int 131072), ("compiler_output_character_limit", .int 65536),
   ("compiled_binary_cache_dir", .null), ("compiled_binary_cache_size", .int 100),
   ("runtime", .other 0), ("extra_fs", .other 0), ("update_pings", .other 1), ("tempdir", .null)]

/-- The modules of dmoj: the files of /repo/dmoj, tests and the `__main__` files left out. A dot is an underscore here. -/
inductive Mod
  | dmoj | checkers | checkers__checker | checkers_bridged | checkers_easy | checkers_floats
  | checkers_floatsabs | checkers_floatsrel | checkers_identical | checkers_linecount
  | checkers_rstripped | checkers_sorted | checkers_standard | checkers_unordered | cli
  | commands | commands_base_command | commands_diff | commands_help | commands_problems
  | commands_quit | commands_rejudge | commands_resubmit | commands_show | commands_submissions
  | commands_submit | config | contrib | contrib_coci | contrib_default | contrib_peg
  | contrib_testlib | control | cptbox | cptbox__cptbox | cptbox_handlers | cptbox_isolate
  | cptbox_syscalls | cptbox_tracer | error | executors | executors_ADA | executors_AWK
  | executors_BASH | executors_BF | executors_C | executors_C11 | executors_CBL | executors_CLANG
  | executors_CLANGX | executors_COFFEE | executors_CPP03 | executors_CPP11 | executors_CPP14
  | executors_CPP17 | executors_CPP20 | executors_D | executors_DART | executors_F95
  | executors_FORTH | executors_GAS32 | executors_GAS64 | executors_GASARM | executors_GO
  | executors_GROOVY | executors_HASK | executors_ICK | executors_JAVA10 | executors_JAVA11
  | executors_JAVA15 | executors_JAVA8 | executors_JAVA9 | executors_KOTLIN | executors_LUA
  | executors_MONOCS | executors_MONOFS | executors_MONOVB | executors_NASM | executors_NASM64
  | executors_OBJC | executors_OCAML | executors_PAS | executors_PERL | executors_PHP
  | executors_PIKE | executors_PRO | executors_PY2 | executors_PY3 | executors_PYPY
  | executors_PYPY3 | executors_RKT | executors_RUBY2 | executors_RUST | executors_SBCL
  | executors_SCALA | executors_SCM | executors_SED | executors_SWIFT | executors_TCL
  | executors_TEXT | executors_TUR | executors_V8JS | executors_ZIG | executors_asm_executor
  | executors_autoconfig | executors_base_executor | executors_clang_executor
  | executors_compiled_executor | executors_gcc_executor | executors_java_executor
  | executors_mixins | executors_mono_executor | executors_python_executor
  | executors_script_executor | executors_shell_executor | generator | graders | graders_base
  | graders_bridged | graders_custom | graders_interactive | graders_signature | graders_standard
  | judge | judgeenv | main | monitor | packet | problem | result | sysinfo | testsuite | utils
  | utils_ansi | utils_builtin_int_patch | utils_communicate | utils_error | utils_helper_files
  | utils_load | utils_module | utils_os_ext | utils_pyyaml_patch | utils_unicode
  deriving DecidableEq, Repr

/-- What a module body does, as far as it matters here: import another module, copy a global variable of judgeenv.py
(`from dmoj.judgeenv import ..`), read a setting. (all of /repo/dmoj) -/
inductive Step
  | imp (m : Mod)
  | bind (x : String)
  | read (k : String)
  deriving DecidableEq, Repr

/-- All of them. (/repo/dmoj) -/
def allMods : List Mod :=
  [.dmoj, .checkers, .checkers__checker, .checkers_bridged, .checkers_easy, .checkers_floats,
   .checkers_floatsabs, .checkers_floatsrel, .checkers_identical, .checkers_linecount,
   .checkers_rstripped, .checkers_sorted, .checkers_standard, .checkers_unordered, .cli,
   .commands, .commands_base_command, .commands_diff, .commands_help, .commands_problems,
   .commands_quit, .commands_rejudge, .commands_resubmit, .commands_show, .commands_submissions,
   .commands_submit, .config, .contrib, .contrib_coci, .contrib_default, .contrib_peg,
   .contrib_testlib, .control, .cptbox, .cptbox__cptbox, .cptbox_handlers, .cptbox_isolate,
   .cptbox_syscalls, .cptbox_tracer, .error, .executors, .executors_ADA, .executors_AWK,
   .executors_BASH, .executors_BF, .executors_C, .executors_C11, .executors_CBL,
   .executors_CLANG, .executors_CLANGX, .executors_COFFEE, .executors_CPP03, .executors_CPP11,
   .executors_CPP14, .executors_CPP17, .executors_CPP20, .executors_D, .executors_DART,
   .executors_F95, .executors_FORTH, .executors_GAS32, .executors_GAS64, .executors_GASARM,
   .executors_GO, .executors_GROOVY, .executors_HASK, .executors_ICK, .executors_JAVA10,
   .executors_JAVA11, .executors_JAVA15, .executors_JAVA8, .executors_JAVA9, .executors_KOTLIN,
   .executors_LUA, .executors_MONOCS, .executors_MONOFS, .executors_MONOVB, .executors_NASM,
   .executors_NASM64, .executors_OBJC, .executors_OCAML, .executors_PAS, .executors_PERL,
   .executors_PHP, .executors_PIKE, .executors_PRO, .executors_PY2, .executors_PY3,
   .executors_PYPY, .executors_PYPY3, .executors_RKT, .executors_RUBY2, .executors_RUST,
   .executors_SBCL, .executors_SCALA, .executors_SCM, .executors_SED, .executors_SWIFT,
   .executors_TCL, .executors_TEXT, .executors_TUR, .executors_V8JS, .executors_ZIG,
   .executors_asm_executor, .executors_autoconfig, .executors_base_executor,
   .executors_clang_executor, .executors_compiled_executor, .executors_gcc_executor,
   .executors_java_executor, .executors_mixins, .executors_mono_executor,
   .executors_python_executor, .executors_script_executor, .executors_shell_executor,
   .generator, .graders, .graders_base, .graders_bridged, .graders_custom, .graders_interactive,
   .graders_signature, .graders_standard, .judge, .judgeenv, .main, .monitor, .packet, .problem,
   .result, .sysinfo, .testsuite, .utils, .utils_ansi, .utils_builtin_int_patch,
   .utils_communicate, .utils_error, .utils_helper_files, .utils_load, .utils_module,
   .utils_os_ext, .utils_pyyaml_patch, .utils_unicode]

/-- The body of every module, from top to bottom: the settings read are those of checkers/bridged.py:32-34,
executors/base_executor.py:27-32, executors/compiled_executor.py:38,116-117, executors/gcc_executor.py:11-13,
executors/asm_executor.py:174-195 and executors/GASARM.py:13-16; the variables copied those of checkers/bridged.py:7,
executors/__init__.py:5, executors/base_executor.py:13, executors/compiled_executor.py:14, executors/mixins.py:11,
executors/gcc_executor.py:8, executors/asm_executor.py:7, executors/java_executor.py:12, executors/GASARM.py:3,
executors/OBJC.py:5, executors/TUR.py:4, graders/bridged.py:8, graders/custom.py:3, judge.py:18, monitor.py:7, packet.py:16,
problem.py:16, testsuite.py:11. -/
def body : Mod → List Step
  | .checkers => [.imp .dmoj, .imp .checkers_bridged, .imp .checkers_easy, .imp .checkers_floats,
      .imp .checkers_floatsabs, .imp .checkers_floatsrel, .imp .checkers_identical,
      .imp .checkers_linecount, .imp .checkers_rstripped, .imp .checkers_sorted,
      .imp .checkers_standard, .imp .checkers_unordered]
  | .checkers_bridged => [.imp .dmoj, .imp .contrib, .imp .error, .imp .judgeenv, .bind "env",
      .bind "get_problem_root", .imp .result, .imp .utils, .imp .utils_helper_files,
      .imp .utils_unicode, .read "generator_time_limit", .read "generator_memory_limit",
      .read "generator_compiler_limit"]
  | .checkers_easy => [.imp .dmoj, .imp .utils, .imp .utils_unicode]
  | .checkers_floats => [.imp .dmoj, .imp .error, .imp .utils, .imp .utils_unicode]
  | .checkers_floatsabs => [.imp .dmoj, .imp .checkers, .imp .checkers_floats]
  | .checkers_floatsrel => [.imp .dmoj, .imp .checkers, .imp .checkers_floats]
  | .checkers_identical => [.imp .dmoj, .imp .checkers, .imp .checkers__checker, .imp .result,
      .imp .utils, .imp .utils_unicode]
  | .checkers_linecount => [.imp .dmoj, .imp .result, .imp .utils, .imp .utils_unicode]
  | .checkers_rstripped => [.imp .dmoj, .imp .utils, .imp .utils_unicode]
  | .checkers_sorted => [.imp .dmoj, .imp .error, .imp .utils, .imp .utils_unicode]
  | .checkers_standard => [.imp .dmoj, .imp .checkers, .imp .checkers__checker, .imp .utils,
      .imp .utils_unicode]
  | .checkers_unordered => [.imp .dmoj, .imp .checkers, .imp .checkers_sorted]
  | .cli => [.imp .dmoj, .imp .error, .imp .judge, .imp .packet, .imp .utils, .imp .utils_ansi]
  | .commands => [.imp .dmoj, .imp .commands_base_command, .imp .commands_diff,
      .imp .commands_help, .imp .commands_problems, .imp .commands_quit, .imp .commands_rejudge,
      .imp .commands_resubmit, .imp .commands_show, .imp .commands_submissions,
      .imp .commands_submit]
  | .commands_base_command => [.imp .dmoj, .imp .error, .imp .executors, .imp .utils,
      .imp .utils_ansi]
  | .commands_diff => [.imp .dmoj, .imp .commands, .imp .commands_base_command]
  | .commands_help => [.imp .dmoj, .imp .commands, .imp .commands_base_command]
  | .commands_problems => [.imp .dmoj, .imp .judgeenv, .imp .commands,
      .imp .commands_base_command, .imp .error]
  | .commands_quit => [.imp .dmoj, .imp .commands, .imp .commands_base_command]
  | .commands_rejudge => [.imp .dmoj, .imp .commands, .imp .commands_base_command, .imp .judge]
  | .commands_resubmit => [.imp .dmoj, .imp .judgeenv, .imp .commands,
      .imp .commands_base_command, .imp .error, .imp .executors, .imp .judge]
  | .commands_show => [.imp .dmoj, .imp .commands, .imp .commands_base_command]
  | .commands_submissions => [.imp .dmoj, .imp .commands, .imp .commands_base_command,
      .imp .error, .imp .utils, .imp .utils_ansi]
  | .commands_submit => [.imp .dmoj, .imp .judgeenv, .imp .commands, .imp .commands_base_command,
      .imp .error, .imp .executors, .imp .judge]
  | .contrib => [.imp .dmoj, .imp .utils, .imp .utils_load]
  | .contrib_coci => [.imp .dmoj, .imp .contrib, .imp .contrib_testlib, .imp .error, .imp .result]
  | .contrib_default => [.imp .dmoj, .imp .result, .imp .utils, .imp .utils_helper_files]
  | .contrib_peg => [.imp .dmoj, .imp .contrib, .imp .contrib_default, .imp .result, .imp .utils,
      .imp .utils_helper_files]
  | .contrib_testlib => [.imp .dmoj, .imp .contrib, .imp .contrib_default, .imp .error,
      .imp .result, .imp .utils, .imp .utils_helper_files]
  | .cptbox => [.imp .dmoj, .imp .cptbox__cptbox, .imp .cptbox_handlers, .imp .cptbox_isolate,
      .imp .cptbox_syscalls, .imp .cptbox_tracer]
  | .cptbox_isolate => [.imp .dmoj, .imp .cptbox, .imp .cptbox__cptbox, .imp .cptbox_tracer,
      .imp .cptbox_handlers, .imp .cptbox_syscalls, .imp .utils, .imp .utils_unicode]
  | .cptbox_tracer => [.imp .dmoj, .imp .cptbox, .imp .cptbox__cptbox, .imp .cptbox_handlers,
      .imp .cptbox_syscalls, .imp .utils, .imp .utils_communicate, .imp .utils_os_ext,
      .imp .utils_unicode]
  | .error => [.imp .dmoj, .imp .utils, .imp .utils_unicode]
  | .executors => [.imp .dmoj, .imp .judgeenv, .bind "exclude_executors", .bind "only_executors",
      .imp .utils, .imp .utils_load]
  | .executors_ADA => [.imp .dmoj, .imp .executors, .imp .executors_gcc_executor]
  | .executors_AWK => [.imp .dmoj, .imp .executors, .imp .executors_script_executor]
  | .executors_BASH => [.imp .dmoj, .imp .executors, .imp .executors_shell_executor]
  | .executors_BF => [.imp .dmoj, .imp .error, .imp .executors, .imp .executors_C]
  | .executors_C => [.imp .dmoj, .imp .executors, .imp .executors_gcc_executor]
  | .executors_C11 => [.imp .dmoj, .imp .executors, .imp .executors_gcc_executor]
  | .executors_CBL => [.imp .dmoj, .imp .executors, .imp .executors_compiled_executor]
  | .executors_CLANG => [.imp .dmoj, .imp .executors, .imp .executors_C,
      .imp .executors_clang_executor]
  | .executors_CLANGX => [.imp .dmoj, .imp .executors, .imp .executors_CPP11,
      .imp .executors_clang_executor]
  | .executors_COFFEE => [.imp .dmoj, .imp .executors, .imp .executors_script_executor]
  | .executors_CPP03 => [.imp .dmoj, .imp .executors, .imp .executors_gcc_executor]
  | .executors_CPP11 => [.imp .dmoj, .imp .executors, .imp .executors_CPP03]
  | .executors_CPP14 => [.imp .dmoj, .imp .executors, .imp .executors_CPP03]
  | .executors_CPP17 => [.imp .dmoj, .imp .executors, .imp .executors_CPP03]
  | .executors_CPP20 => [.imp .dmoj, .imp .executors, .imp .executors_CPP03]
  | .executors_D => [.imp .dmoj, .imp .executors, .imp .executors_compiled_executor]
  | .executors_DART => [.imp .dmoj, .imp .executors, .imp .executors_compiled_executor]
  | .executors_F95 => [.imp .dmoj, .imp .executors, .imp .executors_gcc_executor]
  | .executors_FORTH => [.imp .dmoj, .imp .executors, .imp .executors_script_executor]
  | .executors_GAS32 => [.imp .dmoj, .imp .executors, .imp .executors_asm_executor]
  | .executors_GAS64 => [.imp .dmoj, .imp .executors, .imp .executors_asm_executor]
  | .executors_GASARM => [.imp .dmoj, .imp .cptbox, .imp .executors,
      .imp .executors_asm_executor, .imp .judgeenv, .bind "env", .read "runtime"]
  | .executors_GO => [.imp .dmoj, .imp .error, .imp .executors, .imp .executors_compiled_executor]
  | .executors_GROOVY => [.imp .dmoj, .imp .executors, .imp .executors_java_executor,
      .imp .utils, .imp .utils_unicode]
  | .executors_HASK => [.imp .dmoj, .imp .executors, .imp .executors_compiled_executor,
      .imp .executors_mixins]
  | .executors_ICK => [.imp .dmoj, .imp .executors, .imp .executors_compiled_executor]
  | .executors_JAVA10 => [.imp .dmoj, .imp .executors, .imp .executors_java_executor]
  | .executors_JAVA11 => [.imp .dmoj, .imp .executors, .imp .executors_java_executor]
  | .executors_JAVA15 => [.imp .dmoj, .imp .executors, .imp .executors_java_executor]
  | .executors_JAVA8 => [.imp .dmoj, .imp .executors, .imp .executors_java_executor]
  | .executors_JAVA9 => [.imp .dmoj, .imp .executors, .imp .executors_java_executor]
  | .executors_KOTLIN => [.imp .dmoj, .imp .executors, .imp .executors_java_executor]
  | .executors_LUA => [.imp .dmoj, .imp .executors, .imp .executors_script_executor]
  | .executors_MONOCS => [.imp .dmoj, .imp .executors, .imp .executors_mono_executor]
  | .executors_MONOFS => [.imp .dmoj, .imp .executors, .imp .executors_mono_executor]
  | .executors_MONOVB => [.imp .dmoj, .imp .executors, .imp .executors_mono_executor]
  | .executors_NASM => [.imp .dmoj, .imp .executors, .imp .executors_asm_executor]
  | .executors_NASM64 => [.imp .dmoj, .imp .executors, .imp .executors_asm_executor]
  | .executors_OBJC => [.imp .dmoj, .imp .judgeenv, .bind "env", .imp .executors,
      .imp .executors_gcc_executor]
  | .executors_OCAML => [.imp .dmoj, .imp .executors, .imp .executors_compiled_executor]
  | .executors_PAS => [.imp .dmoj, .imp .executors, .imp .executors_compiled_executor,
      .imp .executors_mixins]
  | .executors_PERL => [.imp .dmoj, .imp .executors, .imp .executors_script_executor]
  | .executors_PHP => [.imp .dmoj, .imp .executors, .imp .executors_script_executor]
  | .executors_PIKE => [.imp .dmoj, .imp .cptbox, .imp .cptbox_handlers, .imp .executors,
      .imp .executors_script_executor]
  | .executors_PRO => [.imp .dmoj, .imp .executors, .imp .executors_script_executor]
  | .executors_PY2 => [.imp .dmoj, .imp .executors, .imp .executors_python_executor]
  | .executors_PY3 => [.imp .dmoj, .imp .executors, .imp .executors_python_executor]
  | .executors_PYPY => [.imp .dmoj, .imp .executors, .imp .executors_python_executor]
  | .executors_PYPY3 => [.imp .dmoj, .imp .executors, .imp .executors_PYPY]
  | .executors_RKT => [.imp .dmoj, .imp .executors, .imp .executors_compiled_executor]
  | .executors_RUBY2 => [.imp .dmoj, .imp .executors, .imp .executors_script_executor]
  | .executors_RUST => [.imp .dmoj, .imp .executors, .imp .executors_compiled_executor,
      .imp .utils, .imp .utils_os_ext]
  | .executors_SBCL => [.imp .dmoj, .imp .executors, .imp .executors_compiled_executor,
      .imp .executors_mixins]
  | .executors_SCALA => [.imp .dmoj, .imp .executors, .imp .executors_java_executor, .imp .utils,
      .imp .utils_unicode]
  | .executors_SCM => [.imp .dmoj, .imp .executors, .imp .executors_compiled_executor]
  | .executors_SED => [.imp .dmoj, .imp .executors, .imp .executors_script_executor]
  | .executors_SWIFT => [.imp .dmoj, .imp .executors, .imp .executors_compiled_executor]
  | .executors_TCL => [.imp .dmoj, .imp .executors, .imp .executors_script_executor]
  | .executors_TEXT => [.imp .dmoj, .imp .executors, .imp .executors_script_executor]
  | .executors_TUR => [.imp .dmoj, .imp .executors, .imp .executors_compiled_executor,
      .imp .judgeenv, .bind "env"]
  | .executors_V8JS => [.imp .dmoj, .imp .executors, .imp .executors_script_executor]
  | .executors_ZIG => [.imp .dmoj, .imp .executors, .imp .executors_compiled_executor]
  | .executors_asm_executor => [.imp .dmoj, .imp .cptbox, .imp .executors,
      .imp .executors_compiled_executor, .imp .judgeenv, .bind "env", .bind "skip_self_test",
      .imp .utils, .imp .utils_unicode, .read "runtime"]
  | .executors_autoconfig => [.imp .dmoj, .imp .judgeenv, .imp .executors,
      .imp .executors_mixins, .imp .utils, .imp .utils_ansi]
  | .executors_base_executor => [.imp .dmoj, .imp .executors, .imp .executors_mixins,
      .imp .judgeenv, .bind "env", .bind "skip_self_test", .imp .result, .imp .utils,
      .imp .utils_ansi, .imp .utils_error, .imp .utils_unicode, .read "runtime",
      .read "selftest_time_limit", .read "selftest_memory_limit"]
  | .executors_clang_executor => [.imp .dmoj, .imp .executors, .imp .executors_gcc_executor]
  | .executors_compiled_executor => [.imp .dmoj, .imp .error, .imp .judgeenv, .bind "env",
      .imp .utils, .imp .utils_communicate, .imp .utils_unicode, .imp .executors,
      .imp .executors_base_executor, .read "compiled_binary_cache_size",
      .read "compiler_size_limit", .read "compiler_time_limit"]
  | .executors_gcc_executor => [.imp .dmoj, .imp .executors, .imp .executors_compiled_executor,
      .imp .executors_mixins, .imp .judgeenv, .bind "env", .imp .utils, .imp .utils_unicode,
      .read "runtime"]
  | .executors_java_executor => [.imp .dmoj, .imp .error, .imp .executors,
      .imp .executors_compiled_executor, .imp .executors_mixins, .imp .judgeenv,
      .bind "skip_self_test", .imp .utils, .imp .utils_unicode]
  | .executors_mixins => [.imp .dmoj, .imp .cptbox, .imp .cptbox_syscalls, .imp .cptbox_handlers,
      .imp .error, .imp .judgeenv, .bind "env", .imp .utils, .imp .utils_unicode]
  | .executors_mono_executor => [.imp .dmoj, .imp .cptbox, .imp .cptbox_handlers,
      .imp .executors, .imp .executors_compiled_executor, .imp .result, .imp .utils,
      .imp .utils_unicode]
  | .executors_python_executor => [.imp .dmoj, .imp .executors,
      .imp .executors_compiled_executor, .imp .utils, .imp .utils_unicode]
  | .executors_script_executor => [.imp .dmoj, .imp .executors, .imp .executors_base_executor,
      .imp .utils, .imp .utils_unicode]
  | .executors_shell_executor => [.imp .dmoj, .imp .executors, .imp .executors_script_executor]
  | .generator => [.imp .dmoj, .imp .utils, .imp .utils_helper_files]
  | .graders => [.imp .dmoj, .imp .graders_bridged, .imp .graders_custom,
      .imp .graders_interactive, .imp .graders_signature, .imp .graders_standard]
  | .graders_base => [.imp .dmoj, .imp .problem, .imp .utils, .imp .utils_unicode]
  | .graders_bridged => [.imp .dmoj, .imp .contrib, .imp .error, .imp .graders,
      .imp .graders_standard, .imp .judgeenv, .bind "env", .bind "get_problem_root", .imp .utils,
      .imp .utils_helper_files, .imp .utils_unicode]
  | .graders_custom => [.imp .dmoj, .imp .judgeenv, .bind "get_problem_root", .imp .utils,
      .imp .utils_module]
  | .graders_interactive => [.imp .dmoj, .imp .graders, .imp .graders_standard, .imp .result,
      .imp .utils, .imp .utils_unicode]
  | .graders_signature => [.imp .dmoj, .imp .error, .imp .executors, .imp .graders,
      .imp .graders_standard, .imp .utils, .imp .utils_unicode]
  | .graders_standard => [.imp .dmoj, .imp .error, .imp .executors, .imp .graders,
      .imp .graders_base, .imp .result]
  | .judge => [.imp .dmoj, .imp .packet, .imp .control, .imp .error, .imp .judgeenv,
      .bind "clear_problem_dirs_cache", .bind "env", .bind "get_supported_problems",
      .bind "startup_warnings", .imp .monitor, .imp .problem, .imp .result, .imp .utils,
      .imp .utils_builtin_int_patch, .imp .utils_ansi, .imp .utils_unicode]
  | .judgeenv => [.imp .dmoj, .imp .config, .imp .utils, .imp .utils_pyyaml_patch,
      .imp .utils_unicode]
  | .main => [.imp .dmoj, .imp .judge]
  | .monitor => [.imp .dmoj, .imp .judgeenv, .bind "get_problem_watches",
      .bind "startup_warnings", .imp .utils, .imp .utils_ansi]
  | .packet => [.imp .dmoj, .imp .sysinfo, .imp .judgeenv, .bind "get_runtime_versions",
      .bind "get_supported_problems", .imp .result, .imp .utils, .imp .utils_unicode]
  | .problem => [.imp .dmoj, .imp .checkers, .imp .config, .imp .generator, .imp .judgeenv,
      .bind "env", .bind "get_problem_root", .imp .utils, .imp .utils_helper_files,
      .imp .utils_module]
  | .result => [.imp .dmoj, .imp .utils, .imp .utils_error, .imp .utils_os_ext,
      .imp .utils_unicode]
  | .testsuite => [.imp .dmoj, .imp .contrib, .imp .executors, .imp .judgeenv, .imp .judge,
      .bind "get_problem_root", .bind "get_supported_problems", .imp .packet, .imp .utils,
      .imp .utils_ansi]
  | .utils_communicate => [.imp .dmoj, .imp .error]
  | .utils_helper_files => [.imp .dmoj, .imp .error, .imp .result, .imp .utils,
      .imp .utils_os_ext]
  | .utils_os_ext => [.imp .dmoj, .imp .utils, .imp .utils_unicode]
  | _ => []

/-- The global variables of judgeenv.py after its body has run: null for `None`, `other` for the rest (2: `False`, 3: an empty
tuple, 4: an empty list to be replaced; 10 and more: an object that stays the same one, changed in place by `env.update`, `|=` and
`append`, and functions). (judgeenv.py:14-52) -/
def vars0 : Map :=
  [("problem_dirs", .other 3), ("problem_watches", .other 3), ("log_file", .null), ("server_host", .null), ("server_port", .null),
   ("no_ansi", .null), ("skip_self_test", .null), ("no_watchdog", .null), ("problem_regex", .null), ("case_regex", .null),
   ("cli_history_file", .null), ("cert_store", .null), ("api_listen", .null), ("secure", .other 2), ("no_cert_check", .other 2),
   ("cli_command", .other 4), ("env", .other 10), ("startup_warnings", .other 11), ("only_executors", .other 12),
   ("exclude_executors", .other 13), ("clear_problem_dirs_cache", .other 14), ("get_problem_root", .other 15),
   ("get_problem_roots", .other 16), ("get_problem_watches", .other 17), ("get_supported_problems", .other 18),
   ("get_runtime_versions", .other 19)]

/-- The variables `load_env` gives a new value. (judgeenv.py:120-138, 145, 150, 163, 180-193, 198-207) -/
def assigned : List String :=
  ["server_host", "server_port", "cli_command", "cli_history_file", "no_ansi", "skip_self_test", "no_watchdog", "api_listen",
   "secure", "no_cert_check", "cert_store", "log_file", "problem_dirs", "problem_watches", "problem_regex", "case_regex"]

/-- The process: the settings and the variables of judgeenv.py now, the modules whose body was begun, what was read by them and
what copied, each with the value at that time. (judgeenv.py:14-52) -/
structure World where
  settings : Map
  vars : Map
  begun : List Mod
  reads : List (Mod × String × Option Value)
  copies : List (Mod × String × Option Value)
  deriving DecidableEq, Repr

/-- Import a module: nothing if its body was begun before, else run it. `none`: the number of nested imports was not enough
(`load_total`: never with that of `load`). (the import system of Python) -/
def exec : Nat → World → Mod → Option World
  | 0, _, _ => none
  | n + 1, w, m =>
    if m ∈ w.begun then some w
    else (body m).foldlM (fun w s => match s with
      | .imp m' => exec n w m'
      | .bind x => some { w with copies := (m, x, w.vars.look x) :: w.copies }
      | .read k => some { w with reads := (m, k, w.settings.get k) :: w.reads }) { w with begun := m :: w.begun }

/-- `import m` (the import system of Python) -/
def load (w : World) (m : Mod) : Option World :=
  exec (allMods.length + 1) w m

/-- `dmoj` (setup.py, judge.py:567-), `dmoj-cli` (cli.py:70-), the test suite (testsuite.py:277-). -/
inductive Program
  | judge
  | cli
  | testsuite
  deriving DecidableEq, Repr

/-- What is imported before `load_env`: the entry module, what `sanity_check` tries, and what the entry function names.
(judge.py:543-574, cli.py:74-76, testsuite.py:1-18) -/
def entry : Program → List Mod
  | .judge => [.judge, .checkers__checker, .judgeenv, .contrib, .executors]
  | .cli => [.cli, .judgeenv, .contrib, .executors]
  | .testsuite => [.testsuite]

/-- Before anything was imported. (judgeenv.py:14-52; nothing can look at them before the body of judgeenv.py has run) -/
def fresh : World :=
  ⟨defaults, vars0, [], [], []⟩

/-- `load_env`: the documents in order (the one of the docker image and the one of the configuration), and the variables as
the command line says. (judgeenv.py:118-207) -/
def loadEnv (docs : List Map) (vars : Map) (w : World) : World :=
  { w with settings := docs.foldl Map.update w.settings
           vars := w.vars.update (vars.filter fun e => e.1 ∈ assigned) }

/-- The whole life of the program: entry, `load_env`, and then whatever is imported later: the executors asked for
(executors/__init__.py), the contrib modules, the graders, helpers. (judge.py:567-, cli.py:74-, testsuite.py:277-) -/
def run (p : Program) (docs : List Map) (vars : Map) (later : List Mod) : Option World := do
  let w ← (entry p).foldlM load fresh
  later.foldlM load (loadEnv docs vars w)

/-- What a module found when it read a setting: the latest, if any. (the import system of Python) -/
def World.found (w : World) (m : Mod) (k : String) : Option Value :=
  ((w.reads.find? fun r => r.1 = m ∧ r.2.1 = k).map (·.2.2)).join

/-- A limit in force: zero and `None` are none. (compiled_executor.py:69-81, tracer.py:85-102) -/
def limit : Option Value → Option Int
  | some (.int n) => if n = 0 then none else some n
  | _ => none

/-- `a or b` for two values of YAML. (problem.py:286-288) -/
def orElse (a b : Option Value) : Option Value :=
  match a with
  | none => b
  | some .null => b
  | some (.int n) => if n = 0 then b else a
  | some (.other n) => if n = 0 ∨ n = 1 then b else a

/-- Time (seconds) and memory (kilobytes) to run within, and time to compile within. (helper_files.py:18-61) -/
structure Limits where
  time : Option Int
  memory : Option Int
  compile : Option Int
  deriving DecidableEq, Repr

/-- A bridged checker, with the keys the problem gives as `args`: a key that is there replaces the default of the parameter,
even when it is null. The defaults were computed when checkers/bridged.py was imported. (checkers/bridged.py:25-59,
problem.py:355-372) -/
def checkerLimits (w : World) (args : Map) : Limits :=
  let param (name key : String) : Option Value := match args.look name with
    | some v => some v
    | none => w.found .checkers_bridged key
  { time := limit (param "time_limit" "generator_time_limit")
    memory := limit (param "memory_limit" "generator_memory_limit")
    compile := limit (param "compiler_time_limit" "generator_compiler_limit") }

/-- A generator, with the keys of its mapping in the problem. (problem.py:258-288) -/
def generatorLimits (w : World) (gen : Map) : Limits :=
  { time := limit (orElse (gen.get "time_limit") (w.settings.get "generator_time_limit"))
    memory := limit (orElse (gen.get "memory_limit") (w.settings.get "generator_memory_limit"))
    compile := limit (orElse (gen.get "compiler_time_limit") (w.settings.get "generator_compiler_time_limit")) }

/-- A bridged interactor, with the keys of `interactive`: its time is that of the problem plus two seconds or what is asked for.
Whole seconds here. (graders/bridged.py:58-59, 103-110) -/
def interactorLimits (w : World) (data : Map) (problem : Int) : Limits :=
  { time := limit (match orElse (data.get "preprocessing_time") (some (.int 2)) with
      | some (.int n) => some (.int (n + problem))
      | v => v)
    memory := limit (orElse (data.get "memory_limit") (w.settings.get "generator_memory_limit"))
    compile := limit (data.get "compiler_time_limit") }

/-- A submission: what compiled_executor.py:117 read. -/
def submissionCompileLimit (w : World) : Option Int :=
  limit (w.found .executors_compiled_executor "compiler_time_limit")

end Verif.Settings
