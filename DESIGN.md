# Formal model of DMOJ/judge: design

## Approach

`/repo` is read as text.  Each piece of judge logic is transcribed, branch by branch, as a small total computable Lean 4
function, or as a labelled transition system where threads, processes, the kernel or the user act.  Properties are stated
against small separate specifications (`Verif/Spec/*`) or in terms of observable effects, not against model helpers, and
are proved for all inputs and all executions: by induction, invariants and refinement.  Bounded exploration is used
nowhere; the finite tables of the repository (syscall tables, policies, display order, file patterns) are checked whole by
`decide +kernel` and lifted to all numbers, situations and paths by lemmas.

Layout of `/verif/lean`:

* `Verif/Model/*.lean`  transcription of the code; every definition cites `/repo` file and lines and any simplification
* `Verif/Spec/*.lean`   independent specifications used in the statements
* `Verif/Lemmas/*.lean` helper lemmas
* `Verif/Props/*.lean`  property theorems (named `Cnn_...`) and, beside them, `example`s showing that concrete non-trivial cases meet the hypotheses

Other files: `properties.jsonl` (the properties), `MANIFEST.json` (status and theorem names of each),
`seeded/LOG.jsonl` (mutation tests: which edits of the model make which theorems fail, and which theorems were tightened
because an edit survived). The theorems listed as failed by an edit are those whose own proof broke, and those that use a helper
lemma whose proof broke; helpers are told by name without their namespace, among the modules that import the edited one, so that a list may
contain theorems too many, but an edit is never counted as caught without a broken proof. A sentence of the form "(mechanical sweep)" marks edits
made by a script; of these only the proofs that broke themselves are listed.

Conventions: bytes are `UInt8`, byte strings `List UInt8`; paths and names are `List Char`; Python exceptions are values
(`Except`, `Option` or an inductive type of outcomes); external things (processes, file system, clock, scheduler, kernel,
zlib, json, float parsing) are parameters or nondeterministic transitions, so a theorem holds whatever they do within
the stated assumptions.

Where the code violates a natural property, the violation is proved with a concrete witness (`..._fails`) and what does
hold is proved beside it, as `..._partial` when it is weaker than the statement in `properties.jsonl`.  A property with
such a theorem has status `partial`, however much else about it is proved.

## Trusted base

* The Lean 4.33.0 kernel.  `decide +kernel` only asks the kernel to evaluate.
* Axioms: at most `propext` (p), `Classical.choice` (c) and `Quot.sound` (q).  The letters behind each theorem below are the axioms it depends on, as computed by `Lean.collectAxioms`; "-" means none.  No own axioms, no `sorry`/`admit`, no `native_decide`/`bv_decide`, no `implemented_by`, no `unsafe`.
* Mathlib lemmas are used but add nothing to the trusted base, being checked by the same kernel.
* Faithfulness of the transcription, which is by hand: cited file and lines at each definition, simplifications stated there.  The syscall tables and the alias list were transcribed by a script from the files in `/repo`.
* The assumptions about the world outside the repository listed next.

### Assumptions about the outside world

| what | assumed | used by |
|------|---------|---------|
| Python `bytes.split/strip/splitlines/lower/replace`, `sorted`, `Counter`, `dict` order | as documented; transcribed where used | C01-C07, C25, C26 |
| floating point | a parameter (`FloatOps`); exact rationals with infinities and NaN for the tolerance formulas: no rounding or overflow | C06, C07, C10, C48 |
| `float()`/`int()` on text | a parameter, or the documented grammar (C48, C55); the 4300-digit limit of Python 3.11 and later is not modelled | C07, C10, C26, C48, C55 |
| C `size_t`, `long` | no wrap-around in buffer positions and time stamps | C01, C38, C41 |
| json + zlib | an abstract codec with a left inverse; `json.dumps` may raise for some results (JSON itself is modelled for C94) | C20, C23 |
| CPython's json package | written from its documentation and known source (it is not in /repo); `repr` of a float has a fraction or exponent and reads back as the float | C94 |
| `find_executable`, `bash -x`, self-tests | functions of the machine; a self-test goes the same way for the same entries looked up | C88 |
| `argparse`, `re`, `pygments`, `difflib` at the prompt | functions of their arguments that may refuse or raise | C90 |
| temporary files | different names, the contents they were written with | C91 |
| `float`, `int`, `str` of Python | functions of texts and large integers that may raise | C92 |
| zlib, `BufferedReader` | a proper prefix of compressed data does not decompress; `read(n)` gives `n` bytes, fewer only at the end of the stream, and raises if the connection breaks before | C87 |
| sockets | a `send` may take part of the data only where stated; a read returns the bytes sent in order | C23 |
| threads | sequentially consistent interleaving of the listed transitions; locks and events as documented; every enabled thread may be delayed for ever unless progress is claimed | C16-C21 |
| worker process | may send anything, crash or hang at any time; `C18_results` and `C20_terminal` assume its protocol, which `C20_worker_protocol` proves of the modelled worker | C16-C20 |
| `poll`, `os.read`, `os.write` | any answers | C43 |
| `pylru` | least recently used order, callback before the eviction (its source, not part of the repository) | C46, C61 |
| object finalisation | `__del__` runs when the last reference goes away (CPython) | C46, C61 |
| SHA-384 | an injective function of its input | C45, C46 |
| `re` | the subset in `Model/Regex.lean` with its documented meaning; matching by backtracking with groups in `Model/Names.lean`; elsewhere a parameter | C10, C26, C49, C64, C102 |
| `yaml.safe_load` | gives a tree of maps, lists, texts, numbers, booleans and null, or one of its errors | C103 |
| Unicode tables of `re` | digits are word characters, a dot is not, and the like (`Names.Spec.Sane`) | C102 |
| `os.path` (posixpath) | transcribed: `join`, `normpath` | C32, C44 |
| UTF-8 decoding | any partial function on byte strings | C34, C62 |
| memory of the tracee | bytes readable or not per page; not changed between check and use (no TOCTOU) | C34, C38, C39, C62 |
| /proc/pid/status | the field `VmHWM` is written as by Linux (`%8lu kB`), other lines do not begin with it, lines longer than 126 bytes contain no `V`; a thread that has left shows no field | C81 |
| ptrace / wait4 | stops arrive in any order allowed by the model of the loop; `wait4` itself does not fail | C37, C57, C58, C62 |
| kernel dispatch | x86-64 entry code: which table and number an entry instruction selects (`Abi.Spec.dispatch`), pointers of 32-bit calls are 32 bits wide | C56, C62 |
| seccomp | the filter program does what libseccomp documents: listed native numbers pass, and the same calls by name in the other ABIs (`ByName`) | C62 |
| symbolic links | paths are compared lexically as the code does; what a link in the file system points to is not modelled | C32, C34, C44, C62, C64 |
| C compiler | the statement fragment produced by the BF translation, with `unsigned char` cells | C47 |
| time | any clock values; monotonic where stated | C22, C41 |
| `%` formatting of `str` | CPython's parser, transcribed; a string argument | C83 |
| `http.server`, `urllib`, watchdog | other methods are answered 501; `urlopen` with a `str` body raises for http(s); an `Observer` whose emitter fails is not started and joining it raises | C83 |
| process end | after the main thread, when all non-daemon threads have ended; a write to a socket that was shut down raises | C83 |
| termcolor | its table of colours and the `FORCE_COLOR`-free version of that time | C80 |
| compilers | without an option for it, name their output as the executors expect (Go, Pascal, COBOL, Swift, Scheme, INTERCAL, Rust, Lisp, Turing, Java, Groovy, Scala) | C85 |
| Cython conversions | OverflowError for a number outside the C type; a `float` is truncated towards zero. Floating point addition is monotone and exact on integers up to 2^53 | C115 |
| pickle | numbers, texts, bytes and `None` arrive unchanged; a message is pickled whole before any of it is written; pickling a `ConfigNode` raises TypeError with the versions of Python the project is for (3.6 to 3.9), as it answers `None` for `__getstate__` | C116 |
| multiprocessing | a worker has a copy of the judge's memory (fork) and ends by `os._exit`, without finalising what is still referred to; executors no longer referred to are finalised at once; `mkdtemp` never uses a name twice | C117 |
| time | messages through a pipe, signals and the end of a killed process take no time; a process that is traced ends with its tracer (`PTRACE_O_EXITKILL`) | C118 |
| ptrace | requests for the process -1 fail with `ESRCH` and change nothing; no process has that number | C119 |
| memory | each assignment to a field of a `timespec` becomes visible at once and in the order of the program; the updates are of times that do not go back | C120 |
| Python | `threading.Event` is a flag and a condition on a lock that is not reentrant; handlers of signals run in the main thread between any two of its instructions, also in another handler | C121 |
| Python | `HTTPServer.serve_forever` serves connections one by one in the order of `accept`, reads without a time limit, and `shutdown` waits for its loop to end | C122 |
| TLS | `wrap_socket` verifies as the context says | C77 |

### Parts of the repository that are modelled

| file | modelled | not modelled |
|------|----------|--------------|
| checkers/_checker.c, standard, sorted, unordered, easy, rstripped, identical, linecount, floats* | whole (C01-C07) | allocation failure |
| checkers/bridged.py | result interpretation through the contrib modules (C10, C52), arguments and files (C91), limits (C106) | `mktemp` itself, launching |
| result.py | flags, codes, readable codes, CheckerResult asserts, feedback (C08, C09, C69), output truncation (C78), colours (C79), crossing the pipe (C116) | - |
| graders/base.py, standard.py, interactive.py, bridged.py | case resolution, grade/check_result, Interactor, error priority, pipes of interactive and bridged sessions (C09, C14, C48, C53, C68, C104), arguments and limits of interactors (C91), from runs to points with the checker `standard` (C93) and with code of the problem's author (C95), up to the sum the site adds up (C96) | process launching |
| graders/signature.py | whole (C73) | |
| contrib/*.py, utils/helper_files.py (parse_helper_file_error) | whole (C10, C52), `compile_with_auxiliary_files` (C73), `mktemp` and the files of helper programs (C109) | |
| judge.py | Judge threads, IPC handlers, updater, worker event loop, grading loop (C11-C13, C16-C21), what the log line does to a result (C79), compile messages (C78), start and stop (C83), the title of the process (C123), pickling of results (C116), the memory of workers (C117), aborting in time (C118) | the order of the steps of `main`, logging |
| packet.py | queue, flushing, framing, dispatch, reconnect (C16-C18, C22-C24), TLS set-up, handshake (C77), reading over lost connections (C87), packets of any shape (C92), contents of packets and JSON (C94) | lone surrogates in texts |
| problem.py | data manager, normalisation, discovery, TestCase data, batches (C14, C25-C28), default names (C102), loading (C103), grader, checker and generator settings (C72), pickling of cases (C116) | loading of checker modules |
| config.py | ConfigNode lookup, dynamic keys, defaults, iteration, sum (C29, C30) | what `run_dynamic_key` code computes |
| judgeenv.py | problem roots, get_problem_root, get_supported_problems_and_mtimes (C31, C67), -e and -x, get_runtime_versions (C74), load_env (C76), when its settings are read (C106) | argparse, YAML parsing |
| utils/load.py, executors/__init__.py, executors/base_executor.py | loading, `initialize`, self-tests, versions (C74) | contrib modules, `OBJC` set-up |
| executors/autoconfig.py and every `autoconfig` | all of it (C88) | texts on standard error; FreeBSD's places for Java |
| cptbox/isolate.py | whole for Linux (C32-C35, C40, C64) | FreeBSD entries, log texts |
| cptbox/tracer.py, _cptbox.pyx | tables, dispatch, `_callback`, limits, result flags, strings, the watchdog (C36, C38, C42, C51, C57, C60, C65), memory accounting (C81), `wait` (C97), streams (C104, C111), what is noted of signals and calls (C105), limits as C values (C115) | copying of the arguments and the filter in `_spawn` |
| cptbox/ptproc.cpp | `monitor` for Linux, clock, `protection_fault`, `spawn`, the end of children (C37, C41, C57, C58, C113), a failing `wait4` (C119) | FreeBSD |
| cptbox/ptdebug*.cpp | register access and ABI detection on all Linux machines (C38, C75), string reading (C39, C56) | FreeBSD register access: at this commit it does not compile, `ptdebug_freebsd_x64.cpp:75` calls `is_enter`, which ptbox.h:178-190 declares only for Linux |
| cptbox/helper.cpp | descriptors, limits, stream set-up, filter contents (C50, C59, C60, C62), the whole of `cptbox_child_run` (C97), limits as machine words (C115) | memory file descriptors (`memfd`) |
| cptbox/syscalls.py, syscalls/*.tbl, aliases.list | whole (C51) | generators of the tables |
| executors/mixins.py | policy assembly, patterns, symlinks (C44, C63, C64), environment (C71), command line, executable and memory limit of `launch` (C85) | file size and process limits are in C60 |
| utils/setbufsize.c | whole (C71) | |
| executors/compiled_executor.py, gcc_executor.py | cache, keys, directories, running the compiler (C45, C46, C61, C66), command lines (C85), what is made of output (C86), what it is started with (C107) | |
| executors/script_executor.py, shell_executor.py, java_executor.py, mono_executor.py, *.py | policies, patterns, `execve` handler (C63, C64, C112), Mono memory flag (C42), feedback of C, C++, Python, Java and Mono (C69), `find_class` (C70), the files written (C84), command lines (C85) | version flags |
| executors/BF.py | whole (C47) | |
| executors/asm_executor.py, GAS*.py, NASM*.py | offering, settings, emulator, patterns (C110), features (C84), command lines (C85), search (C88) | texts of the test programs |
| commands/*.py, cli.py | command semantics and history (C49), the prompt and exit statuses (C90) | printing, argparse |
| testsuite.py | whole (C54) | printing |
| citest.py, .docker.test.py | `ci_test` (C108) | printing, functions nothing calls |
| utils/communicate.py | whole (C43), with the program and the pipes (C111), with several processes (C114) | |
| utils/builtin_int_patch.py | whole (C55) | |
| monitor.py, control.py | whole (C83, C122) | which file system events watchdog reports |

## Properties

Status, what is modelled, how it is proved, and the theorems with the axioms they depend on.  Theorems ending in
`_partial` or `_fails` say what is missing or violated.

| id | property | status | modelled | proof |
|----|----------|--------|----------|-------|
| C01 | Standard checker compares token lines | proved | `_checker.c`: the two-cursor loop over byte lists, every buffer access optional | functional induction against the list of non-blank token lines; an out-of-bounds read would be the outcome `none`, which is excluded |
| C02 | Sorted/unordered checker is multiset equality | proved | `sorted.py`, `unordered.py`; `list.sort` as insertion sort on Python's lexicographic order | sorted lists are equal iff the lists are permutations |
| C03 | Easy checker ignores order, case and whitespace only | proved | `easy.py`; `Counter` as an association list | equality of counters iff permutation |
| C04 | Rstripped checker | proved | `rstripped.py` | list induction |
| C05 | Identical checker and presentation error | proved | `identical.py` over C01 | case analysis |
| C06 | Linecount partial credit | proved | `linecount.py`, points as exact rationals | counting lemmas |
| C07 | Float checker tolerance and NaN | proved | `floats.py` over an arbitrary float arithmetic; tolerance formulas over extended rationals with NaN | induction over lines and tokens; case analysis on special values |
| C08 | Verdict codes | proved | `result.py` `get_main_code`, `readable_codes`, flags as naturals of any size | bit tests and the display order table |
| C09 | Verdict and points of a graded case are consistent | partial | `standard.py`, `populate_result`, `CheckerResult` | case analysis over all outcomes and answers, including illegal ones |
| C10 | Checker/interactor protocol points stay in range | partial | `contrib/{default,testlib,coci,peg}.py`; the feedback regexes and number parsing are parameters | case analysis |
| C11 | Grading event stream is well formed | proved | `JudgeWorker._grade_cases` and `_run_grading` as a function of configuration, results and abort stream | grammar of streams as specification; induction over cases |
| C12 | Short-circuit semantics | proved | as C11 | characterisation of skipped cases by the history, induction |
| C13 | Abort semantics | partial | as C11 | induction; witness for the ignored abort |
| C14 | Test case positions and batch numbers | proved | `_resolve_testcases`, `BatchedTestCase` | induction over the configuration |
| C15 | Pretest selection | proved | pretest selection in `graders/base.py` | decision logic |
| C16 | Result queue loses, duplicates and reorders nothing | proved | the judge process as a transition system: network thread, grading threads, flusher thread, arbitrary worker | inductive invariant over all interleavings; delivery by an explicit run of the flusher |
| C17 | Results precede the packets that close them | proved | as C16 | inductive invariant |
| C18 | Packets carry the id of their own submission | proved | as C16 | inductive invariant; the need for the worker's protocol is itself shown |
| C19 | One submission at a time; grading slot always freed | proved | as C16 | inductive invariants; progress by case analysis on reachable states |
| C20 | Every accepted submission gets a terminal packet | partial | as C16, and the worker's own event order | inductive invariants; witnesses for the two failures |
| C21 | No lost problem-list update | proved | `_updater_thread` with its event as a transition system | invariant and bounded progress |
| C22 | Reconnect backoff is bounded | proved | `_reconnect` over exact rationals | induction on the number of attempts |
| C23 | Packet framing round trip | partial | `_send_packet`, `_read_single` over byte lists; senders interleaved under the lock | round trip by induction; invariant for interleavings |
| C24 | Server message handling | partial | `_receive_packet`, `terminate_grading`, `Judge.abort_grading` | induction over message histories |
| C25 | Newline normalisation of test data | proved | `TestCase._normalize` with Python's `replace` | list induction |
| C26 | Test case discovery by file name | partial | `Problem._match_test_cases` on the ids the regexes deliver | refinement to the list of cases by id; witnesses |
| C27 | Input/output data selection and generator use | partial | `TestCase` data access as a state machine counting generator runs | induction over access sequences |
| C28 | Problem data lookup order | proved | `ProblemDataManager.__missing__` | case analysis |
| C29 | Configuration inheritance | partial | `ConfigNode` over a heap of objects with identity | induction over the chain of enclosing nodes; iteration exactly. Code violations: `C29_items_fails`, `C29_add_fails` |
| C30 | Dynamic configuration keys evaluate once | partial | as C29, dynamic keys change the heap | induction over lookup sequences |
| C31 | Problem directory resolution | partial | `get_problem_root` with its cache | history induction |
| C32 | Sandbox path canonicalisation | partial | `get_full_path`, `posixpath.join/normpath` | refinement to lexical resolution (`walk`) |
| C33 | Write access is recognised for every flag combination | proved | `is_write_flags` | bit lemmas over all naturals |
| C34 | No file syscall outside the allowed tree | partial | `_file_access_check` and all path handlers, policy table | soundness and completeness through C32, C33, C38, C40 |
| C35 | Process-affecting syscalls are confined to the process itself | proved | `do_kill`, `do_prlimit`, `do_prctl` on 64-bit registers | bit-vector case analysis without bit blasting |
| C36 | Default-deny syscall policy and seccomp consistency | partial | handler table, in-kernel list, `_callback` decision for any number | induction over table construction; the repository's tables by C51 |
| C37 | No denied syscall executes | partial | `pt_process::monitor` as a function of state and stop | case analysis per stop and induction over histories |
| C38 | Strings read from the child are exact or rejected | proved | `readstr`, `readstr_peekdata` over an abstract memory | loop invariants |
| C39 | String reads stay inside their buffer | partial | as C38, with the log of buffer writes | loop invariants; witnesses |
| C40 | Directory descriptor decoding | proved | `get_full_path`'s descriptor decoding on registers | bit-vector lemmas |
| C41 | Time accounting arithmetic | proved | timespec arithmetic, exec/wall clock | `omega`, induction over stops |
| C42 | Resource verdicts | proved | `populate_result`, `TracedPopen` flags, Mono's override | bit tests |
| C43 | Bounded communication | partial | `safe_communicate` over arbitrary poll answers | induction over the event list |
| C44 | Symlinks stay inside the submission directory | partial | the symlink guard and loop in `launch` | path lemmas of C32; witness |
| C45 | Compiled-binary cache identity | partial | `get_binary_cache_key` of both classes | injectivity of concatenation under equal lengths; witnesses |
| C46 | Compiled-binary cache lifetime | partial | `_CompiledExecutorMeta.__call__`, LRU cache, directories, finalisation | invariants over operation histories |
| C47 | Brainf*** translation | proved | `BF.py` whole, and small-step semantics of BF and of the generated C statements | lockstep simulation by induction |
| C48 | Interactor tokenisation and integer range | partial | `Interactor` over a byte stream | induction over call sequences; integer grammar as specification |
| C49 | Local submission lookup | partial | commands as transitions on the history | induction over sessions |
| C50 | Child file descriptors closed | partial | `cptbox_closefrom*`, `pos_int_from_ascii` | induction over directory listings in chunks |
| C51 | Syscall translation table | proved | `syscalls.create`, all tables of the repository | induction over alias and table lines; tables by kernel evaluation |
| C52 | Helper program failures are reported as internal errors | partial | `parse_helper_file_error` and its callers | case analysis |
| C53 | Bridged interactive grading verdict | proved | `interactive.py`, `bridged.py` `check_result`/`grade` | case analysis |
| C54 | Regression-suite expectations | partial | `testsuite.py` whole | refinement to a specification of "meets the expectation" |
| C55 | Long integer parsing guard | partial | `builtin_int_patch.py`; the real `int` is a parameter | case analysis |
| C56 | The tracer judges the call the kernel will run | partial | `ptdebug_x64.cpp` registers and ABI detection against the kernel's entry code | bit-vector lemmas over all 2^64 register values |
| C57 | A refused call is not executed and reports its error | partial | `errno_handler`, `on_return`, `monitor` | as C37 |
| C58 | Nothing outlives the program | proved | `monitor`: exits, forks, signals | as C37 |
| C59 | The child's standard streams | partial | `cptbox_child_run`: `dup2` sequence | case analysis on descriptor tables as functions |
| C60 | Resource limits | proved | `TracedPopen.__init__` and `setrlimit` calls | arithmetic |
| C61 | Submission directories are removed | partial | as C46 | invariants; witnesses |
| C62 | The kernel executes only what the policy lets through | partial | composition of filter, ABI detection, tables, policy, handlers and monitor against what the kernel executes | composition of C34, C36, C37, C38, C51, C56, C63 |
| C63 | What the policies of the executors mean | partial | all executors' policies as data, alias tables | table facts evaluated in the kernel, lifted by `C63_effective` to all situations |
| C64 | Which places a program may read and write | partial | `_get_fs_jail`, `get_fs`, `get_write_fs`, a regex parser and matcher | parser lemmas (joining alternatives, escaping), finite expansion of the base patterns |
| C65 | The time limit is enforced | partial | Watchdog.lean: the monitor thread, the shocker thread, the program and the two clocks as one transition system, one access to shared state per step (tracer.py:154-166, 231-245, 292-352) | an invariant over all histories; liveness by a ranking of the shocker (monitor) positions that holds in every continuation with enough of its steps |
| C66 | Running a compiler | partial | Compile.lean: `get_compile_output`, `TimedPopen` and the reading of the terminal as a transition system with the compiler, its helpers in and outside its process group (compiled_executor.py:72-112, 220-252) | invariant; ranking for the watchdog and for the main thread |
| C67 | Problem roots and the list of problems | partial | Roots.lean: directory trees, root search by depth, start-up filtering, the module state that updates replace, the list of problems and `get_problem_root` over it (judgeenv.py, judge.py) | induction over depth and tree; equality with the set specification of Spec/Roots.lean; induction over sequences of operations |
| C68 | Interactive sessions | partial | Session.lean: two transition systems, for the python interactor and for the bridged one, with bounded pipes and reference-counted ends | invariants over all histories; the failures by invariants of the stuck state that every continuation keeps |
| C69 | Feedback on a failed case | partial | Feedback.lean: `get_feedback_str` and the four regular expression parsers as functions on text | the parsers are proved equal to declarative readings of the expressions (last occurrence), shapes by induction; failures for all texts |
| C70 | The class of a Java program | partial | JavaClass.lean: the three removing passes and the two searches of `find_class` as functions on text; `\w` and `\s` are parameters | the passes are proved against a program given as a list of code, comment and literal pieces (Spec/JavaClass.lean); the search against a declarative reading of the expression, both directions; failures by evaluation of concrete programs |
| C71 | The environment and buffering of a program | partial | Launch.lean: `get_env` of the five kinds of executors, the dictionary of `launch`, the list given to `execve`, `getenv`, `strtoul` and the preloaded library | the dictionary is proved equal to a relational reading (who decides about a name), lifted through the list of strings to what `getenv` returns; decimal round trip for the sizes; non-interference by equality of the whole environment |
| C72 | Configured graders, checkers and generators | partial | Helpers.lean: `grader_class`, `checker` and the settings of `_run_generator` over the configuration trees of Config.lean (dynamic keys left out) | against an inductive relation `Says` for inherited lookup; equivalences; that caching cannot be turned off is proved for all declarations |
| C73 | Helper programs of several files | partial | Helpers.lean: `compile_with_auxiliary_files`, the source files of `GCCExecutor`, signature grading, as functions from file lists to directory contents | induction over the list of files; collisions by evaluation |
| C74 | The executors the judge offers | partial | Loader.lean: `load_modules`, `initialize`, `run_self_test`, `get_runtime_versions` and `parse_version` as functions of the options, a directory listing, the configuration and the answers of the programs | induction over the list of names; the version expression against a declarative reading (first and longest); the failing starts are characterised exactly |
| C75 | The sandbox looks at the right registers on every machine | partial | Arch.lean: the register structures as lists of names, accessors as positions in them, reading and writing with the widths of the C types | against the order in which the kernel hands out the registers and the calling conventions of syscall(2), for all register contents; the ARM64 result register is a counterexample for every content |
| C76 | What the judge starts with | partial | Startup.lean: `load_env` as a function of the parsed arguments, the two YAML files and the file system, on top of Roots.lean | a start is characterised by which files were read and what they say, by case analysis; the watched directories by an invariant over all later histories of Roots.lean |
| C77 | Connecting to the site | partial | Connect.lean: one connection attempt as a function of what the machine and the site do, with the events seen outside; `_do_reconnect` over the attempts | case analysis of an attempt; framing against a declarative first packet; induction over attempts, refining the backoff of C22 |
| C78 | What the site is shown of outputs and compilers' messages | partial | Shown.lean: the decoder of CPython byte by byte, Python slices, the packets of a case and of the compiler | the decoder is the inverse of an encoder given in the specification, by induction over the text; maximality of the replaced sequences by case analysis; the bound by induction |
| C79 | Logging a result never harms it | partial | Ansi.lean: the line of `_ipc_result`, the markup expression, `termcolor.colored`, the loop of the grading thread | an invariant on every suffix of the line (each `](` is followed by a known colour) is enough for the expression never to raise; the line has it by construction; a small terminal (Spec/Screen.lean) reads the coloured line back for what is shown and how |
| C80 | Removing colours from messages | partial | Ansi.lean: `strip_ansi` as a function; the expression is deterministic, since all after the escape is optional | induction over the pieces of a message |
| C81 | Memory accounting | partial | Memory.lean: `get_memory` on the bytes of the status file (fgets, strtoul), `_event_handler` and `max_memory` on top of the tracer loop of Monitor.lean | reading is inverted against the format the kernel writes, for every number and every list of other lines; the loop by induction over the stops, using that the loop goes on while the main thread is there |
| C82 | The site is told exactly what each worker reported | proved | the transition system of Judge.lean together with the worker of Worker.lean (no new definitions of code); Spec/Site.lean says what a report is | an invariant over all transitions: what has been sent and what is queued is the finished reports followed by the part of the current one given by the program counter of its thread; the shape of what a worker says by induction over its loops; composed with C11 for the content. Assumes serialisable results (otherwise C20_unserialisable_fails) |
| C83 | The judge starts only where it is safe, sends the list of problems when asked, and stops when told | partial | Model/Main.lean: sanity_check, the % formatting of the log name, the control handler, RefreshWorker, and a transition system of main thread (listen, disconnect, murder, api shutdown, monitor stop), updater, flusher and grading thread | a parser of the format with lemmas per kind of name; a rank for the refresher; invariants and ranks (main thread, then updater and flusher) for the stop; an invariant for the exit code; counterexamples proved for all continuations. Partial: no second interrupt, network failures other than the closed connection left out, widths beyond the address space and numeric judge names left out |
| C84 | What reaches the compiler is what was submitted | partial | Model/Source.lean: create_files of all executors as a table of kinds and extensions, the comment stripping and package check of Go, the feature search of assemblers, names of C files, line ends of Zig | the table is finite and decided by the kernel, texts are arbitrary; Go: induction over the white space and comments before the clause; features: the split characterised by its separators; line ends: a relation shown to be a function. Partial: Go comments with a /* in a line comment, clauses over several lines, names outside ASCII; feature lists end where the expression says, not at the line end |
| C85 | What is run for a submission | partial | Model/CmdLine.lean: get_compile_args, get_cmdline, get_executable of all executors as templates, launch | the table of templates is finite and decided by the kernel, what is filled in is arbitrary; lemmas lift a fact of templates to lines. Partial: compilers that choose the name of their output themselves; options from the configuration, flags of the machine and lists of files are parameters |
| C86 | What the user is told of a compilation | partial | Model/Message.lean: get_compile_output, handle_compile_error and compile of all compiled executors, between Model/Compile.lean (one compiler) and Model/Shown.lean (what is sent) | occurrence of words by induction over the output, decoding by the lemmas of C78, white space is a parameter. Partial: assembler output that is not UTF-8 |
| C87 | Listening to the site over the judge's life | partial | Model/Listen.lean: _read_single and _read_forever over a list of connections, each some bytes followed by the end of the stream or a failing read | induction over packets for one connection (any cut), then over connections, against an inductively defined relation on what the site sends. Disagreement: two kinds of loss end the process |
| C88 | Finding the runtimes that are installed | partial | Model/Autoconf.lean: autoconfig of every kind of executor with the whole table of executors, and the loop that puts the results together; a self-test is a function of what the executor looks up | exact characterisation (if and only if) for each kind; the whole by a lemma on the last writer of a key and a kernel-checked pairwise comparison of the table. Disagreements: gcc_target_arch is shared, RUBY2 looks itself up as "abc", gnustep-config is never written, bytes are compared with a text, limits are announced on standard output |
| C89 | What a submission can reach, from the kernel to the patterns | partial | the models of C34, C36-C39, C62 and C64 together; Spec/Confined.lean says what is opened, and that the filters of a handler are the compiled patterns | composition: soundness of the sandbox (C62) gives a permitted path, uniqueness of the string in memory and of where it leads makes it the one opened, and C64 says what the patterns accept |
| C90 | The prompt of the local judge | partial | Model/Cli.lean: shlex.split as a state machine, execute of every command on top of Model/Commands.lean with the text it complains with, run_command (whose print_ansi is that of Model/Ansi.lean; names of problems the judge has are taken to be printable), the loop and the exit status; argparse, re and pygments are parameters | the lexer is equivalent to a grammar (Spec/Cli.lean) in both directions; statuses by case analysis, exact; the history by induction over the session. Disagreements: ValueError of shlex and re.error are not caught, strip comes before split, rejudge does not catch KeyboardInterrupt, complaints are printed through ansi_style, which raises for some names (C90_colour_fails) |
| C91 | Helper programs are started with the files of the case | partial | Model/Args.lean: the format strings of the four kinds, shlex.quote, str.format and shlex.split (from Model/Cli.lean), the files written, the limits of an interactor | format strings get a grammar of their own with placeholders (Spec/Args.lean); what it gives is what the judge passes on, by induction; acceptance is an equivalence. Disagreement: a placeholder between quotes of the format string (C91_quoted_fails) |
| C92 | Packets of the site, well-formed or not | partial | Model/Request.lean: _receive_packet on arbitrary JSON with every exception it may raise, float() and int() of its values, the first log line of begin_grading (on Model/Ansi.lean) and the name of the worker process, _read_forever | what a packet has is stated on its own (Spec/Request.lean); what ends the judge is an equivalence; histories by induction. Disagreements: acknowledgement before the checks, terminate-submission ignores its id, limits unchecked, problem names in ansi_style, ids that are no numbers |
| C93 | A submission from its runs to its points | partial | Model/Submission.lean: StandardGrader.grade with the checker standard on each case, under the grading loop (composition of Model/Checkers, Problem, Process, Grading, Worker) | from C01, C09, C11, C12 and C42 via an independent notion of a right run (Spec/Submission.lean); sums over cases by induction. Disagreement: a better program may be awarded less, if a batch has a case worth nothing |
| C94 | What packets say survives the way to the site | partial | Model/Packets.lean: the dicts of all outgoing packets, the loop of _send_packet over bytes, json.dumps (ensure_ascii) and json.loads character by character; float repr and parsing are parameters | reader sound and complete for the grammar of RFC 8259 written as an inductive relation between texts and values (Spec/Packets.lean), by induction on the length; writer inside the grammar by induction on the value; composed with C23 for the connection. Disagreement: a checker that awards NaN makes a packet that is no JSON |
| C95 | What a submission is awarded where the author's own code decides | partial | Model/Helped.lean: the three graders on top of Model/Contrib.lean and Model/Grading.lean, strict UTF-8 decoding of the helper texts, and the grading loop of Model/Worker.lean | the outcome of a case is specified by an inductive relation (Spec/Helped.lean) shown total and functional; grading of a case by cases on it; the loop by the invariants of Lemmas/Worker.lean (Lemmas/Award.lean for any grading). Disagreements: a checker program that accepts but writes something that is not UTF-8 makes the answer wrong; an interactor that accepts but whose feedback is not UTF-8 ends the grading. The protocol peg is not part of this property (C10) |
| C96 | The points the site adds up | proved | Model/Score.lean: a submission whose cases are judged each by the checker `standard` or by code of the author, as a worker run of Model/Judge.lean | C82 (every interleaving) split into reports; prefixes of what a worker says against the stream of C11; points of each told result by C12, C93, C95; the sum by the lemmas of Lemmas/Award.lean. The items the site receives carry the number of the case; its points are those of the result the worker produced under that number (numbers are distinct). That a packet carries the fields of the result is C94 |
| C97 | Starting a program: what surrounds it, and how a failed start is reported | partial | Model/Start.lean: `childRun` (every call of the child between fork and execve, each of which may fail), the stops the tracer sees of it, `wait`, C strings of arguments | limits: fold over the list of C60 with the kernel rule for setrlimit; descriptors by C50; the tracer: Model/Monitor.lean run on exactly these stops, invariant until execve, then monotone; policies: C36_filter and C63. With the filter a failing execve is taken for the start (`C97_missing_fails`): `is_end_of_first_execve` answers at the stop before the call |
| C98 | From the bytes on the connection to the points the site adds up | proved | Model/Wire.lean: `Sends` (which packet is sent at which event of Model/Judge.lean); otherwise Model/Net.lean (framing, lock), Model/Packets.lean (contents), Model/Judge.lean (threads), Model/Score.lean (grading). Assumed: zlib restores what it compressed, writes are complete (C23), senders get the lock in the order of the history. Points are exact numbers: rounding by Python is C03 | spec-side reader (`bodies`, `Tells`, `Adds`), proved deterministic; a prefix of a stream of frames has a prefix of the frames as its complete ones; C23_interleaving, C94_says and C96_now composed; the result is cut into the parts of C96, each prefix-closed |
| C99 | The judge's patience with its worker | partial | Model/Patience.lean: `patience`, `Pace` (how long the steps of a worker take, possibly for ever), `timeline` (its messages with the gaps between them, from the actions of Model/Worker.lean), `communicate` (the reading loop, with the time the judge spends on each message), `wall` (from Model/Watchdog.lean). Sending and reading take no time of their own | the shape of the actions of a worker (every case is followed by a message unless it fails) by induction over the loops of Model/Worker.lean; induction over the messages; composed with C65_bounded. Code violation: C99_slow_fails |
| C100 | Aborting a grading | partial | Model/Abort.lean: the main thread of the worker in steps (`mainStep`: the loops of Model/Worker.lean and the parts of `grade`), the listening thread (`listenerStep`: `_do_abort`, `abort_grading`, `kill`), the program, requests and hang-ups, as one transition system. Messages between which nothing shared is accessed are sent in one step | refinement: for every world that agrees with what happened so far, what was done and what is left make up `gradeCases` of Model/Worker.lean (an invariant); further invariants over all histories; a ranking for the kill. Code violations: C100_window_fails, C100_compile_fails, C100_lost_fails, C100_error_fails |
| C101 | What is opened is what was checked | partial | no new code: the check is that of C62 and C89 (Model/Isolate.lean, Model/Path.lean, Model/Monitor.lean). Spec/Files.lean says what a kernel does with a path in a tree with links, and what other threads may do to memory. Left out of it: permissions, the limit on the number of links, the links of /proc that are no texts | without links the walk of the kernel is the walk by names (induction over the walk), so C89 applies; writes elsewhere do not change the string; links beside files and paths without `..` by induction over the walk. Code violations, with every step of the code and of the kernel: C101_dotdot_fails, C101_race_fails |
| C102 | Test files are recognised by their names | partial | `_resolve_test_cases` without configuration and the two default patterns: the patterns are parsed from the text in the code and matched by backtracking (`Model/Names.lean`); then `_match_test_cases` (C26). Unicode tables are parameters; `int()` accepts decimal digits | each part of the pattern is characterised by what it consumes (membership in the list of ways to match), the first place that works is found with the order of the list; numbers are unique from the end. Code violations, with the whole path from names to cases: C102_both_fails, C102_folders_fails |
| C103 | What an init.yml means | partial | `Problem.__init__`, `_resolve_archive_files`, `_resolve_test_cases` and what of `ConfigNode` they use, with each exception as a value (`Model/Load.lean`). The YAML document, the archives on disk, `int()` and compiled patterns are parameters; a document is of maps, lists, texts, numbers, booleans and null; the dynamic keys of ConfigNode (C30) are not used | equations for the settings looked up in document and defaults; C102_accepted for guessing; case analysis of where errors come from. Code violations: C103_raises_fails, C103_format_fails, C103_archive_fails, C103_empty_fails, C103_pairs_fails |
| C104 | Who holds the pipes of a bridged session, and what goes through them | partial | `_launch_process`, `_interact_with_process` and the reading of errors in `check_result` of graders/bridged.py as the sixteen actions of the judge on descriptors, with those of `__init_streams` and `_run_process`; the child between fork and exec (all descriptors of the judge, then only its three: C50, C59); programs as arbitrary reads, writes, closes and ends; pipes with a capacity (`Model/Bridge.lean`). A program stands for its whole process group; limits are the possibility to end at any time (C100); standard descriptors are open in the judge | an invariant saying who holds each end at each action of the judge, preserved by all events. Code violations as states from which no continuation without a kill leaves: C104_errors_fails, C104_left_fails |
| C105 | What is told of the end of a program is what ended it | partial | the tracer loop of `Model/Monitor.lean` together with what Python notes of its events (`_event_handler`, `_protection_fault`, `get_syscall_name`), the return code, `is_ir`, `is_rte`, `signal`, `was_initialized`, and `get_feedback_str` of `Model/Feedback.lean` applied to the result (`Model/Ending.lean`). Clocks, memory and output limits are given; `strsignal` and the executor are parameters | induction over the stops for the noted signal, a forbidden call reports its own number only, C51 for its name. Code violations: C105_window_fails, C105_kill_fails, C105_thread_fails, C105_trap_fails, C105_number_fails |
| C106 | Configured settings and options are the ones used | partial | the bodies of all 143 modules of dmoj as far as they import each other, read settings and copy variables of judgeenv.py (a table taken from the sources by a script), an interpreter of imports (each body once, circular imports), the three entries, `load_env` as one step, and the limits of checkers, generators, interactors and compilers (`Model/Settings.lean`). Imports under `if` and `try` count as made; modules outside dmoj are left out | induction principle for the import interpreter, termination by the number of modules not begun; the state after each entry is computed (three closed terms), everything later is for all lists of modules. Code violations: C106_checker_fails, C106_interactor_compile_fails |
| C107 | What a compiler is started with and what is heard of it | partial | `create_compile_process` with all its overrides: the environment as a list of variables, what the descriptors of the compiler are connected to, and the processes of a compiler as a transition system of forks, limits, groups, writes and exits (`Model/CompilerStart.lean`). The kernel is assumed to put a carriage return before each line feed written to a new terminal, to pass limits and group on to children and to let only the privileged raise limits. `oom_score_adj` is left out | case analysis over the executors, induction over the text and over histories. Code violations: the `_fails` theorems |
| C108 | What a green run of the test of all executors means | partial | `ci_test` as a loop over the executors on top of the models of autoconfiguration (C88) and of the regression suite (C54) (`Model/Citest.lean`). Imports of modules and the query of versions are taken not to raise; of the output only the configuration and the names are kept | invariant of the loop by induction over the executors, then composition with C54 and C88; the printed configuration by refinement to `dmoj-autoconf`. Code violations: the `_fails` theorems |
| C109 | Which files checkers, interactors and generators may use | partial | the patterns of helper programs on top of the model of patterns (C64), the names of `tempfile`, where directories are made, and the nested `with mktemp(...)` (`Model/HelperFs.lean`). That names of `tempfile` are new is assumed (they are opened exclusively); a file whose writing fails is taken to be removed at once | a name without special characters parses to itself as literals (induction over the name), then composition with C64 and, at the handler, with C34; the `with` by induction over the files. Code violations: the `_fails` theorems |
| C110 | Assembler programs: which languages are offered and how their programs are run | partial | the class attributes, `initialize`, `use_qemu`, `get_executable` and `get_fs` of the five assembler executors, with the lookup of their settings in two levels of configuration (`Model/Asm.lean`). Settings of the wrong kind are not treated | case analysis of `initialize`; the table of five by cases, lifted to all machines; the files by composition with C64. Code violations: the `_fails` theorems |
| C111 | What a program reads, what is kept of it, and who waits for whom | partial | the three pipes, `fork`, the closing of ends, the loop of `safe_communicate` (the model of C43, unchanged), `kill` and `wait` of the standard grader, and an arbitrary program, as one transition system (`Model/Exchange.lean`). Assumed of the kernel: pipe(7) and poll(2) as stated there. Time does not pass; that the watchdog ends the program is C65 | invariant over all reachable states; a weight that each action of the judge lowers. Code violation: `C111_stderr_fails`, by induction on the number of bytes |
| C112 | Which files interpreted programs may read | partial | what `get_fs` and `get_write_fs` of these executors add, and the name of the source file (`Model/ScriptFs.lean`), over the patterns of C64 and the `re` of `Model/Regex.lean`. Which commands are installed and what is configured are parameters | each added text is shown to be a pattern with a known meaning, then C64_read; the directories above by induction on components. Code violations: `C112_dot_fails`, `C112_bracket_fails`, `C112_home_fails`, `C112_double_fails`, `C112_crash_fails` |
| C113 | No process of a submission escapes its group or outlives its run | partial | a table of processes with group and tracer, the start of the child, the ways the judge ends processes, the loop of the tracer (the model of C37 and C58, unchanged) and the policies of C63, as one transition system (`Model/Family.lean`). Assumed of the kernel: clone(2), ptrace(2), seccomp(2), setrlimit(2) and the reuse of process numbers as stated there. Threads are part of their process; calls are judged by name | invariant over all reachable states, with C63_escape for the calls that change groups. Code violations: `C113_survivor_fails`, `C113_escape_fails`, `C113_late_fails`, `C113_stale_fails`, `C113_early_fails`, for every language concerned |
| C114 | The judge does not wait for output longer than the submission lives | partial | the processes of C113 together with who holds which pipe, the tracing thread (closing its copies, `_died`, its end), the thread in `safe_communicate` and kills (`Model/Vigil.lean`). Assumed of the kernel: descriptors are inherited and closed at the end of a process, the end of a pipe is reported when nobody has the other end. Not modelled there: the bytes (C111), descriptors sent to others | progress: each of five conditions stays once reached, and is reached in a round from the one before; invariants for completeness. Code violations: `C114_hang_fails`, `C114_window_fails`, for every language concerned |
| C115 | The limits on a program are those asked for, or it is not started | partial | the assignments of `TracedPopen.__init__` to C fields, the copy to `child_config` and the arguments of `setrlimit`, as words of the width they have (`Model/Limits.lean`; the kernel as in C97). Assumed: Cython raises OverflowError for what does not fit and truncates a float towards zero; floating point addition is monotone and exact on integers to 2^53 | range lemmas of the conversions, then arithmetic; each resource is set once. Code violations: `C115_cpu_fails`, `C115_negative_fails` |
| C116 | What the worker reports of a case is what the judge tells the site, or the submission ends with an internal error | partial | attributes of `TestCase` and `Result`, `__getstate__`, `__setstate__`, the trimming of the output, the loop of the worker and the reading loop of the judge, the fields of the packet (`Model/Ipc.lean`; cutting as in C78). Values are known by what pickling does to them; lists inside attributes are not followed | association lists as dictionaries; induction over what the worker hands over; C116_protocol lifts C20 to runs that are cut short. Code violation: `C116_points_fails` |
| C117 | The compiled-binary cache over submissions: which directories stay, and whose | partial | processes with a copy of the memory of the judge and a common disk (`Model/Workers.lean`), over the state machine of C46 and C61. One worker at a time (C19) | a worker changes only directories made after it began (invariant); masking the others commutes with every step, which carries the invariants of C46 and C61 over. Code violations: `C117_reuse_fails`, `C117_grows_fails`, `C117_killed_fails` |
| C118 | Aborting a submission takes effect in time | partial | the worker as a list of timed events, computed from the durations of its parts and the moment of the request; the judge cuts it off after five seconds (`Model/AbortTime.lean`). The threads of the worker are in C100. Messages and kills take no time; gradings that raise are in C20 | induction over the cases. Code violations: `C118_compiling_fails`, `C118_early_fails` |
| C119 | Waits and questions of the tracer that fail do no harm | partial | around the loop of `Model/Monitor.lean`: each wait is a stop or fails, and so may the question for the child of a `fork`; the stale `status`, and what is indeterminate, are part of it (`Model/Interrupted.lean`). The time of a failed wait counts as any other (C41) | refinement: the run without the failed waits; an invariant (all strays are children). Code violations: `C119_stray_fails`, `C119_killed_fails`, `C119_first_fails` |
| C120 | Clocks that are read while they are written | partial | every content the memory of `exec_time` has during any sequence of updates, assignment by assignment, and two reads at any two moments; the same for `start_time` (`Model/Torn.lean`) | an invariant of every content, monotonicity of the seconds, arithmetic. Code violations: `C120_early_fails`, `C120_wall_fails` |
| C121 | A request by signal may come at any moment | partial | a transition system: the calls of `Event.set` of the main thread as a stack (a signal pushes one), those of other threads, the updater; statement by statement as in the library (`Model/Usr2.lean`) | invariants (who has the lock; no lost wakeup); possibility of returning by schedules; being stuck is closed under all actions. Liveness is stated as possibility and, from states without a badly timed signal, under every fair schedule (`C121_fair_partial`, `C121_ends_partial`: a measure that no step raises, and that some thread lowers). Code violations: `C121_stuck_fails`, `C121_two_fails` |
| C122 | The server for the API answers, and lets the judge stop | partial | a transition system: clients that connect, ask or leave, the loop of the server, the main thread in `shutdown` (`Model/Control.lean`); answers are those of `Main.control` | an invariant over all runs (order, rightness, conservation of connections); draining by induction on the queue; being stuck is closed under all actions of others. Code violations: `C122_stuck_fails`, `C122_hang_fails` |
| C123 | The title of a judge's process tells which judge it is and which server it is for | partial | `make_host_port` and the title as functions on texts (`Model/Title.lean`); `setproctitle` itself, and how much of a title a system shows, are not modelled | splitting at the last colon and the last space, injectivity of decimal notation. Code violation: `C123_title_fails` |

## Theorems

### C01 Standard checker compares token lines

The standard checker accepts a pair (judge output, process output) exactly when both split into the same list of non-blank lines, each line being the same list of whitespace-separated tokens. Consequently acceptance is reflexive, symmetric and transitive, and is unchanged by leading/trailing whitespace, by repeating blanks and by blank lines; '\r' counts as a line break. It never reads outside the two buffers.

* `C01_charClasses` (Checkers.lean, pcq): The six ASCII whitespace bytes, and the two line breaks.
* `C01_standard_spec` (Checkers.lean, pcq): The standard checker, for every pair of outputs, terminates without reading outside its buffers (the result is never `none`) and accepts exactly when both outputs have the same non-blank lines, compared token by token.
* `C01_standard_refl` (Checkers.lean, pcq): Acceptance is reflexive.
* `C01_standard_symm` (Checkers.lean, pcq): Acceptance is symmetric in the two outputs.
* `C01_standard_trans` (Checkers.lean, pcq): Acceptance is transitive.
* `C01_standard_pad` (Checkers.lean, pcq): Whitespace before and after the whole process output is irrelevant.
* `C01_standard_runs` (Checkers.lean, pcq): Inside the output any blank run without line break is as good as one space, and any blank run with a line break (hence any number of blank lines, or `\r\n`) is as good as one newline.
* `C01_standard_token` (Checkers.lean, pcq): Different tokens are never confused: outputs without whitespace are accepted only if they are byte for byte equal.

### C02 Sorted/unordered checker is multiset equality

The sorted checker accepts exactly when the two outputs contain the same multiset of items, an item being (lines mode) the token list of a non-empty line or (whitespace mode, also `unordered`) a whitespace separated token; it raises an internal error exactly for an unknown split mode.

* `C02_sorted_lines` (Checkers.lean, pcq): Lines mode: multiset equality of the token lists of the non-empty lines.
* `C02_sorted_whitespace` (Checkers.lean, pcq): Whitespace mode (and `unordered`): multiset equality of the tokens.
* `C02_unordered` (Checkers.lean, pcq): The deprecated `unordered` checker is the whitespace mode.
* `C02_sorted_error` (Checkers.lean, pq): An error escapes exactly for an unknown mode, whatever the outputs.

### C03 Easy checker ignores order, case and whitespace only

The easy checker accepts exactly when the non-whitespace bytes of both outputs, ASCII-lowercased, are permutations of each other.

* `C03_easy_spec` (Checkers.lean, pcq): The easy checker is permutation equality of the significant bytes.

### C04 Rstripped checker

The rstripped checker accepts exactly when both outputs have the same number of lines and corresponding lines are equal after removing trailing whitespace; with filter_new_line empty lines are discounted first. Acceptance is an equivalence relation.

* `C04_rstripped_spec` (Checkers.lean, pcq): Without the filter: same lines up to trailing whitespace.
* `C04_rstripped_filter_spec` (Checkers.lean, pcq): With the filter: same non-empty lines up to trailing whitespace.
* `C04_rstripped_equivalence` (Checkers.lean, pcq): Acceptance is an equivalence relation.

### C05 Identical checker and presentation error

The identical checker passes exactly on byte equality; otherwise it awards 0 points and reports presentation error exactly when presentation errors are allowed and the standard checker would accept.

* `C05_identical_spec` (Checkers.lean, pcq): Passes exactly on byte equality; never awards points otherwise; reports a presentation error exactly when allowed and the outputs have the same token lines; never faults.

### C06 Linecount partial credit

The linecount checker fails outright when there are more non-empty process lines than judge lines; passes with full credit when the judge has no lines and the process has none; otherwise it awards value*matches/total, where matches counts positions whose stripped lines agree, passes exactly when every judge line is matched, never awards more than the value of the case nor a negative amount, and its feedback has one mark per judge line.

* `C06_linecount_spec` (Checkers.lean, pcq): Exact outcome of the linecount checker.
* `C06_linecount_range` (Checkers.lean, pcq): The award is within `[0, value]`, it is the full value iff all judge lines are matched (for a positive value), and passing means all lines matched.

### C07 Float checker tolerance and NaN

The float checkers accept exactly when non-empty lines match in number, tokens per line match in number, every non-numeric judge token is matched byte for byte and every numeric one is matched by a numeric token within the selected tolerance; NaN in the process output against a numeric judge token is never accepted; malformed numbers, division errors etc. yield rejection, never an error escaping to the judge (for well-formed parameters).

* `C07_float_structure` (Floats.lean, pcq): For any float arithmetic and any valid mode the checker accepts exactly when lines and tokens match up, non-numeric judge tokens literally, numeric ones by a numeric token that the tolerance test accepts.
* `C07_float_total` (Floats.lean, pq): No exception escapes for a valid mode: malformed numbers and division errors reject.
* `C07_float_bad_mode` (Floats.lean, pcq): An invalid mode is an internal error (when the numbers of lines agree).
* `C07_nan_rejected` (Floats.lean, p): NaN never passes the tolerance test, in any mode, on either side.
* `C07_nan_output_rejected` (Floats.lean, pcq): Consequently an output containing NaN where the judge has a number is rejected: if a numeric judge token is answered by NaN the outputs do not match.
* `C07_absolute_exact` (Floats.lean, pcq): Absolute mode on exact finite numbers.
* `C07_relative_exact` (Floats.lean, pcq): Relative mode on exact finite numbers.
* `C07_default_exact` (Floats.lean, pcq): Default mode on exact finite numbers.
* `C07_infinity` (Floats.lean, pcq): An infinite judge value accepts no process value in absolute and default mode, and only the same infinity in relative mode (for tolerances below 1).
* `C07_precision` (Floats.lean, pcq): What the precision means: with `precision: n` two finite numbers count as the same when they are within `1 / 10ⁿ` of each other (or `1 / 10ⁿ` of the reference, by the mode).

### C08 Verdict codes

The main code of a result is the highest-priority code (order IE,TLE,MLE,OLE,RTE,IR,WA,SC) present among its flags and AC exactly if none is present; the readable code list is exactly the list of codes present, in that order without duplicates, headed by the main code, and is never empty.

* `C08_main_code` (Verdict.lean, pcq): The main code is that of the most important code present, and 0 (AC) if none is.
* `C08_ac_iff` (Verdict.lean, pcq): AC exactly if no code is present.
* `C08_readable` (Verdict.lean, pcq): The readable list is exactly the codes present, in order of priority, or `AC` alone.
* `C08_readable_shape` (Verdict.lean, pcq): It is never empty, has no duplicates, and is headed by the main code.

### C09 Verdict and points of a graded case are consistent

For every process outcome and every checker answer: a graded case is AC exactly when the process triggered no error condition and the checker passed; a checker that does not opt into run_on_error is never consulted and 0 points are awarded when the process had an error; the points reported equal the checker's points, or the full value/0 for a boolean answer; the feedback shown is the checker's, or if that is empty what is said about the process.

* `C09_error_not_checked` (Verdict.lean, pcq): If the process did something wrong and the checker does not ask to be run on errors, the case gets 0 points and WA besides the process's flags, whatever the checker would do.
* `C09_checked` (Verdict.lean, pcq): Otherwise the case is graded by what the checker says about it: an illegal answer or an exception is an error, else points are the checker's and WA is added exactly if it failed.
* `C09_ac_iff` (Verdict.lean, pcq): A graded case is AC exactly when the process did nothing wrong and the checker passed.
* `C09_flags_kept` (Verdict.lean, pq): The verdict of a case always contains every flag of its process.
* `C09_feedback` (Verdict.lean, pcq): The text shown with a case is the checker's if it gives one that is not empty, otherwise what is known of the process; a checker that chokes on the output's encoding says so.
* `C09_linecount_fails` (Verdict.lean, pcq): fails for a checker that asks to be run on errors: with the linecount checker, a process that crashed on a case with an empty reference output gets all points of it, and is not marked wrong.

### C10 Checker/interactor protocol points stay in range

Interpreting a helper program's exit code: a pass never awards negative or more than the value of the case, a fail awards 0, unrecognised exit codes always surface as internal errors. Expected for every protocol (default, testlib, coci, peg).

* `C10_default` (Verdict.lean, pcq): default protocol.
* `C10_testlib` (Verdict.lean, pcq): testlib protocol.
* `C10_coci` (Verdict.lean, pcq): coci protocol.
* `C10_partial_credit` (Verdict.lean, pcq): partial credit: an exit code 7 awards exactly the points of the first `points N` line (testlib) or that fraction of the value (coci), provided it is in range, and is otherwise an error.
* `C10_peg_partial` (Verdict.lean, pcq): (part), peg protocol: points are never negative, and unrecognised exit codes are errors. Missing: the upper bound, which fails.
* `C10_peg_overaward_fails` (Verdict.lean, pcq): The peg protocol can award more than the value of the case: feedback `3` over `2`.

### C11 Grading event stream is well formed

For every problem and grader behaviour the worker's events of an unaborted grading are: begin, then the cases in configuration order numbered 1..n each exactly once, the cases of each non-empty batch enclosed by matching batch-begin/batch-end with the right batch number and nothing else enclosed, then end. An aborted grading yields a prefix of such a stream followed by the abort event.

* `C11_stream` (Worker.lean, pcq): Whatever the grader does, the stream of a compiled submission is the complete stream of the problem followed by the end, or a proper prefix of it (grading raised), or a proper prefix followed by the abort event.
* `C11_complete` (Worker.lean, pcq): If no case raises and no abort is seen the complete stream is produced.
* `C11_compile_error` (Worker.lean, pq): A compile error is the only event of its stream.
* `C11_numbers` (Worker.lean, pq): In the complete stream the cases are numbered 1, 2, ..., each once and in order.

### C12 Short-circuit semantics

A case is skipped (SC) exactly when an earlier case that was really graded received WA and that earlier case is in the same batch, or was worth zero points, or short-circuiting was requested for the submission; skipped cases are never executed, earn 0 points and carry only the SC flag.

* `C12_results` (Worker.lean, pcq): Every reported result belongs to a case of the problem, under its batch number, and is either what grading that case returned or, for a case that was never executed, exactly the short-circuit verdict with 0 points.
* `C12_skip_iff` (Worker.lean, pcq): A case that is reached (reported or executed) is executed exactly if no earlier executed case failed that is in the same batch, or is worth nothing, or at all if short-circuiting was requested.

### C13 Abort semantics

After an abort is seen by the worker following a really graded case, that case's result is not reported, no further case is run, and the stream ends with the abort event. Desired: any abort that arrives before the end of grading ends with the abort event (fails when the remaining cases are short-circuited or there are none).

* `C13_abort` (Worker.lean, pcq): If an executed case is found aborted, that execution is the last, the stream ends there with the abort event, and no result of the case is reported.
* `C13_abort_only` (Worker.lean, pcq): The abort event is sent only if an executed case was found aborted.
* `C13_request_partial` (Worker.lean, pcq): (part). An abort requested before or during case `t` ends the stream with the abort event provided some case from `t` on is executed (and returns); exactly one such case is executed. Missing: the same without that proviso, which fails, see below.
* `C13_ignored_fails` (Worker.lean, pq): An abort requested while the remaining cases are short-circuited is ignored: the grading ends normally.

### C14 Test case positions and batch numbers

Resolved cases get positions 0,1,2,... in configuration order with no gap or repetition across batches; cases inside the k-th batch carry batch number k, unbatched ones 0; nested batches are rejected; nothing is dropped.

* `C14_positions` (Worker.lean, pq): A configuration without nested batches resolves to exactly its cases, in order, at positions 0, 1, 2, ..., the cases of the k-th batch carrying batch number k and the others 0.
* `C14_nested_rejected` (Worker.lean, p): A configuration with a nested batch is rejected.
* `C14_positions_range` (Worker.lean, p): So the positions of the cases, in the order they are graded, are 0, 1, 2, ...
* `C14_batch_agrees` (Worker.lean, pq): The batch number a case carries is the one it is reported under (0 for none).

### C15 Pretest selection

A submission is graded on pretest cases exactly when only pretests are requested and the problem has them.

* `C15_pretests` (Worker.lean, pq): The pretest cases are graded exactly if only pretests are requested and the problem has them; otherwise all test cases are.

### C16 Result queue loses, duplicates and reorders nothing

Whatever the interleaving of result enqueueing, periodic flushes and flushes forced by other packets, the concatenation of cases in transmitted status packets followed by the pending queue equals the sequence of enqueued results.

* `C16_conserved` (Judge.lean, pq): Whatever the threads and the worker do: whenever the queue lock is free, the transmitted results followed by the pending ones are the enqueued ones.
* `C16_prefix` (Judge.lean, pq): At every instant the transmitted results are an initial part of the enqueued ones, in order, without repetition or omission.
* `C16_delivers` (Judge.lean, pq): The queue is really delivered: from any reachable state where the flusher wakes up while a submission is running, the queue lock is free and the pending results can be serialised, the flusher's own transitions transmit exactly the pending results and empty the queue.

### C17 Results precede the packets that close them

On the wire, every result enqueued before a batch-begin, batch-end, grading-end, submission-terminated or internal-error packet is transmitted before that packet.

* `C17_order` (Judge.lean, pq): When a batch-begin, batch-end, grading-end, submission-terminated or internal-error packet is sent, every result enqueued before has been transmitted, in order.

### C18 Packets carry the id of their own submission

Every result, compile, batch and terminal packet on the wire carries the id of the submission that produced it, whatever the interleaving of flusher thread, network thread and grading threads of consecutive submissions.

* `C18_results` (Judge.lean, pq): For workers that follow their protocol (but may crash, hang or send anything at any time): every result on the wire was produced by the submission whose id the packet carries.
* `C18_packets` (Judge.lean, pq): Whatever the worker does: every other packet about a submission carries the id of the submission of the grading thread that sends it.
* `C18_protocol_needed` (Judge.lean, pq): The protocol matters: a worker that says BYE with a result still open lets that result be transmitted under the id of the next submission.

### C19 One submission at a time; grading slot always freed

At any time at most one worker exists and the grading lock is held exactly while a submission is being set up or graded; each finished grading thread clears the worker, wakes the starter and releases the lock exactly once, however the worker behaves (crash, timeout, garbage message).

* `C19_one` (Judge.lean, pq): At most one grading thread exists, and the grading lock is held exactly while a submission is being set up or graded.
* `C19_worker` (Judge.lean, pq): The current worker is the one of the submission being graded or set up; a new worker is created only when there is none (the assertion in `begin_grading` never fails).
* `C19_freed` (Judge.lean, pq): When no grading thread is left the slot is free again: the lock is released, there is no current worker, and a starter that is still waiting has been woken, however the worker behaved.
* `C19_progress` (Judge.lean, pq): No deadlock: in every reachable state a grading thread can make a transition (or end), unless the flusher holds the queue lock, in which case the flusher can make a transition.
* `C19_started` (Judge.lean, pq): `begin_grading` returns (the network thread goes on to other messages) only when the worker has reported in or its grading is over.

### C20 Every accepted submission gets a terminal packet

For every worker behaviour, a submission's packet sequence ends with at least one of compile-error, grading-end, submission-terminated, internal-error. Desired: exactly one.

* `C20_worker_protocol` (Judge.lean, pcq): Whatever it grades, the worker process says BYE only after a message that ends the submission, with every result followed by a closing message.
* `C20_terminal` (Judge.lean, pcq): For every worker that follows its protocol but may crash, hang or send garbage at any time: if results can be serialised, then each finished submission got a terminal packet (compile-error, grading-end, submission-terminated or internal-error) with its own id.
* `C20_exactly_one_fails` (Judge.lean, pq): Exactly one terminal packet is not guaranteed: a worker that dies after reporting the end of grading and before saying BYE yields both a grading-end and an internal-error packet.
* `C20_unserialisable_fails` (Judge.lean, pq): A result that cannot be serialised leaves its submission without any terminal packet: the flush fails, and so does the flush of the internal-error packet meant to report it.

### C21 No lost problem-list update

If an update is requested, then unless the updater is told to exit a push of the problem list that starts after the request is eventually attempted; coalescing never drops the last request.

* `C21_no_lost_update` (Net.lean, pq): No lost update: whatever happened before (`as`) and after (`bs`) an update request, either a push of the problem list began after the request, or the updater was told to exit, or five more steps of the updater begin one.
* `C21_no_spurious` (Net.lean, p): The updater never pushes without having been signalled: with no request and no shutdown it never pushes.

### C22 Reconnect backoff is bounded

Consecutive failed reconnects sleep 4*1.5^k seconds, strictly increasing, and the judge exits cleanly instead of sleeping more than a day: at most 25 sleeps without an intervening graded submission; a finished grading resets it.

* `C22_sleeps` (Net.lean, pcq): Whatever the connection does over the judge's life, each sleep lasts 4*1.5^k seconds for some k < 25, so never more than a day.
* `C22_backoff` (Net.lean, pcq): The sleeps without an intervening finished grading are 4, 6, 9, ... (4*1.5^k, strictly increasing), there are at most 25 of them, and if every attempt fails the judge exits after exactly 25.
* `C22_reset` (Net.lean, pcq): A finished grading resets the backoff: the next sleep is 4 seconds, whatever came before.

### C23 Packet framing round trip

Any sequence of packets sent is decoded by the peer reader to exactly that sequence, regardless of sizes, as long as each compressed packet is shorter than 2^32 bytes; concurrent senders never interleave the bytes of two packets.

* `C23_header` (Net.lean, pq): The size header round trips for every size below 2^32, and only those can be sent.
* `C23_round_trip` (Net.lean, pq): Whatever packets are sent with complete writes, the peer decodes exactly these packets in order, whatever follows on the stream (`rest`, which it then goes on to read).
* `C23_interleaving` (Net.lean, pq): Whatever the interleaving of senders: whenever no sender is inside `_send_packet`, the bytes on the wire are the frames of the packets in the order their senders obtained the lock (so each sender's packets stay in order); while one is inside, they are these frames followed by a part of its frame.
* `C23_partial_write_fails` (Net.lean, p): Complete writes matter and are not ensured: the socket file is unbuffered, and a `send` that takes only part of a line makes the peer read different packets (here: two packets sent, and the peer misreads the second one's header as the end of the first, then gives up).

### C24 Server message handling

Every submission request is acknowledged before grading starts, unknown packets are ignored, a terminate request affects only the running submission, a ping is answered with the same timestamp, nothing is done after the judge was told to end; desired: a current-submission query never kills the judge (fails when idle).

* `C24_ack` (Net.lean, p): Every submission request is answered by an acknowledgement carrying its id, immediately followed by the start of its grading; nothing else starts gradings or acknowledges.
* `C24_ack_first` (Net.lean, pq): Over any message history, each grading start is immediately preceded by its acknowledgement.
* `C24_unknown` (Net.lean, pq): Unknown messages have no effect on the reactions, wherever they occur.
* `C24_ping` (Net.lean, -): A ping is answered with the same time stamp, whatever is running.
* `C24_abort` (Net.lean, p): Only the running submission is ever aborted: by a terminate or disconnect message, and with an explicit id only if the ids agree.
* `C24_ends` (Net.lean, pq): Once a message ends the judge, nothing more is done: no later message is answered or acted upon. A disconnect always ends it.
* `C24_query_idle_fails` (Net.lean, -): A query for the current submission while one is running is answered with its id; while none is running it ends the judge process.
* `C24_survives_partial` (Net.lean, p): Everything else keeps the judge running: apart from a disconnect and that query, no message ends it.

### C25 Newline normalisation of test data

Normalised text data contains no '\r', ends in '\n' when non-empty, keeps every other byte in order, is idempotent, and maps the three newline conventions to the same result; binary and empty data are unchanged.

* `C25_no_cr` (Data.lean, pq): Normalised text has no carriage return.
* `C25_ends` (Data.lean, p): Normalised non-empty text ends in a line feed.
* `C25_content` (Data.lean, pcq): All bytes other than newlines are kept, in order.
* `C25_unchanged` (Data.lean, pq): Text that already uses line feeds only and ends in one is unchanged.
* `C25_idempotent` (Data.lean, pq): Idempotent, for text and binary data.
* `C25_newline` (Data.lean, p): Each newline convention anywhere in a text counts as one line feed: `\r\n` (when the `\r` is not the second of `\r\r\n`'s prefix) and `\r` (when no `\n` follows).
* `C25_conventions` (Data.lean, pcq): A file written with any one of the three newline conventions is turned into the same lines terminated by line feeds; a last line without terminator gets one.
* `C25_binary` (Data.lean, p): Binary data, empty data and missing data are left alone.

### C26 Test case discovery by file name

Grouping files into cases: each (batch, case) pair contributes one case pairing its input with its output file, batches and cases are ordered, no file matching the pattern is lost or assigned to another batch. Desired for all ids; fails for batch 0 and for a plain case id equal to a batch id.

* `C26_entries_partial` (Discovery.lean, pcq): (partial)**: for an archive whose ids are unambiguous, the entries are the batches and plain cases in increasing order of id, each exactly once; a batch contains exactly its cases in increasing order; every case has exactly its own input and output file; and points are assigned in that order. Missing for the full claim: files with batch id 0, and plain cases numbered like a batch (`C26_batch_zero_fails`, `C26_merge_fails`).
* `C26_no_case` (Discovery.lean, pcq): a file that matches a pattern without a case id is rejected, and nothing else is rejected with that message.
* `C26_accepted` (Discovery.lean, pcq): an archive in which every matching file has a case id, ids are all numbers or all strings, and there are enough points, is accepted.
* `C26_no_conflict` (Discovery.lean, pcq): the check for conflicting test cases never fires, whatever the archive.
* `C26_batch_zero_fails` (Discovery.lean, pcq): fails** for batch 0: two files of batch 0 do not become one batch but two plain cases.
* `C26_merge_fails` (Discovery.lean, pcq): fails** when a plain case is numbered like a batch: its file becomes part of the batch.
* `C26_duplicate_fails` (Discovery.lean, pcq): fails** when two input files have the same ids: the earlier one is dropped silently.

### C27 Input/output data selection and generator use

Within one grading of a case the generator is run at most once, explicit input and output files are used without running the generator when both are given, the expected output is the explicit file whenever one is configured, without a generator a file that is not configured counts as empty, and data is dropped after grading.

* `C27_at_most_once` (Data.lean, pq): Between two `free_data` calls the generator runs at most once, whatever the order of the accesses and whether or not it fails.
* `C27_explicit` (Data.lean, pq): With both files configured the generator is never run, and the answers are the normalised files.
* `C27_output_file` (Data.lean, p): The expected output is the configured output file whenever there is one: in every state, and without running anything.
* `C27_no_files` (Data.lean, p): Without a generator, a case that names no input file runs on empty input, and one that names no output file expects no output.
* `C27_same_run` (Data.lean, p): Input and expected output of a generated case come from one and the same generator run, however often and in which order they are asked for.
* `C27_freed` (Data.lean, p): Freed data is gone: the next generated access runs the generator again.
* `C27_failed_run_fails` (Data.lean, pcq): A failing generator is reported only once: the access that ran it raises, the next one answers with the output of the failed run.

### C28 Problem data lookup order

Problem files are looked up in memory, then in the problem directory, then in the archive; an error is raised exactly when none has it.

* `C28_lookup` (Data.lean, pcq): Memory wins over the directory, the directory over the archive; the lookup fails exactly when none of them has the file.

### C29 Configuration inheritance

Looking up a key in a nested node yields its own value if present, else the nearest non-empty enclosing node's value, else nothing; explicit values override defaults. Desired: get(key, default) returns an explicitly configured value (fails for falsy values, e.g. `cached: false`).

* `C29_nearest` (Config.lean, pq): a node's own value is used; otherwise that of the nearest enclosing node that has one (`pre` are the nodes in between, which have none and of which the enclosing ones are not empty). The result's parent is the node it was found in.
* `C29_missing` (Config.lean, pq): nothing is found exactly when neither the node nor an enclosing node has the item.
* `C29_empty_parent` (Config.lean, pq): an empty enclosing node ends the search.
* `C29_null_hides` (Config.lean, pq): an explicit null hides the value of an enclosing node.
* `C29_defaults` (Config.lean, pq): explicit entries override defaults, and defaults are used for all other keys.
* `C29_get_partial` (Config.lean, pq): (partial)**: `get(key, default)` returns the configured value if it counts as true, and the default when nothing is configured. Missing: configured values that count as false (`C29_get_falsy_fails`).
* `C29_get_default` (Config.lean, pq): the default is used when nothing is configured.
* `C29_get_falsy_fails` (Config.lean, pcq): fails** for `get` with a value that counts as false: `cached: false` reads as the default `True`.
* `C29_attr` (Config.lean, pq): attribute access is lookup of the name when that finds something.
* `C29_attr_dashed` (Config.lean, pq): and lookup of the dashed name when neither the node nor an enclosing one has the name.
* `C29_dashed_own_fails` (Config.lean, pcq): fails** for the dashed spelling: an own `time-limit` loses against an enclosing `time_limit`.
* `C29_iter` (Config.lean, pq): going through a list gives, in order, what its positions give; nothing is evaluated.
* `C29_iter_inherits` (Config.lean, pq): a setting that an element of a list of a node lacks is, when going through the list, that of the node.
* `C29_items_partial` (Config.lean, pq): going through the entries of a dictionary gives what its keys give, where nothing is dynamic; its keys are listed once each, and going through it without more gives them. For a list, there is an error.
* `C29_items_fails` (Config.lean, p): fails** for entries with a dynamic key: going through them gives the old value, and the code as an entry of its own.
* `C29_add_fails` (Config.lean, pq): fails** for the sum of two lists: it has the elements of both, but these no longer see the settings around them.

### C30 Dynamic configuration keys evaluate once

A dynamic key (`k+`, `k++`) is evaluated at most once per node, on first access; later lookups of the key return the stored value and never run code again.

* `C30_once_partial` (Config.lean, pcq): (partial)**: over any sequence of lookups of names not ending in `+`, through any nodes, no dynamic key of an object is evaluated successfully twice. Missing: lookups whose own name ends in `+` (`C30_plus_name_fails`).
* `C30_lazy` (Config.lean, pcq): a lookup evaluates nothing, or exactly one dynamic key, which is one for that very name in the node or an enclosing node; without evaluation the configuration is unchanged.
* `C30_stored_partial` (Config.lean, pcq): (partial)**: the first lookup of a name with one dynamic key runs its code once, stores the result in the node and returns it; after that, whatever other lookups are made, looking the name up again returns the same value without running anything. Missing: nodes with both `k+` and `k++` (`C30_both_fails`) and names ending in `+`.
* `C30_failed` (Config.lean, p): code that fails leaves the configuration as it was and the lookup fails.
* `C30_both_fails` (Config.lean, p): fails** when a node has both `k++` and `k+`: the second lookup of `k` runs code again.
* `C30_plus_name_fails` (Config.lean, p): fails** when names ending in `+` are themselves looked up: `k+` is evaluated twice.

### C31 Problem directory resolution

Problem root lookup returns the first configured root that contains the problem's init file, or a cached root that still contains it; an unknown problem raises an error. Desired: a returned root always contains the init file (fails for a cached problem that disappeared).

* `C31_root_partial` (Data.lean, pcq): If some configured root has the problem, the returned root has it too; it is the cached one if that still has the problem, otherwise the first configured one.
* `C31_unknown` (Data.lean, pq): A problem that no root has, and that was never found before, is an error.
* `C31_stale_fails` (Data.lean, -): A problem that has disappeared from all roots is still "found" in its old place.

### C32 Sandbox path canonicalisation

The path the sandbox checks is absolute, has no empty, '.' or '..' component, has exactly one leading slash, depends for absolute paths only on the path and for relative ones on the base directory joined with the path; canonicalisation is idempotent and equals lexical resolution.

* `C32_absolute` (Path.lean, pcq): an absolute path is checked as the result of walking its components from the root.
* `C32_relative` (Path.lean, pcq): a relative path is checked as the result of walking the components of the base directory and then its own.
* `C32_canonical` (Path.lean, pcq): the checked path is absolute, with single slashes between names none of which is empty, `.` or `..`.
* `C32_idempotent` (Path.lean, pcq): canonical paths are left alone, so checking is idempotent.
* `C32_pipe_fails` (Path.lean, pcq): fails** when the base "directory" is not a path (a descriptor of a pipe): `..` can remain.

### C33 Write access is recognised for every flag combination

An open request is treated as a write whenever its flags request writing, creation, truncation, exclusive creation or an unnamed temporary file; read-only opens without those flags are treated as reads.

* `C33_write` (Path.lean, pcq): an open request is treated as a write exactly if its access mode is not read-only, or it asks for creation, exclusive creation, truncation or an unnamed temporary file.

### C34 No file syscall outside the allowed tree

A path-taking syscall is let through exactly if its path pointer is non-null, the path is at most 4096 bytes and valid text, and its canonical path matches the read (or, for writes, write) filter; otherwise it is not executed and the program observes the prescribed error.

* `C34_sound` (Isolate.lean, pcq): (soundness): if the handler lets a path-taking syscall through then, whatever the memory layout and whichever reads the kernel grants, the path register points to a string of at most 4096 bytes that is valid text, and the place it leads to is permitted — by the write filter if the call opens for writing, else by the read filter.
* `C34_otherwise` (Isolate.lean, pcq): a call that is not let through is skipped and returns ENOENT; only when the link of the base directory cannot be read is the program killed instead.
* `C34_complete` (Isolate.lean, pcq): (completeness): a readable path of at most 4096 bytes of valid text, absolute or with a known base directory, is let through exactly if the place it leads to is permitted.
* `C34_table_partial` (Isolate.lean, pq): every Linux syscall with a path argument that the policy mentions, except `statfs` and `statfs64`, has that argument (with its directory descriptor) checked or is refused outright.
* `C34_opens` (Isolate.lean, pq): the calls that open files are checked as opens, with the flags from the right register.
* `C34_statfs_fails` (Isolate.lean, pq): fails** for `statfs` and `statfs64`: they take a path and are let through unchecked.

### C35 Process-affecting syscalls are confined to the process itself

kill/tgkill is executed only for the process itself, prlimit only on itself and only for reading or allowed, prctl only for whitelisted options; otherwise refused or the program is killed.

* `C35_kill` (Isolate.lean, pq): kill and tgkill are executed only if the kernel takes the process itself as the target; everything else returns EPERM.
* `C35_kill_exact` (Isolate.lean, pq): a target written as a non-negative 32-bit number is accepted exactly if it is the process itself.
* `C35_kill_groups` (Isolate.lean, pq): no process group and no "all processes" target is accepted.
* `C35_prlimit` (Isolate.lean, pq): prlimit is executed only on the process itself.
* `C35_prctl` (Isolate.lean, pq): prctl is executed only for the five listed options as the kernel reads them, else the program is killed.
* `C35_table` (Isolate.lean, pq): the policy uses these handlers for these calls, and no other call of theirs.

### C36 Default-deny syscall policy and seccomp consistency

A syscall number for which the policy lists nothing is denied, on every ABI; the in-kernel allow list contains only numbers whose handler is unconditional allow, never exit/exit_group.

* `C36_filter` (Sandbox.lean, pcq): for the repository's tables: exactly the calls the policy allows outright pass the filter without a stop, except the two that end a program.
* `C36_exits` (Sandbox.lean, pcq): ending a program always stops for the tracer, whatever the policy.
* `C36_default` (Syscalls.lean, pcq): a number none of whose ids is mentioned by the policy — in particular a number of no id — is denied, for any policy and any table.
* `C36_listed` (Syscalls.lean, pcq): a number of exactly one id gets exactly what the policy says for that id. A policy does not use the internal code 2.
* `C36_whitelist_partial` (Syscalls.lean, pcq): the kernel lets a number through without asking only if the tracer would allow it unconditionally, for tables without ambiguous numbers; exit and exit_group are never among them.
* `C36_whitelist_fails` (Syscalls.lean, pq): fails** for a table with an ambiguous number: an unconditional permission for its first name hides the check of its second.
* `C36_above` (Syscalls.lean, pq): numbers above the table are denied (except for the five ARM-private calls on ARM).
* `C36_negative` (Syscalls.lean, pq): for a negative number at most a handler is asked; without one the call is denied, and it never goes through unasked.
* `C36_negative_fails` (Syscalls.lean, -): fails** for negative numbers: Python's negative indices make the callback of number 568+n decide. (The kernel knows no negative numbers, so nothing is executed.)
* `C36_by_name` (Syscalls.lean, pcq): **C51** for the repository's tables: on each ABI the number of a name gets exactly what the policy says about the id of that name.
* `C36_unknown` (Syscalls.lean, pcq): for the repository's tables: a number a table does not mention is denied.
* `C36_kernel_list` (Syscalls.lean, pcq): for the repository's tables: the in-kernel allow list agrees with the handler table.

### C37 No denied syscall executes

For every sequence of tracer stops: after the initial exec, a syscall whose handler does not allow it is never resumed: the whole process group is killed and a protection fault naming that syscall is recorded; an allowed one resumes unchanged; a callback deciding false kills.

* `C37_seccomp_forbidden` (Monitor.lean, pq): A forbidden call is never let through (seccomp filtering, any state after the first exec).
* `C37_unreadable` (Monitor.lean, p): Forbidden or not: when the registers cannot be read for another reason than the thread having disappeared, nothing is restarted and the group is killed; when the thread has disappeared, nothing is restarted.
* `C37_seccomp_permitted` (Monitor.lean, pq): A permitted call is let through with its registers untouched and nothing else happens.
* `C37_ptrace_forbidden_partial` (Monitor.lean, pq): Without seccomp filtering, as long as nothing was cloned: a forbidden call is never let through. Missing: histories with clone, fork or vfork events (see `C37_clone_fails`).
* `C37_ptrace_permitted_partial` (Monitor.lean, pq): Likewise a permitted call is let through unchanged.
* `C37_checking` (Monitor.lean, pcq): Checking starts with the first exec and never stops again: with seccomp filtering from the moment exec is attempted, without it from the moment it succeeds.
* `C37_unchecked` (Monitor.lean, pq): Before that nothing is checked: every call goes through as it is, and only the first exec starts the checking (with seccomp filtering its attempt, without it its success).
* `C37_exit_reason` (Monitor.lean, pq): Once a fault was reported, the exit report says so.
* `C37_clone_fails` (Monitor.lean, p): Without seccomp filtering, after a clone the tracer takes entries for exits: a call forbidden by the policy (here number 41, `socket`; everything but `clone`, 56, is forbidden) is restarted unchanged. The history: initial stop, exec, clone (entry, clone event, exit), then the entry of the forbidden call.
* `C37_stdouterr_fails` (Monitor.lean, p): A call limited to the standard output streams and used on another descriptor is reported and the group killed, but the thread is restarted as well. No policy in the repository uses this handler.
* `C37_stdouterr` (Monitor.lean, pcq): Such a call is nevertheless always reported and killed, before the restart.

### C38 Strings read from the child are exact or rejected

Reading a path from the child either returns exactly the bytes up to the first NUL (at most 4096 of them), or reports it as too long/unreadable; a truncated string is never used.

* `C38_exact` (ReadStr.lean, pcq): a string handed on is exactly the string at the address, of at most 4096 bytes — whatever the page size, whichever reads the kernel grants or refuses, in both reading modes.
* `C38_too_long` (ReadStr.lean, pcq): a path reported as too long really has more than 4096 bytes before its zero byte.
* `C38_complete` (ReadStr.lean, pcq): a string of at most 4096 bytes lying in readable pages is always read (page reads).
* `C38_complete_words` (ReadStr.lean, pq): the same for word reads, provided every word up to the one with the zero byte can be read.
* `C38_answers` (ReadStr.lean, pcq): a non-null pointer into memory readable word by word is never reported as null, whether or not page reads work: together with the above, every such read yields the exact string or "too long".
* `C38_mode` (ReadStr.lean, pcq): reading word by word is taken up for good exactly when the first page of a string could not be read at once although the string could be read by words, and is never left again.

### C39 String reads stay inside their buffer

Neither string reading routine writes outside the buffer it allocated. Desired for all page sizes and both routines; fails for the word-by-word routine and for pages larger than the limit.

* `C39_pages_partial` (ReadStr.lean, pcq): no write leaves the buffer if pages are no larger than the limit and no read has to fall back to words, for every memory layout and address.
* `C39_short_partial` (ReadStr.lean, pq): with any kernel behaviour and in both modes, no write leaves the buffer if the string is shorter than 4096 bytes and pages are no larger than the limit.
* `C39_words_fails` (ReadStr.lean, pq): fails** for word reads: a path of 4096 or more bytes makes the routine write eight bytes at offset 4096 of an allocation of 4098.
* `C39_large_page_fails` (ReadStr.lean, pq): fails** for 64 KiB pages: the first read is not limited by the size of the buffer.

### C40 Directory descriptor decoding

The directory descriptor argument is decoded as the kernel does: the low 32 bits as a signed integer, for every register value.

* `C40_decode` (Path.lean, pcq): the descriptor is the low 32 bits of the register as a signed number, which is how the kernel reads an `int` argument.
* `C40_cwd` (Path.lean, pcq): the current directory is used exactly for `AT_FDCWD` (-100) in any width.

### C41 Time accounting arithmetic

Adding and subtracting time stamps keeps nanoseconds in [0,1e9) and is exact; accumulated running time equals the sum of the intervals between resume and stop.

* `C41_add` (Time.lean, pcq): Addition is exact and normalised.
* `C41_sub` (Time.lean, pcq): Subtraction is exact when positive, zero otherwise, and normalised.
* `C41_total` (Time.lean, pcq): The accumulated running time is the sum of the waits, whatever their number; with a monotonic clock it is exactly the time spent waiting for the program.
* `C41_monotone` (Time.lean, pcq): Running time never decreases.
* `C41_wall` (Time.lean, pcq): Wall time: while running, from the first stop's wait to now; afterwards to the end; zero before the first stop.

### C42 Resource verdicts

A finished process is flagged time-limit-exceeded when it was killed for time or its execution time exceeds the limit, memory-limit-exceeded exactly when its peak exceeds a positive limit, runtime error on abnormal signals, invalid return exactly on nonzero exit; a clean exit within limits has no flag.

* `C42_flag_bits` (Verdict.lean, pcq): Exactly the prescribed bits are added, each exactly under its condition.
* `C42_clean_iff` (Verdict.lean, pcq): A process gets no flag exactly when it exited with 0 inside all limits.
* `C42_mono` (Verdict.lean, pcq): The Mono executor adds only MLE, and only for an allocation failure reported by a process that exited nonzero.

### C43 Bounded communication

Feeding a process its input and collecting its output: bytes written are always a prefix of the input, collected output is exactly the bytes read in order, never more than the limit plus one chunk is buffered, exceeding the limit raises the output-limit error and marks the process, and at most the limits are returned. Desired: exceeding any limit raises that error (fails for stderr after stdout closed).

* `C43_order` (Communicate.lean, pq): Only what `poll` reported is acted upon, in that order.
* `C43_sent` (Communicate.lean, pcq): Whatever happens, the bytes the process has been sent are a beginning of the input.
* `C43_sent_all` (Communicate.lean, pcq): When `stdin` is closed the process has been sent the whole input or has refused to take more; as long as it is open there is something left to send.
* `C43_returned` (Communicate.lean, pcq): If the call returns, what it returns is exactly the bytes read from the two streams, in order, within the limits; every stream is closed, and was read until its end; the process is not marked.
* `C43_buffered` (Communicate.lean, pcq): At no time is more than a limit and one chunk of 4096 bytes held of a stream.
* `C43_raised` (Communicate.lean, pcq): The output-limit error is raised only for a stream of which more than its limit was read, it names the stream and its limit, and the process is marked.
* `C43_stdout` (Communicate.lean, pcq): As soon as more than the limit was read from standard output the call ends with the output-limit error.
* `C43_stderr_partial` (Communicate.lean, pcq): As soon as more than the limit was read from standard error the process is marked and the call ends, with the output-limit error if standard output is not there or still open. What is missing: if standard output has been closed before, the call ends with a `ValueError` instead.
* `C43_stderr_fails` (Communicate.lean, pq): A process which closes its standard output and then writes more than the limit to its standard error makes the call end with a `ValueError`, not with the output-limit error.
* `C43_registered` (Communicate.lean, pq): With a well-behaved `poll` no unregistered stream is touched.
* `C43_waits` (Communicate.lean, p): The call returns as soon as no stream is open, and waits for more as long as one is.
* `C43_progress` (Communicate.lean, pcq): As long as the process has not been sent its input it gets on: whenever there is room for `n` bytes it is sent the next `n` of them, or 4096 if that is less.
* `C43_limits` (Communicate.lean, p): The limits: 10 MiB unless told otherwise, and the same for both streams unless told otherwise.

### C44 Symlinks stay inside the submission directory

A symlink configured for a test case is only created inside the submission's directory, everything else is refused. Fails: a sibling directory sharing the name prefix is accepted.

* `C44_inside_partial` (Symlink.lean, pq): A link is made only at or below the submission's directory, or, which is what is missing, at or below a directory beside it whose name begins with the name of the submission's directory.
* `C44_complete` (Symlink.lean, pq): Every name for a place at or below the directory is accepted (but for names beginning with exactly two slashes, which mean something of their own).
* `C44_sibling_fails` (Symlink.lean, pcq): A link can be made outside of the directory.
* `C44_links` (Symlink.lean, pq): If all names are accepted and nothing but links is in the way, afterwards each name has its link (the last one, if several names mean the same place), and nothing else has changed.
* `C44_touched` (Symlink.lean, p): Whatever the outcome, only accepted places are touched.
* `C44_refused` (Symlink.lean, p): A refused name ends the loop with the error.

### C45 Compiled-binary cache identity

Two compilations share a cache entry only if they would produce the same program: same executor, problem name, sources and options. Fails: fields are concatenated without separators, so distinct requests collide; under unambiguous separation the key is injective.

* `C45_base_partial` (Cache.lean, p): For one class of executor and one problem, executors share an entry exactly if their sources are the same. What is missing: nothing separates the problem from the source, nor the class from the module.
* `C45_gcc_partial` (Cache.lean, pq): Two C or C++ requests for the same file names, with as many options, each of the same length, and file contents of the same lengths, share an entry only if they are the same. What is missing: requests which differ in the lengths of these, or in the names of the files.
* `C45_base_fails` (Cache.lean, -): Different requests for the same executor share an entry: another problem and source.
* `C45_gcc_fails` (Cache.lean, -): Different requests for the same executor, problem and options share an entry: text moved from the end of one auxiliary file to the beginning of the next, or a file under another name.

### C46 Compiled-binary cache lifetime

The cache never holds more than its capacity; a cache hit returns the executable stored by the compilation with that key; a cached directory is not deleted while its entry is in the cache. Desired: an executor obtained from the cache stays runnable while it is held (fails after eviction).

* `C46_capacity` (Cache.lean, pcq): The cache never holds more than its capacity, and one entry per key.
* `C46_program` (Cache.lean, pcq): Whatever executor is held, its directory holds the program compiled for its own key.
* `C46_kept` (Cache.lean, pcq): The directory of a cached executor is not deleted while it is in the cache.
* `C46_held_partial` (Cache.lean, pcq): A held executor keeps its directory if it made it itself, if the executor that made it is held too, or if that one is in the cache. What is missing: an executor obtained from the cache loses its directory when the one that made it has been let go of and is evicted.
* `C46_evicted_fails` (Cache.lean, pq): An executor obtained from the cache, still held, whose directory has been deleted.
* `C46_hit` (Cache.lean, pcq): A call whose key is in the cache, with the executable still there, compiles nothing: the new executor uses the directory compiled for its key, and no directory is made or deleted.
* `C46_present` (Cache.lean, pq): No directory that has been deleted holds an executable: when an executor is taken from the cache because the executable is there, its directory is there as well.
* `C46_least_recent` (Cache.lean, pcq): The cache holds the keys used most recently, as many as fit: the entry given up is always the one not used for the longest time.

### C47 Brainf*** translation

A program is rejected exactly when its brackets do not match; for an accepted program the generated C body has matching braces, ignores comment bytes, and translation is compositional.

* `C47_accepts` (BF.lean, pcq): Source text is accepted exactly if it is a BF program.
* `C47_brackets` (BF.lean, pcq): It is rejected exactly if the brackets do not match: at some place more were closed than opened, or some are left open.
* `C47_frame` (BF.lean, pcq): The C program compiled is the fixed frame with the translation of the source as the rest of `main`.
* `C47_parts` (BF.lean, pcq): Translation goes byte by byte: parts can be translated separately, and comments vanish.
* `C47_meaning` (BF.lean, pcq): The C text means what the source means: however the source is read as a BF program and the text as C statements, both run in lockstep, from the same machine state: after any number of steps the tape, the position, the input consumed and the output are the same, and the one has finished exactly if the other has.
* `C47_statements` (BF.lean, pcq): And it is C of that kind, in exactly one way, for every accepted source.
* `C47_memory` (BF.lean, pcq): The program is given a tape of the memory limit, and itself may use 8 MiB more.

### C48 Interactor tokenisation and integer range

An interactive judge reading tokens gets exactly the whitespace-separated tokens of the stream regardless of how reads and token/line calls interleave; an integer read is returned only if it is a valid integer of at most the permitted digits inside the requested inclusive range, otherwise wrong answer.

* `C48_nothing_lost` (Interactor.lean, pq): No word is lost, made up or returned twice, however the calls are mixed: what was returned, what is held back and what is still to be read have the words of the stream.
* `C48_order_partial` (Interactor.lean, pq): If lines are only asked for when no token is held back, the words come in the order of the stream. What is missing: a line asked for earlier overtakes the tokens held back (`C48_order_fails`).
* `C48_order_fails` (Interactor.lean, pcq): `a b`, `c`: a token, then a line, then a token give `a`, `c`, `b`.
* `C48_lines` (Interactor.lean, pcq): Every stream has lines, in one way.
* `C48_tokens` (Interactor.lean, pcq): Reading tokens one after the other gives the tokens of the lines in order; when there are no more, the end of the stream is reported, again and again.
* `C48_words_partial` (Interactor.lean, pcq): If no line is blank or begins with a blank, the tokens are exactly the words of the stream. What is missing: see `C48_blank_fails`.
* `C48_stripped` (Interactor.lean, pq): Whatever the lines are like: without the empty tokens and the blanks around the others, the tokens are the words of the stream.
* `C48_blank_fails` (Interactor.lean, pcq): A blank line is a token, and blanks before the only word of a line are part of the token.
* `C48_delim` (Interactor.lean, pq): A token up to a delimiter: the line (what is left of it, or a new one) is cut at the first place where the delimiter stands, and the delimiter is dropped; if it stands nowhere, all of the line is the token.
* `C48_delim_line` (Interactor.lean, p): A new line is only asked for when nothing is left of the last one.
* `C48_delim_fails` (Interactor.lean, pcq): The empty field after a last delimiter is lost, and an empty delimiter is not refused.
* `C48_int_unique` (Interactor.lean, pq): The value of an integer's text is unique.
* `C48_int` (Interactor.lean, pcq): An integer is returned exactly when the token is the text of an integer, not too long, and inside the bounds (both included).
* `C48_int_else_partial` (Interactor.lean, pcq): Otherwise the answer is wrong, if the token is text and the bounds fit a double. What is missing: `C48_internal_fails`.
* `C48_int_eof` (Interactor.lean, pcq): No token: the end of the stream.
* `C48_internal_fails` (Interactor.lean, pcq): A token that is not text ends the case in an internal error instead of a wrong answer; so does a bound too large to be written in the message.
* `C48_float` (Interactor.lean, pcq): A float is returned only inside the bounds, and NaN never.
* `C48_float_else_partial` (Interactor.lean, pcq): Any other token is a wrong answer, if it is text. What is missing: the same as `C48_internal_fails`.
* `C48_float_ok` (Interactor.lean, pcq): A token that is a float within the bounds is returned.
* `C48_float_eof` (Interactor.lean, pcq): No token: the end of the stream.

### C49 Local submission lookup

A submission id typed by the user resolves to exactly the submission listed with that id and out-of-range ids (including zero and negatives) are refused.

* `C49_lookup` (Commands.lean, pq): An id resolves exactly to the submission which the (unlimited) list of submissions shows with that id; every other number is refused, zero and negative ones too.
* `C49_listed` (Commands.lean, pq): The list of submissions shows every submission once, with the id it is found by.
* `C49_resubmit_fails` (Commands.lean, pq): Resubmitting is refused always: the check for the problem looks at something that is never a problem's name.
* `C49_stable` (Commands.lean, pcq): In any session: the history only grows, so an id means the same submission for ever.
* `C49_submit_id` (Commands.lean, pcq): A submission accepted at any point of a session is graded under the id by which it is found at once, and which no earlier submission has.
* `C49_refused` (Commands.lean, pcq): A refused command leaves the history as it was.
* `C49_rejudge` (Commands.lean, p): Judging again takes the submission of the typed id.
* `C49_rejudge_id_fails` (Commands.lean, pcq): But it is graded under the id of the latest submission.
* `C49_checked_partial` (Commands.lean, pcq): A submission with the language given is recorded only if the problem and the language are known and the limits are positive. What is missing: when the language is guessed from the file name (`C49_guessed_fails`).
* `C49_language` (Commands.lean, pcq): Without a language the one that goes with the name of the file is taken: what follows its first dot, in capital letters, except for three extensions.
* `C49_guessed_fails` (Commands.lean, pcq): With the language guessed from the file name, an unknown language and negative limits are accepted.
* `C49_limit` (Commands.lean, pq): A limited list shows a part of the full one, as long as asked for if there are so many submissions.
* `C49_limit_fails` (Commands.lean, pcq): The limit is documented as giving the most recent ones, but gives the oldest.
* `C49_source` (Commands.lean, pq): `show` and `diff` take a number for an id and everything else for a file.
* `C49_problems` (Commands.lean, pq): `problems` lists problems that match, in order, all of them unless limited, and at least one.

### C50 Child file descriptors closed

Before running the submission every open descriptor numbered 3 or above is closed except none; the name parser recognises exactly decimal names.

* `C50_names` (Child.lean, pcq): The name parser reads decimal names exactly and rejects every name with another character.
* `C50_empty_fails` (Child.lean, pcq): The parser does not recognise only numerals: the empty name (which no directory contains) is taken for descriptor 0.
* `C50_closefrom` (Child.lean, pcq): Whatever way the kernel hands out the directory, afterwards no descriptor from `low` on is open and the others are as before.
* `C50_brute_partial` (Child.lean, pcq): The fallback closes everything up to the descriptor limit.
* `C50_brute_fails` (Child.lean, pcq): The fallback misses descriptors above the limit (opened before it was lowered).

### C51 Syscall translation table

Every syscall name gets one id; aliases share their target's id; for every ABI the table maps each number to the id of its name, and policy keyed by id reaches every ABI's number for that name.

* `C51_listed` (Syscalls.lean, pcq): every name of every table has an id, below `SYSCALL_COUNT`, and the table of that id lists its number.
* `C51_only` (Syscalls.lean, pcq): an id lists a number only if the table gives that number to a name with that id.
* `C51_same` (Syscalls.lean, pcq): two known names share an id exactly if they are equal or aliases of each other.
* `C51_by_id` (Syscalls.lean, pcq): names not in the alias file name their id.
* `C51_by_id_alias` (Syscalls.lean, pcq): the id of an alias class is named after the first name on its line.
* `C51_tables` (Syscalls.lean, pcq): in the repository's tables no number is listed under two names, and all numbers are below the size of the handler array.
* `C51_abi` (Syscalls.lean, pcq): the calls that deal with files and processes have the numbers of the kernel, on each of the four kinds of machine: the number belongs to the id of the name, and to no id of another call.

### C52 Helper program failures are reported as internal errors

When a helper program (checker, generator, interactor) misbehaves, the error raised names the most specific cause in the order time limit, memory limit, protection fault, nonzero exit; no misbehaviour is silently ignored.

* `C52_priority` (Verdict.lean, pcq): The cause reported is the first applicable one of: time limit, memory limit, protection fault, exit code, signal.
* `C52_nothing_ignored` (Verdict.lean, p): Where the outcome of a helper is not decided by its exit code (generators), nothing is ignored: no error is raised only if the helper exited with 0 within its limits and without a protection fault.
* `C52_protocol_ignores_limits_fails` (Verdict.lean, pcq): For checkers and interactors a helper that used more than its limits but exited with a recognised code is silently accepted.
* `C52_default_partial` (Verdict.lean, pq): (part). A helper that was killed, or exited with an unrecognised code, is never accepted by the default protocol. Missing for the full property: recognised exit codes 0 and 1.

### C53 Bridged interactive grading verdict

In bridged interactive grading the interactor's verdict counts only if the submission itself triggered no error, interactor failures surface as internal errors.

* `C53_interactive_ac` (Verdict.lean, pcq): In interactive grading a case is AC exactly if the process did nothing wrong and the interaction ended with a passing answer.
* `C53_interactive_error` (Verdict.lean, pcq): If the process did something wrong the case gets 0 points and WA besides its flags, whatever the interaction said (unless the interaction itself raised).
* `C53_interactive_wrong` (Verdict.lean, pcq): A wrong answer raised by the interaction is WA with 0 points and that message.
* `C53_bridged_interactor_error` (Verdict.lean, pq): An interactor failure is always an internal error, whatever the process did.
* `C53_bridged_error` (Verdict.lean, pcq): With a working interactor, a process that did something wrong gets 0 points whatever the interactor said.
* `C53_bridged_silent` (Verdict.lean, pcq): An interactor whose exit the protocol gives no answer for never gets a submission accepted: that is an internal error.
* `C53_bridged_answer` (Verdict.lean, pcq): What the interactor says decides otherwise: the points are those of its answer, and the case is right exactly if it says so.
* `C53_bridged_default` (Verdict.lean, pcq): End to end with the default protocol: a case is AC exactly if the process did nothing wrong and the interactor exited with 0, and then gets the full value; exit 1 is WA with 0 points; any other exit code of the interactor is an internal error.

### C54 Regression-suite expectations

A test-suite expectation for a case is met exactly when the produced codes/feedback/score are among the permitted ones, and a suite run fails exactly when some expectation is unmet; where nothing is said every case is expected to be correct, with any points and feedback.

* `C54_applies` (TestSuite.lean, pq): Exactly one expectation of each kind holds for a case.
* `C54_source_partial` (TestSuite.lean, pcq): A source fails its test exactly when something the worker reported does not meet the expectations. What is missing: expectations that are not `Sane` (`C54_points_fails`, `C54_feedback_fails`, `C54_any_points_fails`), and expectations for cases that are not reported (`C54_missing_fails`).
* `C54_points_fails` (TestSuite.lean, pq): If internal errors are permitted, wrong points for a case go unnoticed: the text of the complaint cannot be made, and the exception counts as a permitted internal error.
* `C54_feedback_fails` (TestSuite.lean, pq): Feedback written as a number is never compared: the complaint cannot be made, nor can the complaint about that.
* `C54_any_points_fails` (TestSuite.lean, pq): "Any points" for a single case makes the test fail whatever the points.
* `C54_missing_fails` (TestSuite.lean, pq): An expectation for a case that is never reported is not missed.
* `C54_codes` (TestSuite.lean, pcq): The codes permitted are the ones written; a document naming an unknown code, or anything but names, is an error.
* `C54_list` (TestSuite.lean, pcq): Expectations written as a list are those of the cases 1, 2, 3 and so on; the others have the general one.
* `C54_points` (TestSuite.lean, pq): Numbers are expected as written, apart from fractions in a list: these are cut off.
* `C54_fraction_fails` (TestSuite.lean, pcq): Half points in a list are taken for none.
* `C54_points_refused` (TestSuite.lean, pq): Nor is a fraction standing alone, or nothing in a list, taken for points: the test counts as failed.
* `C54_feedback` (TestSuite.lean, p): Feedback as the documents give it: any, one, or one of several.
* `C54_defaults` (TestSuite.lean, pcq): What is expected where the documents say nothing: that every case is correct, with any points and any feedback.
* `C54_exit_partial` (TestSuite.lean, pcq): The suite exits with 0 exactly when every test directory passes or is skipped, and with 1 otherwise; unreadable or malformed tests do not pass. What is missing: as for `C54_source_partial`.
* `C54_exit_any` (TestSuite.lean, pcq): A failure anywhere is never hidden by other tests.
* `C54_last_document` (TestSuite.lean, pq): What the documents of a test say together: each key has the value of the last document that has it.

### C55 Long integer parsing guard

With the guard installed, converting text longer than the digit limit to an integer raises ValueError and every other conversion behaves as before.

* `C55_long` (IntPatch.lean, p): With the guard installed, text of more than 10000 characters is refused with `ValueError`, before the conversion (whatever that would do).
* `C55_same_partial` (IntPatch.lean, pq): Every other conversion of something gives what it gave before, an `int` proper. What is missing: `int()` with nothing to convert (`C55_nothing_fails`).
* `C55_nothing_fails` (IntPatch.lean, p): `int()` is 0 without the guard and a `TypeError` with it, whatever the real `int` does.
* `C55_unapply` (IntPatch.lean, p): Removing the guard brings everything back.
* `C55_derived` (IntPatch.lean, p): A class derived while the guard is installed refuses long text too, and makes its own objects otherwise.
* `C55_instance` (IntPatch.lean, p): The tests programs make still hold: an integer is an instance of the guarded `int` exactly when it is one of the real one, and the two compare equal.
* `C55_derived_instance` (IntPatch.lean, p): A class derived from the guarded `int` gives objects that are integers, for the guarded name and for the real one.
* `C55_derived_instance_fails` (IntPatch.lean, p): But a class derived from the guarded `int` takes every integer for its instance.
* `C55_equal` (IntPatch.lean, pq): Two classes compare equal exactly if they are the same, or one is the real `int` and the other the guarded one or derived from it.
* `C55_equal_fails` (IntPatch.lean, p): But a class derived from the guarded `int` compares equal to the real one, and one derived from the real one does not; equality of classes is no longer transitive.

### C56 The tracer judges the call the kernel will run

Whenever the kernel runs a system call for a traced program, the ABI and number the tracer looked up in its policy are those of that call, for every register value and entry instruction; replacing or skipping a call has the intended effect in every ABI. Fails: int 0x80 from 64-bit code is judged as a 64-bit call.

* `C56_native` (Abi.lean, pq): 64-bit code using the `syscall` instruction: whenever the kernel runs a call at all, the tracer judged exactly that one, for every register value.
* `C56_compat` (Abi.lean, pq): 32-bit code, any entry.
* `C56_negative` (Abi.lean, pq): Numbers with the top bit set, which the kernel has no call for, are judged as negative numbers.
* `C56_skip` (Abi.lean, pq): Writing a number of the same ABI back: the kernel and the tracer both see it. With -1 (refused under seccomp) the low half of the register is -1, which makes the kernel skip the call, in every ABI.
* `C56_replace` (Abi.lean, pcq): Replacing the number keeps the ABI and is read back.
* `C56_int80_fails` (Abi.lean, pq): The full property fails: 64-bit code may use `int 0x80`. Number 5 then is the 32-bit `open`, while the tracer judges the 64-bit call 5, `fstat`, which the policy allows without looking at its arguments.

### C57 A refused call is not executed and reports its error

When the policy refuses a call with an error code, the call is not executed and the program sees exactly that error; if the registers cannot be updated the program is killed. Fails without seccomp when two threads have refused calls in flight.

* `C57_seccomp` (Monitor.lean, pq): Under seccomp filtering a refused call is not executed (its number becomes -1) and its result is the prescribed error, in any state.
* `C57_write_back` (Monitor.lean, pq): If the registers cannot be written back, the call is not let through.
* `C57_ptrace_partial` (Monitor.lean, pq): Without seccomp filtering: a refused call is replaced by the harmless one at entry, and at its exit the result becomes the prescribed error, provided nothing was cloned before and no other thread makes a system call in between. Missing: other threads (see `C57_threads_fails`) and clones.
* `C57_threads_fails` (Monitor.lean, p): Two threads with refused calls in flight: the first to return gets the error of the other one, and the other one gets the result of the harmless call.

### C58 Nothing outlives the program

Supervision ends exactly when the main process is gone, every forked process still alive is killed then, and signals are passed on to the program except the initial stop.

* `C58_end` (Monitor.lean, pq): The loop ends exactly at the death of the main process (or of the process that never got to its first stop); then every forked process still alive is killed, and nothing else is.
* `C58_signal` (Monitor.lean, pq): Signals other than traps are delivered to the program, except at the very first stop.
* `C58_trap` (Monitor.lean, p): A trap is reported as signal 5, for the program itself and not at the very first stop, and never delivered.

### C59 The child's standard streams

The submission starts with exactly the three standard streams it was given and no other descriptor. Fails when a requested stream sits on a standard descriptor overwritten before it is used.

* `C59_streams_partial` (Child.lean, pq): The child's standard streams are the ones asked for (or inherited where none was), provided no requested stream sits on a descriptor an earlier `dup2` has overwritten; everything from 3 on is left alone. Missing: such requests, see `C59_clobber_fails`.
* `C59_only` (Child.lean, pcq): With all three redirected and the rest closed, the submission starts with exactly its three streams.
* `C59_clobber_fails` (Child.lean, p): Asking for the parent's standard input as output after redirecting input gives the new input.

### C60 Resource limits

Address space, data, CPU, process-count, file-size and core limits are imposed exactly when asked for, with the requested amounts plus the documented grace.

* `C60_limits` (Child.lean, pcq): Memory and processor limits are imposed exactly when a memory (time) limit is given; the kernel's limits leave room above the accounted ones, so that crossing the accounted limit is what is reported.
* `C60_nproc` (Child.lean, p): The process and file-size limits are imposed exactly when they are not negative; zero (the default) forbids new threads and any file growth.
* `C60_wall` (Child.lean, -): The default wall-time limit is three times the time limit.

### C61 Submission directories are removed

A directory the judge made for a submission that still exists belongs to an executor which is in use or in the compiled-binary cache; an uncached executor's directory is removed when it is let go of, and no other directory is touched. Fails: the directory of a cached compilation that fails, and that of a cached executor whose executable was lost and which is compiled again, stay forever.

* `C61_no_leak_partial` (Cache.lean, pcq): As long as nothing goes wrong on disk, a directory which is still there belongs to an executor which is held or in the cache. What is missing: the cases of `C61_failed_fails` and `C61_replaced_fails`.
* `C61_failed_fails` (Cache.lean, pq): The directory of a failed compilation for the cache is never removed: it belongs to no executor.
* `C61_replaced_fails` (Cache.lean, pq): The directory of a cached executor whose executable was lost is left behind when its key is compiled again.
* `C61_uncached` (Cache.lean, pcq): An executor which is not cached takes its directory with it when it is let go of.

### C62 The kernel executes only what the policy lets through

On x86-64 with seccomp filtering, after the program was started, every system call the kernel executes for it - through the in-kernel filter, or by the tracer restarting the thread, in whichever ABI - has a name in the table of that ABI, an entry in the policy and is let through by that entry; a file is opened only if the string at the address the kernel uses leads to a place permitted for what the flags ask; no executor's program gets a call executed that reaches beyond it or changes the directory tree.

* `C62_permitted_partial` (Sandbox.lean, pcq): whatever a program does after it was started — any ABI, any register contents, any history of stops — the kernel executes a system call for it only if this call has a name in the table of that ABI, the policy has an entry for the name, and this entry lets the call through. Missing: `int 0x80` from 64-bit code.
* `C62_escape_partial` (Sandbox.lean, pcq): with the policy of any executor, the kernel never executes a call for the program that reaches beyond it or changes the directory tree. Missing: `int 0x80` from 64-bit code.
* `C62_opens_partial` (Sandbox.lean, pcq): with the policy of any executor, a file is opened only if the string at the address the kernel uses leads to a permitted place — permitted for writing if the flags the kernel uses ask for that. Missing: `int 0x80` from 64-bit code, and the x32 ABI (see `C62_x32_fails`).
* `C62_paths_partial` (Sandbox.lean, pcq): the other calls with a path: the string at the address the kernel uses leads to a place that is permitted for reading, or — `execve` with the shell executor — that is a listed program. Missing: `int 0x80` from 64-bit code, the x32 ABI, and the unchecked calls of `C63_paths_partial`.
* `C62_x32_fails` (Sandbox.lean, pcq): fails** for the x32 ABI (if the kernel has it): the tracer looks at the string at the lower half of the address, the kernel opens the one at the whole address, which need not be permitted.
* `C62_int80_fails` (Sandbox.lean, pcq): fails** for the 32-bit entry from 64-bit code: the tracer takes 32-bit `open` (5) for 64-bit `fstat` (5). The kernel opens whatever file is named.

### C63 What the policies of the executors mean

The policy of an executor is the base policy with its additions, where the last entry about a call under any of its names counts and silence means denial; all names used exist; under no executor is a call possible that reaches beyond the program (other processes, network, devices, users, namespaces) or changes the directory tree; every call with a path argument that is not denied has exactly that argument checked; programs are started by the shell executor only, and only listed ones; only the shell executor may fork, .NET programs being told to try again, and procctl acts on the process itself only. Desired: no other program makes processes (fails: clone, which threads need, is allowed to all).

* `C63_effective` (Policy.lean, pcq): The dictionary holds, for a known call, the last entry given for it under any of its names, and nothing if there is none.
* `C63_decision` (Policy.lean, pcq): The tracer's decision for the number of a call is what the policy says about the call: allowed, asked of its handler, or denied if the policy is silent.
* `C63_escape` (Policy.lean, pcq): Under the policy of any executor no call that reaches beyond the program itself is ever executed, in no situation.
* `C63_tree` (Policy.lean, pcq): Nor one that changes the directory tree.
* `C63_plain` (Policy.lean, pq): Programs in these languages get what all programs get and nothing else; and no language has two policies.
* `C63_names` (Policy.lean, pcq): All names used by the executors are names of calls: setting up a policy never fails.
* `C63_paths_partial` (Policy.lean, pcq): Under the policy of any executor, a call with a path argument that is not denied is refused with an error or has exactly that argument (with its directory descriptor) checked — against the read list unless it opens — except `statfs`/`statfs64` and the two calls below.
* `C63_tcl_fails` (Policy.lean, pcq): With the TCL executor a program learns which files exist anywhere: `access` is allowed without a check.
* `C63_coffee_fails` (Policy.lean, pq): With the COFFEE executor `statx` is allowed without a check.
* `C63_opens` (Policy.lean, pcq): Opening files is checked as such by all executors: path, directory and flags from the registers the kernel uses.
* `C63_exec` (Policy.lean, pcq): The shell executor starts a program only if the kernel will take the path for one on its list; other executors start none.
* `C63_procctl` (Policy.lean, pcq): Only the Java executors let a program use `procctl` (FreeBSD), and only on itself, to ask for or set its stack gap.
* `C63_fork` (Policy.lean, pcq): Only a shell script may call `fork` (or `vfork`); the .NET languages are told to try again.
* `C63_clone_fails` (Policy.lean, pcq): But every program of every language may call `clone`, with whatever flags: it can start processes all the same.

### C64 Which places a program may read and write

The patterns handed to the sandbox compile, for every process id and submission directory without braces, to one pattern that matches a path exactly when one of the parts does; together they admit for reading exactly the listed system places, the files of the own process and what begins with the submission's directory, and for writing exactly /dev/stdout, /dev/stderr and /dev/null; so home directories, other submissions, /etc/passwd and other processes are out of reach. Fails: names that merely begin with the directory's name are included; a brace in the directory or a missing shell command makes every checked call raise; PHP's and Swift's additions admit unrelated files.

* `C64_join` (FsPatterns.lean, pcq): Joining the parts is taking any of them, if each is a pattern in itself.
* `C64_empty` (FsPatterns.lean, pcq): Without any part nothing passes.
* `C64_dir` (FsPatterns.lean, pcq): A directory without braces is let through with everything whose path starts like it.
* `C64_read` (FsPatterns.lean, pcq): Reading: for every process id and every directory without braces, and for any further patterns of the executor and the configuration that are patterns in themselves, the compiled pattern exists and lets through exactly the listed places and what the further patterns match.
* `C64_write` (FsPatterns.lean, pcq): Writing: whatever the process id, exactly the three device files (an executor without `write_fs`).
* `C64_hidden` (FsPatterns.lean, pcq): Nothing below the hidden beginnings can be read, unless the directory of the submission itself is there.
* `C64_process` (FsPatterns.lean, pcq): Nor anything of another process by its number.
* `C64_checked` (FsPatterns.lean, pcq): A checked call of a program run with the compiled patterns is let through only if its path leads to one of the places — to the writable ones if it opens for writing.
* `C64_sibling_fails` (FsPatterns.lean, pcq): The directory of the submission is not closed by a slash: a directory whose name merely begins with it is readable as well.
* `C64_raises` (FsPatterns.lean, pcq): A part that raises leaves the whole process without any readable place: every checked call then raises, which kills the program.
* `C64_brace_fails` (FsPatterns.lean, pcq): So with any brace in the directory: patterns are formatted, but the directory is only escaped for `re`.
* `C64_command_fails` (FsPatterns.lean, pcq): And with a command of BASH that is not installed (`find_executable` gives `None`).
* `C64_own` (FsPatterns.lean, pcq): Programs of these executors read the common places and this one.
* `C64_swift_fails` (FsPatterns.lean, pcq): Swift's `/lib` is not closed by a slash: any top-level name beginning so is readable.
* `C64_objc_fails` (FsPatterns.lean, pcq): Programs in Objective-C read the command line of every process besides the common places, and nothing else: what other submissions and the judge itself were started with is not out of reach.
* `C64_dart_perl` (FsPatterns.lean, pcq): Dart's programs read every file `vm-service`, Perl's what is below /etc/perl.
* `C64_php` (FsPatterns.lean, pcq): What PHP's programs read besides the common places, exactly: files called `php` with word characters and hyphens and `.ini`, and what looks like an ini file below a directory `conf.d`, anywhere.
* `C64_php_fails` (FsPatterns.lean, pcq): PHP programs read ini files of anyone: any path through a directory `conf.d`, where the dot even stands for any character.

### C65 The time limit is enforced

A program is said to have exceeded its time only if the kernel said so or a limit was exceeded; when it is reported dead, time over the limit has been noticed however it ended; a running program over its limits is killed within one more turn of the watchdog, under every interleaving of the threads involved; if no thread is starved for more than some time, a program is never alive for longer than its wall clock limit and five times that; without a limit nothing is killed; every dead program is reported and no thread is left behind; when the program could not be started no signal is sent. Fails: a program killed for its wall clock time can be reported before the flag is set (runtime error instead of time limit exceeded); the watchdog gives up if the process group is not found; it can signal the process id of a reaped program.

* `C65_no_false` (Watchdog.lean, pcq): A program is said to have exceeded the time limit, and is killed by the watchdog, only if the kernel said so (SIGXCPU) or there is a limit and the measured running time or the wall clock time is over it.
* `C65_late` (Watchdog.lean, pcq): When the program is reported dead, time over the limit has been noticed, however it ended.
* `C65_flagged` (Watchdog.lean, pcq): Once the watchdog that killed the program has finished, the verdict says so.
* `C65_watched` (Watchdog.lean, pcq): The watchdog stays as long as the program runs, unless `killpg` failed it.
* `C65_enforced` (Watchdog.lean, pcq): The limits are enforced. If a running program has used more than its limits and the monitor is woken up once, then at the latest four steps of the shocker thread later, one turn of its loop of one second, the program is no longer running: for every history up to then and however the other threads, the program and the clock are scheduled in between, if `killpg` finds the group.
* `C65_unlimited` (Watchdog.lean, pcq): Without a time limit there is no watchdog: nothing is killed and only the kernel's signal counts.
* `C65_ends` (Watchdog.lean, pcq): Every dead program is reported, and no thread is left behind: after four steps of the monitor thread `wait` returns, and after five more of the shocker thread it has ended, whatever else happens in between.
* `C65_failed` (Watchdog.lean, pcq): When the program could not be started, no signal is sent: the process id is 0 then and `killpg(0)` would kill the judge itself.
* `C65_bounded` (Watchdog.lean, pcq): The program is gone in time. If the threads of the judge are not starved for more than `σ`, then however the program, the clock and the threads are scheduled, its wall clock time is never more than its wall clock limit and five times `σ`; from then on it is dead and reported.
* `C65_stray_partial` (Watchdog.lean, pcq): The process id of a reaped program is signalled only in the window before its return code is published, and only if it was over its limits.
* `C65_race_fails` (Watchdog.lean, p): The hypothesis that the watchdog has finished is needed in `C65_flagged`: `kill` comes before `_is_tle = True`, so for a program killed for its wall clock time `wait` can return before the flag is set. The verdict is then a runtime error, killed by signal 9, instead of a time limit exceeded.
* `C65_group_fails` (Watchdog.lean, pq): `Found` is needed: when `killpg` fails the watchdog takes its task for done. The program keeps running and from then on nobody watches it, whatever happens.
* `C65_stray_fails` (Watchdog.lean, p): The window of `C65_stray_partial` exists: the watchdog can kill the process id of a program that `wait4` has already reaped, which may be someone else's by then.

### C66 Running a compiler

A compilation succeeds exactly if the compiler ended by itself with code 0 and its output was read to the end within the limit, and the warning is exactly that output; it is reported as timed out only after the limit, as too much output only with more than the limit, and otherwise with all of the output; over its time the compiler's process group is killed within one turn of the watchdog; once nobody holds the terminal the compilation ends. Fails: after too much output nobody stops the compiler; a process that left the group and holds the terminal blocks the judge for ever; a reaped process id can be signalled.

* `C66_success` (Compile.lean, pcq): A compilation succeeds only if the compiler was not killed by the watchdog and ended with code 0, all of its output was read, nobody can write more and it is within the limit; the warning reported is exactly that output.
* `C66_success_iff` (Compile.lean, pcq): And it does succeed whenever the output was read to its end within the limit and the compiler ended with code 0.
* `C66_error` (Compile.lean, pcq): A compile error is reported as a time-out only if the time limit was exceeded, as too much output only if there was more than the limit, and otherwise with all of the output of a compiler that ended by itself with a code other than 0.
* `C66_all` (Compile.lean, pq): `all` in the theorems above is what was written, in that order: nothing is lost, doubled or made up.
* `C66_no_false` (Compile.lean, pcq): The compiler is killed only after its time, and then the compilation fails.
* `C66_enforced` (Compile.lean, pcq): Once the time is over, four steps of the shocker thread later either the compilation is over or the whole group of the compiler is gone, whatever else happens, if `killpg` found it. This also holds after too much output, when nobody waits for the compiler any more.
* `C66_ends` (Compile.lean, pcq): When nobody has the terminal open any more the compilation ends: after as many steps of the main thread as there are bytes left, and two more.
* `C66_runaway_fails` (Compile.lean, p): After too much output the compilation is over and the executor's directory is removed, but nobody stops the compiler: it runs on, possibly until its time is over.
* `C66_verbose_fails` (Compile.lean, -): Too much output is a compile error even if the compiler succeeds: its code is never looked at.
* `C66_terminal_fails` (Compile.lean, pcq): A process that left the compiler's group and keeps the terminal open is not reached: whatever the judge's threads do and however long it takes, the compilation does not end.
* `C66_stray_fails` (Compile.lean, p): Between the test of `returncode` and `killpg` the compiler can be reaped: the signal goes to a process id that may be someone else's.

### C67 Problem roots and the list of problems

The search by depth finds exactly the directories that many levels below a root. Every list the updater sends contains exactly the problems with a readable init.yml in the roots the configuration means at that time, with their present times, and one is sent exactly if everything searched can be listed and the configuration has no illegal depth; at the start roots that are not directories are left out with a warning; between updates the reported problems come from the roots last found; every reported problem can be found when a submission comes in, if its init.yml is a file. Fails: a problem whose init.yml is a directory is reported but raises KeyError; a missing root stops every update, and after the first update also the list at reconnects; a missing root with a depth keeps the judge from starting; a problem in two roots is reported twice; an illegal depth is only warned about at the start, but after the first update no list can be sent and no problem is found any more; if the configuration is a single string, the roots are the directories in it until the first update and then it itself, so other problems are reported.

* `C67_depth` (Roots.lean, pcq): The search by depth finds exactly the directories that many levels down, whatever else the tree contains.
* `C67_depth_ok` (Roots.lean, pq): It succeeds exactly if every directory above that depth can be listed.
* `C67_update_partial` (Roots.lean, pcq): Whatever happened before, the list a turn of the updater sends contains exactly the problems with a readable `init.yml` in the roots that the configuration means now, with their present times. Partial: the configuration is a list, see `C67_string_fails`.
* `C67_sent_partial` (Roots.lean, pcq): It sends one exactly if all roots and all directories searched for them can be listed, and, once the judge runs, the configuration contains no illegal depth. Partial: as `C67_update_partial`.
* `C67_start` (Roots.lean, pcq): At the start the roots that are directories are kept, and there is a warning for exactly those that are not.
* `C67_bad_depth` (Roots.lean, pq): It warns of a depth exactly if the configuration contains one that is no number or negative; such an entry stands for no root (`C67_start`) and is not an error.
* `C67_between` (Roots.lean, pcq): Until the updater runs, what a connection reports, and where problems are looked for, are the roots found at the start.
* `C67_resolves_partial` (Roots.lean, pcq): If all that can be read under the name `init.yml` are files, then every problem reported is found when a submission for it comes in, in a directory with an `init.yml`. Partial: see `C67_directory_fails`.
* `C67_directory_fails` (Roots.lean, p): A problem whose `init.yml` is a directory is reported to the site, but a submission for it ends in a `KeyError`.
* `C67_missing_fails` (Roots.lean, pcq): A configured root that does not exist, or cannot be listed, keeps every turn of the updater from sending a list, whatever the other roots contain.
* `C67_reconnect_fails` (Roots.lean, p): At the start such a root is only warned about and the problems of the other roots are reported; after the first turn of the updater they no longer are, neither by it nor when the judge reconnects, though nothing in the file system changed.
* `C67_deep_missing_fails` (Roots.lean, pq): A root given with a positive depth that does not exist, or cannot be listed, is not warned about: the judge does not start.
* `C67_depth_fails` (Roots.lean, pcq): An illegal depth is only warned about at the start (`C67_bad_depth`), and the problems of the other roots are reported; but the list of warnings is then deleted, so after the first turn of the updater no list can be sent any more, neither by it nor when the judge reconnects, and no submission (graded in a copy of this process) finds its problem, whatever happens later.
* `C67_twice_fails` (Roots.lean, p): A problem that two roots have is reported twice, with two times; only one of the directories is used.
* `C67_string_fails` (Roots.lean, pcq): If `problem_storage_root` is a single string, the roots are the directories in it until the updater first runs, and then it itself: the judge reports other problems, and finds other problems, though nothing in the file system changed.

### C68 Interactive sessions

After the interactor returned, a submission waiting for input gets end of file, and only its own unread output can hold it; a submission that ended by itself gets exactly the interactor's verdict. With a bridged interactor the judge holds no end of the conversation once it waits, so when either side is gone the other is not left waiting by it; a standstill of both is one of their conversation or a full standard error; when both are gone the judge finishes. Fails: a submission found wrong while it waits for an answer is not told and gets the verdict of the time limit, as does one found right that writes more than a pipe holds; a standard error of more than a pipe stops the submission or the interactor until a time limit.

* `C68_input_ends` (Session.lean, pcq): After `interact` returned and its end of the pipe is closed, a program that waits for input is not kept waiting: it gets what is left, then end of file.
* `C68_kept_only_by_output` (Session.lean, pcq): Then only what it writes itself, a whole pipe of it that nobody reads, can keep it from going on.
* `C68_verdict` (Session.lean, pcq): A program that was judged, ended by itself and is done with gets exactly the verdict of the interactor.
* `C68_wrong_fails` (Session.lean, pcq): A program that waits for an answer when the interactor has found it wrong is not told: whatever happens, it waits until the time limit kills it, and the verdict is that of the time limit.
* `C68_output_fails` (Session.lean, pcq): The same happens to a program found right that goes on to write more than a pipe holds.
* `C68_no_early_end` (Session.lean, pcq): Nobody is told that the other side is gone while it is not: who reads from the one that is alive, or yet to be started, waits for it, and what is written to it is kept for it.
* `C68_no_ends` (Session.lean, pcq): Once the judge waits, it holds no end of the two pipes between submission and interactor.
* `C68_interactor_gone` (Session.lean, pcq): So when the interactor is gone the submission is not kept waiting by a read or write of the conversation: it gets the rest and then end of file, or an error.
* `C68_submission_gone` (Session.lean, pcq): And the other way round.
* `C68_stuck` (Session.lean, pcq): When both are stuck while the judge waits, they wait for each other's conversation, or one of them has filled its standard error, which the judge does not read before it is gone.
* `C68_stderr_fails` (Session.lean, pcq): A submission that has filled its standard error is stuck there, whatever the interactor does, until the time limit kills it.
* `C68_interactor_stderr_fails` (Session.lean, pcq): An interactor that has filled its standard error is stuck there until its own time limit kills it, and the submission is not judged at all.
* `C68_finishes` (Session.lean, pcq): When both programs are gone the judge finishes by itself: nothing is left to wait for.

### C69 Feedback on a failed case

A program stopped for a forbidden call is reported with the name of the call; nothing is said about one that ended normally or was over a limit; otherwise it is reported with the exception its runtime named, as failed to start, or with its signal. For C and C++ the exception is that of the last runtime message at the end of a line; for Python that of the last traceback; for .NET the name the runtime gave last, of any length, always one line without a colon. What such a program can make the judge show is a name of at most 40 (20) characters of the permitted class. Fails: a Java program can show any text without newline and colon, of any length; a crash log left by one case makes each later failing case an internal error.

* `C69_fault` (Feedback.lean, pcq): A program stopped for a forbidden call is always reported with the name of that call, whatever else happened to it.
* `C69_quiet` (Feedback.lean, pcq): Nothing is said about a program that ended normally or was over a limit.
* `C69_failed` (Feedback.lean, pcq): Otherwise a failed program is reported with what the language's runtime said, or as not started, or with its signal.
* `C69_cpp` (Feedback.lean, pcq): For C and C++ the runtime's message names the exception: the last one at the end of a line counts, unless there is too much text or too long a name.
* `C69_cpp_shape` (Feedback.lean, pcq): So a C or C++ program that is not stopped for a call cannot make the judge show text of its own: only a short name.
* `C69_python_shape` (Feedback.lean, pcq): Nor can a Python program.
* `C69_python` (Feedback.lean, pcq): An uncaught exception of a Python program is named, whatever was printed before: the last traceback counts. A traceback is the header, at least one line and otherwise indented ones, and a line with the name, optionally a colon and a message.
* `C69_java_partial` (Feedback.lean, pcq): What a Java program makes the judge show is one line without a colon. Partial: see `C69_java_fails`.
* `C69_java_fails` (Feedback.lean, pcq): But it is otherwise the program's choice, and as long as it likes: after the marker, which any program can print to its standard error, comes the text shown.
* `C69_log_fails` (Feedback.lean, pcq): A crash log left in the submission's directory by one case makes every later case that fails, for whatever reason, an internal error, even one stopped for a forbidden call.
* `C69_mono_shape` (Feedback.lean, pcq): What a .NET program makes the judge show is one line without a colon.
* `C69_mono` (Feedback.lean, pcq): The exception named last by the runtime is shown: on a line of its own after anything else, `lead` before the words (`[ERROR] `), `g` the name of the exception, and nothing after it that names another. The name may be of any length.

### C70 The class of a Java program

The class name found in a submission is never empty and contains no slash, dot, minus or white space, so it stays in its directory and is no option; it is the first public class declared in what is left after comments and literals are removed, and if there is none the program is rejected; a program that declares a package is always rejected, and only such a program is rejected for it. In a program whose literals and line comments contain no /* and whose line comments contain no quotes, exactly the comments and literals are removed and the first public class is used. Fails: a quote in a line comment or /* in a string hides the class; a comment between two words joins them; a comment on a last line without newline counts as code; names with $ are cut; nested public classes count.

* `C70_safe` (JavaClass.lean, pcq): The class name is usable as a file name and as an argument: it is not empty, names no other directory and is no option.
* `C70_none` (JavaClass.lean, pcq): A class is found exactly if, in what is left of the program, there is a declaration (with an ordinary name).
* `C70_first` (JavaClass.lean, pcq): The class used is declared in the program, and it is the first: no class with an ordinary name is declared before.
* `C70_strip_partial` (JavaClass.lean, pcq): In a clean program exactly the comments and literals are ignored. Partial: see the failures below for what else Java allows.
* `C70_lone` (JavaClass.lean, pcq): A quote that begins no literal is part of the code: an apostrophe with no character (or escape) and apostrophe behind it, a double quote that is the last.
* `C70_found_partial` (JavaClass.lean, pcq): So for a clean program without the word `package`, the judge uses exactly the first public class declared in the code, if its name is an ordinary one.
* `C70_package` (JavaClass.lean, pcq): A program that declares a package is never accepted: white space and any name of non-empty parts up to the semicolon; white space in the name does not help.
* `C70_package_only` (JavaClass.lean, pcq): And only such a program is refused for its package: the name that is shown is one of non-empty parts, between the word `package` with white space and a semicolon.
* `C70_quote_fails` (JavaClass.lean, pcq): A quote in a line comment hides the code up to the next quote.
* `C70_star_fails` (JavaClass.lean, pcq): So does `/*` in a string, up to the end of the next comment.
* `C70_join_fails` (JavaClass.lean, pcq): A comment as the only separation of two words joins them.
* `C70_last_fails` (JavaClass.lean, pcq): A last line that is a comment without an end of line is read as code: a package in it rejects the program.
* `C70_dollar_fails` (JavaClass.lean, pcq): A dollar sign, which Java allows in names, ends the name: a class `A$B` is written to `A.java`, which the compiler then refuses, and a class `$` is not found.
* `C70_nested_fails` (JavaClass.lean, pcq): A public class inside another class counts as well, even before the main class.

### C71 The environment and buffering of a program

A program finds in its environment exactly what the judge means to give it: under each name what the executor says, else what the configuration says, else the default, and nothing under other names; nothing of the judge's own environment reaches it but LD_LIBRARY_PATH (and PATH for the shell). Standard output of an unbuffered problem is unbuffered, and otherwise both streams have the buffering that was asked for. Fails: the configuration can undo an unbuffered problem's setting; a negative size is taken as almost 2^64.

* `C71_sees` (Launch.lean, pcq): A program finds in its environment exactly what the judge means to give it: under each name, what the executor says, else what the configuration says, else the default; and nothing at all under other names.
* `C71_no_leak` (Launch.lean, pq): Nothing of the judge's own environment reaches a program but `LD_LIBRARY_PATH` (and `PATH` for the shell): two judges that differ in anything else start programs with the same environment.
* `C71_names` (Launch.lean, pcq): Every string of the environment is a name of the judge's list or of the configuration, followed by `=`.
* `C71_starts` (Launch.lean, pcq): Starting fails for want of an environment only for the shell, if the judge has no `PATH`.
* `C71_stdout` (Launch.lean, pcq): Buffering of standard output: an `unbuffered` problem has it off, whatever else was asked for; otherwise it is what was asked for. (Unless the configuration sets the variable itself.)
* `C71_stderr` (Launch.lean, pcq): Buffering of standard error: what was asked for, whether the problem is `unbuffered` or not.
* `C71_garbage` (Launch.lean, pcq): A size that is followed by something else is none: the stream is left alone.
* `C71_empty` (Launch.lean, pcq): An empty size counts as zero.
* `C71_huge` (Launch.lean, pcq): A size beyond the numbers of the machine counts as the largest of these.
* `C71_config_fails` (Launch.lean, pcq): The hypothesis of `C71_stdout` about the configuration is needed: it comes last, so that a problem that asks for unbuffered output does not get it if the configuration gives the variable a value; and with a null for the library the stream is not looked at at all.
* `C71_negative_fails` (Launch.lean, pcq): The bound of `Asked` is needed: a negative size is not refused, it asks for a buffer of almost 2⁶⁴ bytes.

### C72 Configured graders, checkers and generators

The grader is the custom one if the problem has a custom_judge, else that for signatures, else the interactive one, else the standard one. The checker is the configured one of the case or around it, builtin or from a file of the problem, with its parameters, and the standard one if none is configured; what goes wrong is reported as an error of the configuration. A generator is run with the files, flags, language, limits and arguments configured for it, the arguments of the case first, and with the judge's limits where none are configured. Fails: caching of a generator cannot be turned off; a dynamic custom_judge is overlooked; a checker takes args from the problem around it; a checker without a name raises TypeError.

* `C72_lookup` (Helpers.lean, p): The lookups used here are those of `ConfigNode`, for nodes without dynamic keys for the name.
* `C72_grader` (Helpers.lean, pcq): The grader is the custom one if the problem has a `custom_judge`, else the one for signatures, else the interactive one, else the standard one: keys of the problem itself, whatever their values.
* `C72_grader_list` (Helpers.lean, pcq): The same for a problem whose configuration is a list: the words are looked for among its elements.
* `C72_dynamic_fails` (Helpers.lean, pcq): A `custom_judge` given by a dynamic key is overlooked, although looking it up gives a value: `in` goes through the keys as they are written.
* `C72_checker_default` (Helpers.lean, pcq): Without a checker in the case or around it, or with an empty or null one, the standard checker is used, without parameters.
* `C72_checker_string` (Helpers.lean, pcq): A string as checker: the builtin checker of that name, or the module in that file of the problem if there is a dot in it; it must have a `check`.
* `C72_checker_args` (Helpers.lean, pcq): Parameters that are not a dictionary: a list is called a mistake of the problem, anything else is a failure of the judge.
* `C72_checker_dict` (Helpers.lean, pcq): A dictionary as checker: its `name`, with its `args` as parameters, which must be a dictionary too.
* `C72_checker_error` (Helpers.lean, pcq): With a string as checker, what goes wrong is reported as an error of the configuration, unless the code of the checker raises something.
* `C72_checker_args_fails` (Helpers.lean, pcq): A checker given as a dictionary takes `args` from the case or the problem around it if it has none of its own.
* `C72_checker_name_fails` (Helpers.lean, pcq): A checker given as a dictionary without a name is not reported as an error of the configuration.
* `C72_gen_plain` (Helpers.lean, pcq): A generator given as a file name or a list of them is compiled and run with the judge's limits and the arguments of the case.
* `C72_gen_limits` (Helpers.lean, pcq): Limits of a generator given as a dictionary: those configured for it, or for the case or problem around it; the judge's where nothing is configured.
* `C72_gen_dict` (Helpers.lean, pcq): Files, flags, language and arguments of a generator given as a dictionary. The arguments of the case win over those of the generator.
* `C72_flags_dict` (Helpers.lean, pcq): Flags that are a dictionary are its keys.
* `C72_flags_string_fails` (Helpers.lean, pcq): Flags that are one string are taken apart into its characters: `flags: -O2` gives the three flags `-`, `O` and `2`.
* `C72_gen_invalid` (Helpers.lean, pcq): A generator whose `source` is a dictionary is refused as an invalid declaration.
* `C72_gen_source_fails` (Helpers.lean, pcq): A generator without `source`, or with a number, is not: there the judge fails with an internal error of another kind (`unwrap` of what is no node).
* `C72_cached_fails` (Helpers.lean, pcq): No declaration turns the caching of a generator off: `cached: false` counts as nothing (`get` gives the default for values that count as false).

### C73 Helper programs of several files

A helper program is made with the configured language, else with the best installed C++ (C) executor. A C or C++ program is compiled from exactly the given files, each with its own content, in the given order, if their names differ; a program in another language has exactly one file. The flags given come before those of the executor, and the compiler has the limit given. In signature grading the compiler is given the submission after its prefix, the header and the entry point. Fails: of two files of the same name in different directories one is silently dropped; an interactor without an own limit is compiled without any; a problem with a dot in its name, or a header named like the submission, breaks signature grading.

* `C73_lang` (Helpers.lean, pcq): The language of a helper program: the configured one, otherwise the best installed one of C++ if there is a C++ file among the sources, and of C if not.
* `C73_sources_partial` (Helpers.lean, pcq): A C or C++ helper program is compiled from exactly the given files, each under its own name with its own content, in the given order, if the names (without directories) differ.
* `C73_single` (Helpers.lean, pcq): Programs in other languages consist of one file.
* `C73_multi` (Helpers.lean, pcq): Several files in another language are refused.
* `C73_sources_fails` (Helpers.lean, pcq): The condition of `C73_sources_partial` is needed: of two files of the same name in different directories, the first is silently dropped.
* `C73_flags` (Helpers.lean, pcq): Options of the executor: the given flags come before its own; the limit of the compiler is the given one, and is taken away if none is given.
* `C73_kept` (Helpers.lean, pcq): A C or C++ helper program is kept for the next time exactly if this is asked for; others never are.
* `C73_interactor_limit_fails` (Helpers.lean, pcq): An interactor without a `compiler_time_limit` of its own is compiled without any limit, although its executor has one.
* `C73_signature_lang` (Helpers.lean, pcq): Submissions in other languages are refused.
* `C73_signature_partial` (Helpers.lean, pcq): With signature grading the compiler is given the submission, preceded by the include of the header and the renaming of `main`, the header and the entry point of the problem, each in a file of its own, if the names of problem and header are reasonable.
* `C73_signature_dot_fails` (Helpers.lean, pcq): The submission really is in the second file: a problem with a dot in its name has its submission and entry point in files without an extension the compiler knows.
* `C73_signature_header_fails` (Helpers.lean, pcq): A header called like the file of the submission replaces it: the submission is not compiled at all.

### C74 The executors the judge offers

The judge offers exactly those executors that have a module, that -e (if given) names and -x does not, that can be imported, whose configured programs exist, and that pass their self-test unless self-tests are skipped. A self-test is passed exactly if nothing raises, the program ends within its limits and prints the message and nothing to standard error. The version reported of a program is the first, longest dotted number in the output of the first flag that gives one. Unless self-tests are skipped every handshake names exactly the executors offered, with their versions at the start, and cannot fail. The judge starts unless one of three named things is wrong. Fails: a test program that prints and then crashes passes; with self-tests skipped a broken compiler keeps the judge from starting, another broken program keeps it from connecting; a key without a value keeps it from starting; a blank after a comma of -e silently loses an executor.

* `C74_available` (Loader.lean, pcq): The modules loaded are those with a file, that `-e` (if given) names, that `-x` does not name, apart from `BASH`; each once.
* `C74_offered` (Loader.lean, pcq): If the judge starts, the executors it offers are exactly those with a file that are wanted, can be imported, have all they need, and pass their self-test unless self-tests are skipped.
* `C74_selftest` (Loader.lean, pcq): The self-test of an executor not yet asked for its versions is passed exactly if nothing raises an exception, the program ends within its limits, prints the message, white space aside, and nothing to standard error.
* `C74_starts` (Loader.lean, pcq): The judge fails to start exactly if a wanted module raises something other than `ImportError`, needs a file whose key has no value, or is a C or C++ one, self-tests are skipped, and its compiler cannot be asked for its version.
* `C74_version` (Loader.lean, pcq): A version is the first run of numbers and dots in the output that has at least two (for C, C++ and Java: one) numbers, as long as possible.
* `C74_version_none` (Loader.lean, pcq): There is none exactly if the output has nothing of that shape.
* `C74_reports` (Loader.lean, pcq): The versions reported are, in the order of the class's programs, what the first flag with a version in its output says, and empty if none says any.
* `C74_handshake` (Loader.lean, pcq): Unless self-tests are skipped, every handshake names exactly the executors offered, with the versions their programs had at the start, whatever has become of the programs since.
* `C74_color` (Loader.lean, pcq): Whether the compiler of C or C++ is asked to colour its messages depends on the version its first program reports: it is if that is later than 4.9.
* `C74_crash_fails` (Loader.lean, pcq): A test program that prints the message and then crashes passes the self-test.
* `C74_broken_fails` (Loader.lean, pcq): A compiler of C or C++ that cannot be executed only keeps its own executor from being offered, unless self-tests are skipped: then the judge does not start.
* `C74_connect_fails` (Loader.lean, pcq): With other such programs and self-tests skipped the judge starts, but it cannot connect to any site.
* `C74_null_fails` (Loader.lean, pcq): The key `mono` without a value in the configuration keeps the judge from starting.
* `C74_blank_fails` (Loader.lean, pcq): With a blank after the comma the second executor of `-e` is not loaded, and nothing is said about it.

### C75 The sandbox looks at the right registers on every machine

On each of the four Linux machines cptbox is built for, and for each kind of program it runs, the ABI is recognised whatever the registers hold; the number and the arguments the policy looks at are those the kernel will use. A refused call is skipped by the kernel, the program finds the error as its result and no other register has changed. The launching code is let through exactly until its execve. Fails: on ARM64 the error is written into the register of the call number, so a program whose call was refused finds its own first argument (seccomp) or its process number (ptrace) as the result; on 32-bit x86 the sixth argument is always taken for zero.

* `C75_abi` (Arch.lean, pq): The ABI is recognised, for all values of the registers.
* `C75_args_partial` (Arch.lean, pcq): The arguments the policy looks at are those the kernel will use, on every machine and for every kind of program, but for the sixth one on 32-bit x86.
* `C75_arg5_fails` (Arch.lean, pq): On a 32-bit x86 machine the sixth argument is taken to be zero, whatever it is.
* `C75_number` (Arch.lean, pcq): The number the policy looks at: the low 32 bits of the register, as a signed number, without the bit that marks x32.
* `C75_refused_partial` (Arch.lean, pq): Refusing a call under seccomp, except on ARM64: the kernel skips it, the program finds the error as the result, and no other register is changed but the one with the number.
* `C75_refused_arm64_fails` (Arch.lean, pq): On ARM64 the error is written into the register with the number. The call is skipped, but what the program finds as its result is its own first argument: refusing `kill(pid, sig)` looks like a success.
* `C75_replaced_partial` (Arch.lean, pcq): Without seccomp, except on ARM64: at the first stop only the number is changed, to that of the harmless call; at the second only the result, to the error.
* `C75_replaced_arm64_fails` (Arch.lean, pq): On ARM64 the program finds the result of the harmless call: its own process number, which looks like a success.
* `C75_execve_seccomp` (Arch.lean, pq): The launching code is let through until it calls `execve`: under seccomp a stop of it ends this exactly if its number is that of `execve`.
* `C75_execve_ptrace` (Arch.lean, pq): Without seccomp it ends on x86 with the return from an `execve` that succeeded, be the new program 64-bit or 32-bit.
* `C75_execve_arm` (Arch.lean, pq): On ARM it ends when the call returns with the register of the number cleared (and, on ARM itself, with the result zero), as a new program begins.
* `C75_supports` (Arch.lean, p): A machine supports exactly the ABIs that threads of it can have.

### C76 What the judge starts with

The judge, the shell and the test suite start exactly if the configuration (and in docker the list of runtimes) can be read and is a mapping, names problem roots, all directories searched can be listed, and the directory of tests exists. Name and key are those of the command line, else those of the files; the roots are those named by the configuration; the test suite uses its directory alone. Every problem ever reported lies in a directory watched for changes. The API listens only in docker or on the port given. Fails: in docker without a configuration file the name and key of the command line are ignored; in docker a configuration file without problem roots keeps the judge from starting though /problems would do; so it does with the test suite, which does not use them.

* `C76_starts` (Startup.lean, pq): The judge (or the shell, or the test suite) starts exactly if the files can be read and are mappings, they name problem roots, all directories searched for roots can be listed, and the directory of the tests exists.
* `C76_identity_partial` (Startup.lean, pcq): The name and the key under which the judge connects are those of the command line, if given and not empty, else those of the files. Partial: there is a configuration file, see `C76_identity_fails`.
* `C76_identity_fails` (Startup.lean, pq): In docker the configuration file may be missing, but then the name and the key of the command line are not used.
* `C76_roots` (Startup.lean, pcq): The judge and the shell use the problem roots that the files name; the test suite uses its directory of tests alone.
* `C76_docker_roots_fails` (Startup.lean, pq): In docker a configuration file that does not name problem roots keeps the judge from starting, though without the file it would use /problems.
* `C76_testsuite_fails` (Startup.lean, p): So it does with the test suite, though the code means to allow it: the test suite does not use those roots.
* `C76_watched` (Startup.lean, pcq): Every problem the judge ever reports, from the start on and whatever happens to the files, lies in a directory that is watched for changes.
* `C76_api` (Startup.lean, pcq): The judge listens for requests to update the problems only in docker, or on the port it is given; the shell and the test suite never do.

### C77 Connecting to the site

The judge is online exactly if problems and versions were found, the site was reached, its certificate accepted (when TLS is asked for), the handshake sent, and the first packet back is a handshake-success; what follows is left for the reader. The key is sent at most once per attempt, to a site that was accepted, through TLS if asked for. Failed attempts are repeated with the sleeps of C22; it is stated exactly which failures end the judge in place of that. Fails: an OSError of listing problems is taken for a network failure, so the judge sleeps without connecting; an answer without a name ends the judge; trusted certificates without -s are ignored and the key goes out in the clear.

* `C77_online` (Connect.lean, pcq): The judge is online exactly if the problems and versions could be found, the site was reached, accepted, and took the handshake, and its first packet is a `handshake-success`; what it sends after that packet is left to be read.
* `C77_secret` (Connect.lean, pcq): The key is sent at most once in an attempt, as the last thing, with the problems and versions of that moment, and only to a site that was reached and accepted; with TLS it is sent through it.
* `C77_dials` (Connect.lean, pcq): Within an attempt the site is called again exactly as long as the calls are interrupted, after a success or failure no more.
* `C77_ends` (Connect.lean, pcq): An attempt ends the judge, in place of being repeated, exactly if finding the problems or the versions raises something other than an `OSError`, the handshake cannot be sent, or the first packet is not an object with a name.
* `C77_repeats` (Connect.lean, pcq): Failed attempts are repeated with the sleeps of C22: if no attempt ends the judge or waits, the sleeps after a failed attempt are those of `reconnect` for the outcomes of the next ones, and the judge is online, with the same next sleep, or gives up, when that is.
* `C77_listing_fails` (Connect.lean, pcq): An `OSError` while listing the problems (C67: one missing root is enough) is taken for a failure of the network: no connection is made, and the judge sleeps in place of reporting the error.
* `C77_nameless_fails` (Connect.lean, pcq): An answer without a name ends the judge.
* `C77_clear_fails` (Connect.lean, pcq): Trusted certificates given without asking for TLS are ignored, even if they cannot be loaded: the key goes out in the clear, to anyone who answers.

### C78 What the site is shown of outputs and compilers' messages

For every output of a program, the text sent for a case is what lies in the first `output_prefix_length` bytes of its output: for text, all characters wholly inside them and one replacement character if the last is cut; for any bytes, a text sent without replacement characters is exactly those bytes, text after undecodable bytes is sent unharmed, and never more than that many characters are sent. A compiler's message is sent whole if it is text; a failed compilation is reported once, with a log that is not empty; a successful one never as a failure. Fails: a negative prefix length is applied twice, so more is cut than was asked for.

* `C78_output` (Shown.lean, pcq): The output of a program that writes text, with a limit of `n` bytes: all the characters that lie wholly in the first `n` bytes; if these end inside a character, then one U+FFFD in its place.
* `C78_faithful` (Shown.lean, pcq): Whatever a program writes, an output shown without U+FFFD is exactly the first bytes of it.
* `C78_damage` (Shown.lean, pcq): Text after bytes that are none is shown as it is: damage never spreads.
* `C78_length` (Shown.lean, pq): No more than `n` characters are shown, and trimming in the worker and again in the controller is trimming once; without a limit all is shown.
* `C78_negative_fails` (Shown.lean, pq): With a negative `output_prefix_length` the end of the output is cut off twice.
* `C78_log` (Shown.lean, pcq): A failed compilation is reported once, with a log that is not empty and is the compiler's text if it wrote text.
* `C78_message` (Shown.lean, pcq): The message of a compiler that succeeded is sent if the executor has one, as it was if it was text; the submission is not reported as failing.
* `C78_nothing_said` (Shown.lean, pcq): A compiler that fails without saying anything is reported with a message all the same.

### C79 Logging a result never harms it

Every result a grader produces reaches the queue to the site: making the coloured line for the log raises nothing, provided no feedback contains a `](`; without colours nothing is ever raised. The log shows the asked colours and attributes, and the same characters with and without colours. Fails: feedback chosen by the program (the exception name of a Java program) or by a checker that contains `](` followed by an unknown colour raises in the grading thread, and the submission becomes an internal error.

* `C79_thread_partial` (Ansi.lean, pcq): Results are queued for the site whatever the log makes of them, if no feedback contains `](`. (Full property: for every feedback; see `C79_thread_fails`.)
* `C79_noAnsi` (Ansi.lean, pcq): Without colours (`--no-ansi`) every result is queued.
* `C79_thread_fails` (Ansi.lean, pcq): A Java program that writes a line like that of the sandbox agent chooses its feedback (C69); with a bracket and a name of a colour that does not exist in it, the result of the program is replaced by an internal error.
* `C79_look` (Screen.lean, pcq): a text for which colours and attributes are asked is shown in these, and what follows is as usual again.
* `C79_shown` (Screen.lean, pcq): the log shows the same characters with colours and without.

### C80 Removing colours from messages

strip_ansi removes the colours and nothing else from a message made of text without escape characters, colours with at most two short parameters, and erases not followed by a character of a parameter. A text without escapes is left as it is. It only ever deletes. Fails: the first character after an erase is lost if it is a capital, digit, comma, m or |; colours with three short parameters or a long second one leave remains.

* `C80_strip_partial` (Ansi.lean, pq): Stripping leaves a message as it is except for its colours, if these are of the usual kinds and no erase is followed by something that can be taken for a part of it. (Full property: for all colours and erases; see `C80_erase_fails` and `C80_colour_fails`.)
* `C80_text` (Ansi.lean, pq): Text without colours is left alone; whatever the message, nothing is added or moved.
* `C80_clean` (Ansi.lean, pq): If escapes only begin sequences, none is left.
* `C80_removed` (Ansi.lean, pcq): Whatever the message: sequences that the expression matches are taken out, and every other character stays.
* `C80_erase_fails` (Ansi.lean, pcq): The first letter of a name is lost after an erase: GCC's `main`, or a name with a capital.
* `C80_colour_fails` (Ansi.lean, pcq): Part of a colour is left when it has three short parameters or a long second one.

### C81 Memory accounting

The peak memory reported for a program, on which the memory verdict rests, is the peak the kernel shows when its main thread leaves: the number is read exactly from the status file whatever lines come before it (the program chooses its own name there), and never with an access outside the buffer; a program stopped for a forbidden call is reported with its peak at that stop; a program never above the limit is never reported above it. Fails: memory used by other threads after the main thread has left is not counted, so a program can stay far below its limit in the report though it is above it.

* `C81_reads` (Memory.lean, pcq): `get_memory` returns the peak the kernel shows, however long the lines before it are, and 0 if none is shown; it never leaves its buffer.
* `C81_peak_partial` (Memory.lean, pcq): The memory reported, and the verdict, of a program whose memory does not grow after its main thread has left: its peak. (Full property: for every program; see `C81_threads_fails`.)
* `C81_threads_fails` (Memory.lean, pcq): Memory used by other threads after the main thread has left is not counted: a program with a peak far above its limit is reported below it.
* `C81_fault` (Memory.lean, pcq): A program stopped for a forbidden call is reported with the memory it had then, if nothing is shown of it afterwards.
* `C81_fault_exit` (Memory.lean, pcq): Nor is what another thread shows on its way out after such a stop lost.
* `C81_others_exit` (Memory.lean, pcq): But before such a stop nobody looks at another thread, or another process of the program, on its way out.
* `C81_asked` (Memory.lean, pcq): Who asks while the program is traced is told what it has used by then; once its end has been seen, neither asking nor anything else changes what is reported.
* `C81_overrun` (Memory.lean, pcq): Leaving the buffer is not forgotten: once a file was looked at in which the wanted line has no number, the run counts as undefined, so that `C81_peak_partial` says that this does not happen.
* `C81_innocent` (Memory.lean, pcq): A program that is never seen above the limit, by the kernel's accounts either, is not reported above it.

### C82 The site is told exactly what each worker reported

Whatever the interleaving of network thread, grading threads and flusher: when no submission is being graded, the sequence of results and packets the site has received is exactly the concatenation, in the order the site asked for the submissions, of one report per submission: everything its worker said (results, batch brackets, compiler message, the end), in the order it said it and under the id of that submission, or an initial part of that followed by one internal-error. At every instant the reports on earlier submissions are complete and what has arrived of the current one is an initial part of such a report. If no case raises and nobody aborts, the report is the whole layout of the problem followed by grading-end; a complete report ends the submission exactly once, at its end.

* `C82_reports` (Site.lean, pcq): Whenever no submission is being graded, what the site has been told is exactly the reports on the submissions it asked for, one after the other in the order it asked for them: of each, all its worker says or a part of it and the news of an internal error.
* `C82_now` (Site.lean, pcq): At every instant: the site has the complete reports on the submissions that are over, and after them a part of what the worker of the next one has said (or that and the news of an internal error), nothing else.
* `C82_stream` (Site.lean, pq): What the site is told of a submission that was compiled and whose worker said everything: the compiler's message if there is one, the stream of C11, and the news of an internal error if grading raised.
* `C82_complete` (Site.lean, pcq): If no case raises and nobody aborts, the site is told of every case, in order and in its batch, and then that grading is over.
* `C82_once` (Site.lean, pq): A complete report ends the submission once, at its end.

### C83 The judge starts only where it is safe, sends the list of problems when asked, and stops when told

The judge starts only on a system where submissions can be sandboxed and not as root, with a warning exactly if the BPF JIT is off or the compiled checker is missing. Its log file is the configured name with %s replaced by the judge's name (a name with another % can keep it from starting: C83_log_fails). A control request leads to an update exactly if it is a POST of /update/problems, and is answered 200 exactly then; after each change in the problem directories every configured other server is tried again, however changes and rounds overlap (but http and https requests are never made: C83_ping_fails). Once told to stop, by the site, by a signal or by an error, the process ends whatever its threads are doing (taking the server for the API to stop when asked, see C122, and no request by signal to come in between, see C121), with code 0 if nothing was being sent and the worker ends in time, and all queued results are sent before the connection is closed. This fails when the site disconnects during grading (code 1), when the directories could not be watched (code 1), when the list of problems is being sent (code 1), and when the judge is interrupted a second time (it never ends).

* `C83_sane` (Main.lean, pq): the judge starts only where it can keep submissions in the sandbox and only as an ordinary user.
* `C83_warns` (Main.lean, pq): and it warns exactly when the filter of system calls or the checker will be slow.
* `C83_log` (Main.lean, pcq): a log file whose name has no `%` is opened under that name, `%s` is replaced by the judge's name, and a name that asks for it twice is taken literally.
* `C83_log_width` (Main.lean, pcq): `%7s` in the name of the log is the judge's name filled up with spaces in front of it to seven characters, `%-7s` the same with the spaces after it, and nothing is cut off. The other flags make no difference: `%07s` fills up with spaces too.
* `C83_log_cut` (Main.lean, pcq): `%.7s` in the name of the log is the judge's name cut to seven characters.
* `C83_log_quoted` (Main.lean, pcq): `%r` and `%a` stand for the judge's name in quotes.
* `C83_log_kind` (Main.lean, pcq): `%c` takes a name of one character; with a longer one, or with a conversion that wants a number, the name of the log is taken literally.
* `C83_log_percent` (Main.lean, pcq): with a `%s` a doubled `%` is a single one, before it and after it; without one the name of the log is taken literally, both signs included.
* `C83_log_fails` (Main.lean, pcq): fails for other names with a `%`: the judge does not start.
* `C83_control` (Main.lean, pcq): over HTTP the list of problems is sent again for a `POST` of `/update/problems` and nothing else, and the answer says whether it will be.
* `C83_refresh_once` (Main.lean, pcq): and there is at most one round for each change, so that none is made without a change.
* `C83_refresh_stops` (Main.lean, pcq): when the judge stops the thread ends, after at most the round it is in, whatever it was doing, so that waiting for it ends.
* `C83_refresh` (Main.lean, pcq): after any change all other servers are tried, in order, however the change falls together with an earlier round: as soon as the thread has made so many steps, whatever else happens.
* `C83_event` (Main.lean, pcq): any change below the problem directories has the list of problems sent again, unless the judge is stopping, and the other servers tried if there are any configured.
* `C83_ping_fails` (Main.lean, pcq): but fails for servers on the web: the request is never made, as its empty body is a string.
* `C83_ends_partial` (Main.lean, pcq): once told to stop, the judge ends: in every state, whatever the other threads do meanwhile, unless it is interrupted a second time. The main thread needs eight steps, in which waiting for the worker may take too long, and after them the updater five and the flusher three.
* `C83_clean_partial` (Main.lean, pcq): a judge that is told to stop by a signal while it grades, or by the site while it does not, ends with code 0, and results that were waiting have been sent when the connection is closed. As long as it is not interrupted a second time, the list of problems is not sent meanwhile, the worker ends in time and the directories of problems were watched.
* `C83_disconnect_fails` (Main.lean, pcq): fails when the site asks to disconnect while a submission is graded: the connection is closed first, so saying that it was aborted ends the process with code 1, and it ends in no other way.
* `C83_monitor_fails` (Main.lean, pcq): fails when the directories of problems could not be watched: the thread that was not started cannot be waited for, and the code is 1.
* `C83_twice_fails` (Main.lean, pcq): fails when the judge is interrupted again while it waits for the worker: neither of the other threads is told, and the process never ends.
* `C83_update_fails` (Main.lean, p): fails when the list of problems is being sent at the time, even if nothing is graded.

### C84 What reaches the compiler is what was submitted

For every language the file its compiler or interpreter reads has the language's extension, lies in the directory of the submission and has exactly the submitted text, but for a byte order mark before it for Python, a line end after it for assemblers, and line ends of one kind for Zig. Files given along with a C or C++ program all get there under names of their own. A Go program is accepted exactly if its package clause names main, whatever white space and comments come before it; an assembly program is linked with the C library exactly if its list of features says libc. This fails for problem names with a dot, for auxiliary files whose names differ only in the extension, for Python text that has a mark of its own, for Go comments that contain the beginning of another, package clauses over two lines and names outside ASCII, and for a feature list that runs on into the next line.

* `C84_go_partial` (Source.lean, pcq): A Go program is accepted exactly if its package clause names `main`, whatever white space and comments come before. Partial: no line comment before it has a `/*` in it, the clause is on one line without comments, and the name is in ASCII; the failures below show that each is needed.
* `C84_go_comment_fails` (Source.lean, pcq): A comment in Go that shows the beginning of another hides the package clause: a correct program is refused, and one of another package is taken.
* `C84_go_clause_fails` (Source.lean, pcq): A package clause over two lines is refused though Go allows it, and so is one with a comment in place of the space.
* `C84_go_name_fails` (Source.lean, pcq): A name that continues outside of ASCII is taken for `main` (here `mainé`, in UTF-8).
* `C84_libc_partial` (Source.lean, pcq): An assembly program is linked with the C library exactly if `libc` is among the names after `features:` in its first line that begins with one of the comment characters. Partial: the list is whatever follows of letters, white space and commas, also on other lines (see below).
* `C84_no_libc` (Source.lean, pcq): Without a line that begins with a comment character, it is not.
* `C84_nasm` (Source.lean, pcq): With NASM also a program is that begins with `; libc`, and no other besides.
* `C84_libc_label_fails` (Source.lean, pcq): The list does not end with its line: a label `libc` on the next line asks for the C library.
* `C84_written` (Source.lean, pcq): What the compiler or interpreter of a language reads is the submission: the file has the extension of the language, is in the directory of the submission (for Rust in `src`), and has its text, with a byte order mark before it for Python, a line end after it for assemblers, and line ends of one kind for Zig. The name of the problem has neither slash nor dot, the class of a Java program no slash (C70), and an empty submission is none.
* `C84_line_ends_unique` (Source.lean, -): Line ends are what they should be: for every text there is just one with them rewritten.
* `C84_gcc_files` (Source.lean, pq): The files given along with a C or C++ program are all written, each with its own name and the extension, and with its own contents, if the names are different and have no dots.
* `C84_gcc_dot_fails` (Source.lean, pcq): If the name of the problem has a dot, the file of a C or C++ program has not the extension of the language.
* `C84_gcc_names_fails` (Source.lean, pcq): And two files given along may get the same name, so that one of them is lost.
* `C84_bom_fails` (Source.lean, pcq): A Python program with a byte order mark of its own gets a second one, which is part of the text and no valid Python.

### C85 What is run for a submission

For every language the program started is the configured runtime, or the file compiled in the directory of the submission; the file with the submission is an argument of the compiler or interpreter, after arguments that depend on the configuration only; where the compiler is told what to write, that is what is run; arguments of the program come last and unchanged; nothing in the text of a submission has a say in the command lines but the class of a Java program. The sandbox gets the memory limit of the problem, except that the Java machine is told the limit instead, Brainf*** programs get 8 MB more and a tape of the size of the limit, and the heap of Lisp is the limit rounded up to the next MB. This fails in that the machines of Kotlin, Groovy and Scala are not told where to leave the log of a crash, which the judge looks for, and in that the way of starting .NET programs that would ignore SIGXCPU is asked for and not used.

* `C85_executable` (CmdLine.lean, pcq): The program that is started is the configured runtime of the language, or the file compiled from the submission in its own directory.
* `C85_script` (CmdLine.lean, pcq): A script is given to its interpreter by name, after and before arguments that depend on the configuration only.
* `C85_reads` (CmdLine.lean, pcq): The file that C84 is about is what the compiler is given, or the interpreter: its path is an argument (for Lisp within one). Rust has a file of fixed name. The sources of C and the like are the files written, gcc_executor.py:28-43.
* `C85_output_partial` (CmdLine.lean, pcq): Where a compiler is told what to write, that file is what is started, or what the runtime of the language is given. Partial: the other compilers (Go, Pascal, COBOL, Swift, Scheme, INTERCAL, Rust, Lisp, Turing, Java, Groovy, Scala) choose the name themselves.
* `C85_memory` (CmdLine.lean, pcq): The memory limit of the sandbox is the one of the problem; but programs of the Java machine have none, the machine being told the limit, and Brainf*** programs have 8 MB more, for a tape of the size of the limit.
* `C85_asm` (CmdLine.lean, pcq): Assembly programs take two steps: the assembler makes an object file of the submission, in the format of the language, and the linker makes what is started of this object file.
* `C85_lisp` (CmdLine.lean, pcq): The heap of a Lisp program has room for the memory of the problem, and hardly more: it is in MB.
* `C85_turing` (CmdLine.lean, pcq): The Turing compiler is given the submission and the directory it is in itself.
* `C85_turing_run` (CmdLine.lean, pcq): What it makes of the submission, next to it, is what is run.
* `C85_python` (CmdLine.lean, pcq): Python programs are run by way of the loader, unbuffered if asked for, by the interpreter that has compiled all of the directory.
* `C85_agent` (CmdLine.lean, pcq): Every program of the Java machine runs under the agent, with the policy in its directory and the hints about it, and unbuffered if asked for.
* `C85_args` (CmdLine.lean, pcq): Arguments for the program come last, whatever they are. Brainf*** programs get none.
* `C85_text` (CmdLine.lean, pcq): The text of a submission has a say in the command lines only by the class of a Java program.
* `C85_crash_log_partial` (CmdLine.lean, pcq): The machine of a Java program is told where to leave the log of its crash, which the judge looks for (java_executor.py:117). Partial: see the next.
* `C85_crash_log_fails` (CmdLine.lean, pcq): That of a Kotlin, Groovy or Scala program is not: the option is cut off along with the class, so no crash is noticed.
* `C85_mono_signal_fails` (CmdLine.lean, p): The executors of .NET ask for a way of starting programs that takes no notice of SIGXCPU, which the machine uses for itself, but are not heard: the signal makes the result "time limit exceeded".
* `C85_configured` (CmdLine.lean, pcq): What is run to compile and start a program depends on no other paths of the configuration than those `dmoj-autoconf` needs to find for the language before it tests it. (Assemblers have their paths from class attributes, and `BASH` cannot be loaded.)

### C86 What the user is told of a compilation

In every language a compiler that fails is reported with exactly what it said (for Java with a fixed text exactly if it says that the class belongs into another file), one over its time or with too much output with a fixed text naming the limit. What a successful compiler said is sent as it is; for Pascal and COBOL only if it has one of the words that announce a fatal error, warning or note, otherwise an empty text; for assembly programs what assembler and linker said without white space around, and nothing if both said nothing. This fails for an assembler or linker that succeeds and says something that is not UTF-8: the submission ends with an internal error. In other languages an empty message is sent for a compiler that said nothing.

* `C86_failed` (Message.lean, pcq): Whatever the language, a compiler that fails is reported with exactly what it said, and nothing else. For Java see the next; assembly programs also have a linker, which has its say only after the assembler succeeded.
* `C86_java` (Message.lean, pcq): What the compiler of Java says is replaced by a fixed text exactly if it says that the class belongs elsewhere.
* `C86_limits` (Message.lean, pcq): The fixed texts: over its time, or with too much to say.
* `C86_warning` (Message.lean, pcq): What a successful compiler says is shown as it is.
* `C86_pascal` (Message.lean, pcq): For Pascal only if there is something to note.
* `C86_cobol` (Message.lean, pcq): For COBOL likewise, with either spelling of the first letter.
* `C86_assembly_partial` (Message.lean, pcq): For assembly programs the message is what the assembler said and, on lines of its own, what the linker said, without white space around; there is none if both said nothing. Partial: for output that is text.
* `C86_assembly_fails` (Message.lean, pcq): If either said something that is not text, as an assembler does that quotes the line of a program, compiling is an internal error, though it succeeded.
* `C86_silent_fails` (Message.lean, pcq): A compiler that says nothing is quoted all the same: with the exception of assembly programs, an empty message is sent.

### C87 Listening to the site over the judge's life

Over any number of connections, each lost after any number of bytes, the judge handles exactly the packets that arrived whole, in order, none twice and none in part, and connects again after each loss until it gives up. This fails for connections that the site closes within the four bytes of a header and for those that are reset or time out within the content of a packet: the process ends instead, with status 1.

* `C87_cut` (Listen.lean, pcq): When a connection is lost after any number of bytes, the judge has handled exactly the packets that arrived whole, in order; it connects again if it was lost between packets, if a read failed within the header of one, or if the stream ended within the content of one. Otherwise the process ends.
* `C87_session` (Listen.lean, pcq): Over any number of connections the judge handles, connection by connection, exactly the packets that arrived whole, none twice and none in part, until it gives up or a connection is lost in a way it does not survive.
* `C87_lost_fails` (Listen.lean, pcq): Losing the connection should never end the judge, which could connect again; but it does if the site closes it within the header of a packet, and if it is reset or times out within the content.

### C88 Finding the runtimes that are installed

The automatic configuration offers an executor exactly if the files it needs are found, the first of each list of names being taken, and its self-test passes with them; what is printed is what the executors were tested with, so that each still passes with all of it, and nothing but the configuration is on standard output. This fails for compilers of the GCC family that need different targets, for Ruby and Objective-C, which are never made available, for a JVM started by a script, and when a self-test exceeds a limit.

* `C88_found` (Autoconf.lean, pcq): An executor with files to be found is configured, with the first file found for each of its entries, exactly if all are found and its self-test passes with them.
* `C88_assembler` (Autoconf.lean, pcq): For assemblers, programs for the machine must be traceable as well.
* `C88_used` (Autoconf.lean, pcq): Such an executor, except Ruby, is tested with just the files that were found.
* `C88_gcc` (Autoconf.lean, pcq): A C compiler is configured with the first file found; for the machine it runs on if its self-test passes so, otherwise for none in particular if it passes so.
* `C88_java` (Autoconf.lean, pcq): For Java the first directory is taken with a JVM of the right version whose self-test passes in one of the modes, and the first such mode.
* `C88_kotlin` (Autoconf.lean, pcq): Kotlin is configured with the first `java`, whatever it is.
* `C88_groovy` (Autoconf.lean, pcq): Groovy is configured with the file the script `groovy` starts and the arguments it gives it, if these can be read off a trace of it.
* `C88_scala` (Autoconf.lean, pcq): Likewise for Scala, where arguments about the size of the heap are left out.
* `C88_script_fails` (Autoconf.lean, pcq): fails for a `java` that is a script to start the real one, which should have been looked for: the script itself is configured.
* `C88_tested` (Autoconf.lean, pcq): An executor that is configured passes its self-test with what is configured, though entries equal to a default are left out.
* `C88_entries` (Autoconf.lean, pcq): The entries printed are those of the executors configured; where several have the same, the last one's.
* `C88_whole_partial` (Autoconf.lean, pcq): Every executor configured passes its self-test with all that is printed, if those that share a target agree on it.
* `C88_whole_fails` (Autoconf.lean, pcq): fails in general: C is tested for the machine it runs on, and C++ can only be compiled for none in particular, which the configuration then says of both.
* `C88_ruby_fails` (Autoconf.lean, pcq): fails for Ruby unless `-V` is given: it is never configured, whatever is installed.
* `C88_ruby_partial` (Autoconf.lean, pcq): With `-V` Ruby is configured, as any other: with the first file found, exactly if its self-test is good with that.
* `C88_objc_fails` (Autoconf.lean, pcq): fails for Objective-C: an entry without which it is not offered is never printed.
* `C88_output_partial` (Autoconf.lean, pcq): Nothing but the configuration is written to standard output, if no self-test exceeds a limit.
* `C88_output_fails` (Autoconf.lean, pcq): fails otherwise: the line is before the configuration, in what is kept as a file to be read.

### C89 What a submission can reach, from the kernel to the patterns

Whatever file the kernel opens for a program run by any executor is one of the readable places, below the directory of the submission, or one that the patterns of the executor or of the configuration match; opened for writing, it is one of three devices or one that the patterns for writing match. So nothing in the judge's, other users' or the system's directories and nothing of other processes is opened unless such a pattern or the directory itself covers it, and the other calls that take paths reach nothing else either. Not covered: int 0x80 from 64-bit code, the x32 ABI, statfs, and the calls some executors leave unchecked (C62, C63); links in the file system and paths changed by another thread (C101).

* `C89_opens_partial` (Confined.lean, pcq): whatever file the kernel opens for a program run by an executor is one of the readable places, or one that its own patterns or those of the configuration match; if it is opened for writing, one of the three writable devices, or one that its own patterns for writing match. Missing: `int 0x80` from 64-bit code and the x32 ABI.
* `C89_hidden_partial` (Confined.lean, pcq): nothing of what belongs to the judge, to other users or to the system is opened, in either way, unless it is below the directory of the submission or one of the additional patterns matches it.
* `C89_process_partial` (Confined.lean, pcq): nothing of other processes is opened for reading, unless it is below the directory of the submission or one of the additional patterns matches it, and nothing at all for writing.
* `C89_paths_partial` (Confined.lean, pcq): every other call that takes a path (`stat`, `access`, `readlink`, `execve` and the like) reaches the readable places only, except the commands of BASH, which may be started. Missing: `int 0x80` from 64-bit code, the x32 ABI, `statfs`, and the calls some executors leave unchecked.
* `C89_int80_fails` (Confined.lean, pcq): fails** for the 32-bit entry from 64-bit code: under the policy of every executor, with all patterns in force, the kernel opens `/etc/shadow`, which is none of the readable places.

### C90 The prompt of the local judge

A line typed at the prompt is split into words by the quoting rules of a POSIX shell, so that any words at all can be typed; blank lines, unknown and refused commands change nothing and the session goes on; a number that stands for a submission keeps standing for it and nothing but what submit accepted is recorded. With a command on the command line the exit status is 127 exactly for an unknown one, and otherwise 0 or 1 by exact conditions. A stray quote, a blank quoted at the end of the line, a bad filter, a command or problem named like the end of a coloured text, and Control-C while judging again end the session.

* `C90_quoting` (Cli.lean, pcq): a line is split into words by the quoting rules, and refused exactly if it does not follow them.
* `C90_blanks` (Cli.lean, pcq): blanks of any kind around what is typed make no difference, and nothing else is taken off.
* `C90_typed` (Cli.lean, pcq): any list of words at all can be typed at the prompt: each between single quotes.
* `C90_unknown` (Cli.lean, pcq): with a command on the command line, the exit status is 127 exactly for an unknown one (whose name cannot be taken for the end of a coloured text), and otherwise 0 or 1.
* `C90_submit_status` (Cli.lean, pcq): `submit` with a known language exits with 0 exactly if its arguments can be parsed, the problem is known, the limits are positive and the source can be had; otherwise with 1.
* `C90_alone` (Cli.lean, pcq): a command on the command line has no history: `rejudge` and `resubmit` always exit with 1, and so do `show` and `diff` for a number; for files, `show` and `diff` exit with 0 exactly if they can be read and rendered.
* `C90_list_status` (Cli.lean, pcq): `problems` and `submissions` exit with 0 exactly if the limit, if any, is positive and (for `problems`) the filter is a regular expression that some problem matches.
* `C90_ends` (Cli.lean, pcq): a line that breaks the quoting rules ends the session with status 1, whatever it was. `quit` ends it with 0.
* `C90_passed` (Cli.lean, pcq): an empty line and an unknown command are passed over: nothing changes and the session goes on. The name is printed, so it must not look like the end of a coloured text.
* `C90_recorded` (Cli.lean, pcq): a submission that is accepted is recorded, the session goes on, and it is found under the next number then; Control-C while it is graded makes no difference.
* `C90_history` (Cli.lean, pcq): whatever is typed, a number that stands for a submission keeps standing for it, and a session records nothing but what `submit` accepted.
* `C90_prompt` (Cli.lean, pcq): end of file and Control-C at the prompt end the session with 0.
* `C90_usage` (Cli.lean, pcq): arguments that cannot be parsed (or ask for help) are refused: nothing changes, the session goes on; on the command line the status is 1. `help` and `quit` take any arguments.
* `C90_rejected` (Cli.lean, pcq): a submission that is not accepted changes nothing and the session goes on (if the complaint can be printed), unless Control-C is pressed instead of typing its source, which ends the session with 0.
* `C90_shown` (Cli.lean, pcq): `show` changes nothing; the session goes on, with 0 if the source is there, with 1 if not (and why can be printed), unless the source cannot be rendered, which ends it.
* `C90_quote_fails` (Cli.lean, pcq): fails**: an apostrophe typed without a backslash ends the session, and with it the history.
* `C90_blank_fails` (Cli.lean, pcq): fails**: a blank quoted by a backslash at the end of a line follows the quoting rules, but is cut off first, which ends the session.
* `C90_colour_fails` (Cli.lean, pcq): fails**: a command, or the name of a problem, that looks like the end of a coloured text is not refused: it cannot be complained about, which ends the session; on the command line, the status of such an unknown command is not 127.
* `C90_interrupt_fails` (Cli.lean, pcq): fails**: Control-C while `submit` is graded only stops the grading; while `rejudge` is, it ends the session.
* `C90_filter_fails` (Cli.lean, pcq): fails**: a filter that is no regular expression is not refused: it ends the session.
* `C90_resubmit` (Cli.lean, pcq): that a submission cannot be submitted again is said with the name of the problem: the one given, or else that of the submission. If this can be printed, the session goes on with 1; nothing changes.

### C91 Helper programs are started with the files of the case

A checker or interactor program is started with the files its kind documents, in that order, each holding the data of the case; a format string of the problem's own takes the place of the kind's. Every word of a format string reaches the program as one argument, and a placeholder outside quotes stands for the name of its file whatever characters the name has. An interactor may run longer than the submission by the preprocessing time, two seconds by default. A placeholder between the format string's own quotes need not stand for the file.

* `C91_words` (Args.lean, pcq): (format strings).** The words of a format string reach the program as written, with each placeholder replaced by the name of its file, whatever characters the name has: no name is split, joined to another word or altered.
* `C91_checker` (Args.lean, pcq): (checkers).** A checker without a format string of its own is started with three arguments, the files of the case: input, output of the submission and output of the judge, or the other way round for the kind `peg`.
* `C91_interactor` (Args.lean, pcq): (interactors).** An interactor without a format string of its own is started with the input and the output of the judge; `/dev/null` stands between them for the kind `testlib`.
* `C91_custom` (Args.lean, pcq): (own format strings).** A format string that is not empty takes the place of that of the kind: the arguments are its words. The files are those of the case, the same ones whatever the format string.
* `C91_kind` (Args.lean, pcq): (unknown kinds).** A kind that does not exist starts nothing.
* `C91_accepted` (Args.lean, pcq): (what is accepted).** With the three fields only, arguments are made exactly where every brace is doubled or part of a field and the text with the quoted names put in is a line; otherwise grading stops with an error.
* `C91_limits` (Args.lean, pcq): (limits).** An interactor may run for as long as the submission and then some: the preprocessing time, two seconds where there is none.
* `C91_quoted_fails` (Args.lean, pcq): where it fails.** Between quotes of the format string's own a placeholder does not stand for the name: here the program is given a name with quotes around it, which is no file's.

### C92 Packets of the site, well-formed or not

Whatever JSON the site sends, the judge answers or ends by exact conditions. A request that describes a submission is acknowledged with its id and that very submission is graded, field by field; nothing else is ever graded, and every start follows its acknowledgement. Packets of unknown kinds are ignored; which packets end the judge, and with which status, is known exactly. An acknowledged submission is not graded if the rest of its packet is bad, a termination aborts whichever submission is being graded, limits are taken unseen, and a problem whose name looks like colours, or an id that is no number, ends the judge.

* `C92_answers` (Request.lean, pcq): (answers).** A ping is answered with the value it came with, a query with the submission being graded; a termination aborts that submission and does nothing while there is none; a disconnect closes the connection, aborts and ends the judge with status 0; a packet of another kind is ignored.
* `C92_request` (Request.lean, pcq): (requests).** A request that describes a submission whose names are plain and whose id is a number is acknowledged with its id, and that submission is then graded: every field is the packet's.
* `C92_only` (Request.lean, pcq): (nothing else is graded).** Whatever is graded was described by the packet being handled, a request, and has just been acknowledged under its own id.
* `C92_ends` (Request.lean, pcq): (what ends the judge).** Exactly these packets: with status 0 a disconnect; with status 1 one that is no dictionary or has no name, a ping without a time, a query while nothing is graded, and a request that does not describe a submission, or whose names upset the log, or whose id is no number.
* `C92_history` (Request.lean, pcq): (histories).** Over any sequence of packets: whatever is graded was described by a request among them, and acknowledged under its id just before; after an acknowledgement that submission is graded or the judge ends.
* `C92_stops` (Request.lean, pcq): (the end).** After a packet that ends the judge no other is handled; any other packet leaves it handling the rest as if it were the first.
* `C92_ack_fails` (Request.lean, pcq): where it fails.** An acknowledged submission need not be graded or reported: the acknowledgement goes out before the rest of the packet is looked at, and the judge ends.
* `C92_terminate_fails` (Request.lean, pcq): where it fails.** A termination names the submission it is for, but aborts whichever is being graded when it arrives.
* `C92_limits_fails` (Request.lean, pcq): where it fails.** Limits are not looked at: no number at all is a time limit, and so is a negative one.
* `C92_problem_fails` (Request.lean, pcq): where it fails.** A request for a problem whose name looks like the end of a coloured text ends the judge, before it finds that it has no such problem.
* `C92_id_fails` (Request.lean, pcq): where it fails.** So does one whose id is a text: it is acknowledged, and then the name of the worker process cannot be made.

### C93 A submission from its runs to its points

On a problem with the standard grader and checker every case is reported once, in order, and the grading ends; a case that is run gets its full points and no flag exactly if the process did nothing wrong and wrote the tokens of the answer file, line by line, however the author ended the lines; otherwise it gets none. A program that is right on every case gets every point, and (if each case is worth something) only such a program. Without batches and free cases the points are those of the cases on which the program is right. A program that is right wherever another is gets no fewer points, except where a batch contains a case worth nothing: there, correcting a program can cost points.

* `C93_answer` (Submission.lean, pcq): What the problem's data handling does to an answer file leaves its tokens and lines as the author wrote them.
* `C93_case` (Submission.lean, pcq): One case: full points and no flag exactly if the run is right; otherwise no points, the wrong-answer flag, and the flags of what the process did. It never fails to be graded.
* `C93_each` (Submission.lean, pcq): The worker reports one result per case, in order, and the end of the grading.
* `C93_only` (Submission.lean, pcq): Only cases of the problem are run.
* `C93_run` (Submission.lean, pcq): A case is run exactly if no earlier case that was run and was not right lets it be skipped: one of the same batch, one worth nothing, or any if short-circuiting was requested.
* `C93_result` (Submission.lean, pcq): The result of each case: of its run, or of not having been run.
* `C93_full` (Submission.lean, pcq): A program that is right on every case gets every point: each case is run and reported without a flag.
* `C93_full_iff` (Submission.lean, pcq): And only such a program does, if every case is worth something.
* `C93_bounds` (Submission.lean, pcq): Never less than nothing or more than the problem is worth, if no case is worth less than nothing; and nothing for a program that is right on no case.
* `C93_plain` (Submission.lean, pcq): A problem without batches and without free cases, short-circuiting not requested: every case is run, and the points are those of the cases on which the program is right.
* `C93_short` (Submission.lean, pcq): If short-circuiting was requested, a case is run exactly if the program is right on all cases before it.
* `C93_better_partial` (Submission.lean, pcq): Two programs, the second right wherever the first is: then it gets no fewer points, provided that no case of a batch is free or that short-circuiting was requested. Missing: batches with free cases, see `C93_better_fails`.
* `C93_better_fails` (Submission.lean, pcq): A free case in a batch: a program that is wrong on the first case and on the free one gets 10 points. The same program corrected on the first case gets 5: now the free case is run, and its failure ends the grading.

### C94 What packets say survives the way to the site

Every packet the judge sends, whatever texts and numbers it contains, is read back by the site as a packet of this kind with every field as the judge had it (compiler output that is not UTF-8 with replacement characters); packets with the same bytes say the same; only printable ASCII goes into the text, and the text is JSON (RFC 8259) unless it contains a number that is not finite. The judge in turn accepts from the site exactly the JSON texts, with any white space and escapes, and takes each for the one value it stands for.

* `C94_reads` (Packets.lean, pcq): Reading: a text is accepted exactly if it is JSON (or uses one of Python's three extra constants for what is no finite number), with white space and escapes wherever the RFC allows them, and then gives the value the grammar assigns.
* `C94_bytes` (Packets.lean, pcq): Bytes are read exactly if they are the UTF-8 of such a text.
* `C94_one` (Packets.lean, pcq): A text is never JSON for two values: reader and writer cannot disagree.
* `C94_round` (Packets.lean, pcq): What is written stands for the value, so that it is read again as it was, by the site as by the judge.
* `C94_rfc` (Packets.lean, pcq): Without NaN and infinities the text is JSON as the RFC has it.
* `C94_ascii` (Packets.lean, pcq): Only printable ASCII is written, one byte each, whatever the texts are.
* `C94_says` (Packets.lean, pcq): Of every packet the site reads back what the judge had to say: kind, submission, and each field.
* `C94_apart` (Packets.lean, pcq): Packets with the same bytes say the same.
* `C94_wire` (Packets.lean, pcq): On the connection: whatever packets are sent with complete writes, the site decodes these packets in order, whatever follows.
* `C94_nan_fails` (Packets.lean, pcq): Not so in general: a checker that gives NaN as points makes a packet that is no JSON text (RFC 8259), though Python reads it.

### C95 What a submission is awarded where the author's own code decides

On a problem judged by a checker program, an interactor program (protocols default, testlib, coci) or a Python interactor, each case that is run gets exactly what that code decides: full points, the part of the points it states (never below zero or above the worth of the case), or none; a submission that crashed or broke a limit gets none whatever the code says; code that fails is never counted against or for the submission but ends the grading without a result for the case and without an end report, and nothing else does. Otherwise there is one result per case in order, a case is skipped exactly for a failed case of its batch, a failed free case or requested short-circuiting, and the sum is between nothing and the worth of the problem, the latter exactly if every case is judged worth its full points.

* `C95_case` (Helped.lean, pcq): One case: its result is what the author's code decides (with the flags of what the process did, if that was something wrong), and if the author's code failed there is none.
* `C95_one` (Helped.lean, pcq): Every case has exactly one outcome.
* `C95_each` (Helped.lean, pcq): If the author's code judges every case, the worker reports one result per case, in order, and the end of the grading.
* `C95_run` (Helped.lean, pcq): A case is run exactly if no earlier case that was run and judged wrong lets it be skipped.
* `C95_result` (Helped.lean, pcq): The result of each case: what the author's code decided, or that it was not run.
* `C95_award` (Helped.lean, pcq): The sum of the points is that of the cases that were run.
* `C95_broken` (Helped.lean, pcq): If the author's code fails on a case that is run, this is the last thing that happens: no result for this case and no end of the grading is reported.
* `C95_ends` (Helped.lean, pcq): And nothing else keeps the end of the grading from being reported.
* `C95_bounds` (Helped.lean, pcq): Never less than nothing or more than the problem is worth; and everything exactly if every case is judged worth its full points.
* `C95_checker_text_fails` (Helped.lean, pcq): A checker program that accepts, but whose output is not UTF-8: the answer counts as wrong, even if the output is not to be shown.
* `C95_interactor_text_fails` (Helped.lean, pcq): An interactor that accepts, but whose text to be shown is not UTF-8: the grading ends with an internal error.

### C96 The points the site adds up

At every instant, and however the threads of the judge interleave, what the site has been told falls into parts, one for each of the first submissions it asked for, each being all or the beginning of a report on that submission (at rest: one whole report per submission). The results in such a part are those of the first cases, in order and each at most once, with the points the rules of C93 and C95 give the case (nothing if it was not run). So the sum the site can add up is never below zero or above the worth of the problem, whatever is aborted, crashes or breaks; it is the full worth only if every case was decided to be worth its full points, and is the full worth if this is so and the site was told that the grading is over. At rest, a submission nobody aborted, whose judging did not fail and that is not reported as an internal error, is reported as over with exactly the sum the worker awarded.

* `C96_told` (Score.lean, pcq): Whatever the site has of a report: it is about the submission, its results are those of the first cases, in order; and if it says that the grading is over, they are those of all cases.
* `C96_each` (Score.lean, pcq): The points of each result the site has: what comes of the case by the rules of C93 and C95 if the case was run, and nothing if it was not.
* `C96_bounds` (Score.lean, pcq): At no time does the site add up less than nothing or more than the problem is worth.
* `C96_sound` (Score.lean, pcq): If it adds up all the points of the problem, every case was decided to be worth its full points.
* `C96_complete` (Score.lean, pcq): If every case is decided to be worth its full points and the site is told that the grading is over, it adds up all the points of the problem.
* `C96_now` (Score.lean, pcq): At every instant what the site has been told falls into parts, one for each of the first submissions it asked for, and each part is all or the beginning of a report on that submission.
* `C96_rest` (Score.lean, pcq): Whenever no submission is being graded, there is one part for each submission asked for, and it is a whole report.
* `C96_points` (Score.lean, pcq): So at every instant, for every submission that compiled: the site adds up between nothing and what the problem is worth, all of it only if every case is decided to be worth its full points, and all of it if this is so and it has been told that the grading is over.
* `C96_over` (Score.lean, pcq): And at rest, a submission that nobody aborts, on which no code of the author fails, and of which the site has not been told of an internal error: the site is told that its grading is over, and adds up what the worker awarded.

### C97 Starting a program: what surrounds it, and how a failed start is reported

Whenever a program is started by the tracer it can gain no privileges, is traced, is filtered by at most the whitelist of its policy, has no open descriptors but its three standard streams, and no limit (address space, data, CPU time, processes, file size, core) is laxer than asked for, whichever other calls fail. At its first instruction the tracer is judging its calls, goes on doing so whatever happens, and nothing done before counts against it; this holds for every language, because no policy lets `execve` pass the filter (without that nothing the program calls would be judged). A start that fails is reported by `wait` as the failure it is, with the cause; a program that did start is reported with its own exit code, even one of 202-205. It runs in the directory asked for, with an unlimited stack and its arguments unchanged. Where the code falls short (proved): a program file that cannot be executed is reported, when the filter is used, as a program that ran and exited with 205; a failing `chdir` is ignored; a lower hard limit of the judge keeps the stack limited; arguments end at a zero byte.

* `C97_confined` (Start.lean, pcq): whatever else fails, once the program runs it is confined as asked for: it can gain no privileges, is traced and filtered, has no open files but its standard streams and no limit is laxer than asked for.
* `C97_connected` (Start.lean, pcq): the standard streams are those the child connected, the program is the one asked for.
* `C97_directory_partial` (Start.lean, p): it runs in the directory asked for — provided the change of directory succeeded.
* `C97_stack_partial` (Start.lean, pq): its stack is unlimited — provided the judge's own hard limit allows it.
* `C97_judged` (Start.lean, pcq): when the program executes its first instruction the tracer is judging its calls, and goes on doing so whatever happens — with a filter, provided it does not let `execve` pass. Nothing the child did before counts against the program.
* `C97_policies` (Start.lean, pcq): no executor's policy lets `execve` pass the filter, so this holds for the programs of every language.
* `C97_unseen` (Start.lean, pcq): a program the tracer did not see starting would not be judged at all: whatever it calls, short of another `execve`, is let through.
* `C97_wait` (Start.lean, pq): `wait` raises exactly if the program was never seen to start and the child was not killed; a program that started may exit with any code.
* `C97_code` (Start.lean, p): The exit code of a child that failed for this reason.
* `C97_reported_partial` (Start.lean, pcq): a start that fails is reported as the failure it is. Missing (see `C97_missing_fails`): a program file that cannot be executed, when the filter is used.
* `C97_missing_fails` (Start.lean, pcq): fails** when the program file cannot be executed and the filter is used: the tracer takes the attempt for the start. The judge is told that the program ran and exited with code 205, which is graded as an invalid return of the submission instead of an error of the judge.
* `C97_exit` (Start.lean, pcq): a program that started is reported with its own exit code, whatever it is — also if it is one of the codes of a failed start.
* `C97_arguments_partial` (Start.lean, pq): the program gets its arguments as they are — provided they contain no zero byte.
* `C97_arguments_fails` (Start.lean, -): an argument with a zero byte is cut off there.
* `C97_directory_fails` (Start.lean, pcq): fails** when the change of directory fails: the program runs in the directory of the judge.
* `C97_stack_fails` (Start.lean, pcq): fails** when the judge's own stack limit is lower: the stack of the program stays limited.

### C98 From the bytes on the connection to the points the site adds up

A site that reads the connection frame by frame (four bytes of length, then that many compressed bytes of JSON) understands every complete frame, whichever threads of the judge send, and however much of what they wrote has arrived. What it is told is determined by the bytes, and is the first part of what happened at the judge, in order; all of it once everything arrived and nobody is sending. It falls into parts, one per submission in the order in which the site asked for them, each about this submission only. If the numbers in the results of a submission that compiled are the points its worker produced, they add up to something between nothing and what the problem is worth: to all of it only if every case is decided to be worth its full points, and to all of it if this is so and the site has been told that the grading is over.

* `C98_one` (Wire.lean, pcq): The bytes determine what the site is told.
* `C98_heard` (Wire.lean, pcq): Whichever threads send, and however much of what they wrote has arrived: the site can read it, and it is told the first of the things that happened at the judge, in order; all of them once everything arrived and nobody is sending.
* `C98_points` (Wire.lean, pcq): So of any part of the connection's bytes: what the site is told comes in parts, one for each submission in the order in which it asked for them; and where the numbers in the results of a submission that compiled are the points the worker produced, these add up to something between nothing and what the problem is worth, to all of it only if every case is decided to be worth its full points, and to all of it if this is so and the site has been told that the grading is over.

### C99 The judge's patience with its worker

The judge waits a minute for the next message of a worker, or twice the time limit if that is more. If no step of the worker takes longer than that (its start, compiling, and each case including, for the first, reading the list of cases), the judge hears everything the worker says and then its goodbye, however long the judge takes for each message. If one does, the judge hears what was said before, then kills the worker at this moment and reports an internal error. The judge is never stuck: between one message and the next, and the end, there is no more than its patience and its own work, whatever the worker does. A problem is safe if its wall clock limit, the delays of the judge's threads and the author's code fit into the patience; with the usual limits, up to 13 seconds. Fails: the usual wall clock limit is three times the time limit, so for every time limit over 20 seconds a right program that stays within both limits can be cut off before it is judged.

* `C99_patience` (Patience.lean, pcq): How long the judge waits: a minute, or twice the time limit in whole seconds if that is more.
* `C99_heard` (Patience.lean, pcq): A worker that gets on is heard to the end, whatever it says and however long the judge takes for each message: no message is lost, and the judge never kills it.
* `C99_never_stuck` (Patience.lean, pcq): The judge is never stuck with a worker, whatever that does: from one message to the next, and to the end, it takes no longer than its patience and what it does with the message.
* `C99_silence` (Patience.lean, pcq): A silence longer than its patience, and the judge gives up: what was sent before it is read, nothing after.
* `C99_hung` (Patience.lean, pcq): A worker that says nothing more, ever, is given up after the same time; it does not count as finished.
* `C99_limits` (Patience.lean, pcq): Time is only lost as far as the watchdog lets it. For a problem with a time limit and a wall clock limit (both in milliseconds), if every case's program is watched by threads that are not starved for more than `σ`, the judge hears everything the worker says, as long as the wall clock limit, five times `σ`, and what goes into the cases, the inputs and the checking together stay within its patience.
* `C99_usual` (Patience.lean, pcq): With the usual wall clock limit of three times the time limit, problems of up to thirteen seconds are safe if each of the judge's threads makes its four steps in 2.2 seconds (two rounds of the shocker thread) and everything else about a case takes no more than ten seconds.
* `C99_slow_fails` (Patience.lean, pcq): Where the usual limits go wrong: for every time limit over twenty seconds there is a right program, within its time limit and its wall clock limit and ended by itself, that is never judged. The judge kills its worker and reports an internal error.

### C100 Aborting a grading

The two threads of a worker, the program and the judge together tell nothing but what a grading with an abort at some point tells, whatever the order of their steps: what C11 to C13 say holds for every interleaving. The site is told of an abort only if it asked for one. Once the request is read, or the judge is gone, at most one more case is begun and no verdict is told except of cases that are skipped; during a case all that is told afterwards is the abort. A program that is running and known to the grader is dead after three steps of the listening thread. The verdict of a program killed for an abort is never told. When the judge is gone nothing is sent. Fails: a request that is read before the process is assigned does not reach the program, which lives on until its limits; a request during compilation does not stop the first program from being started; one after the last graded case is lost; if grading the killed program fails the site is told of an internal error instead.

* `C100_refines` (Abort.lean, pcq): The two threads together do what the main thread does alone (`gradeCases`, C11 to C13) in a world where an abort, once seen, stays: however their steps, requests, the end of the program and of the judge are interleaved. As long as the judge is there, and unless building fails, nothing is missing in the end.
* `C100_only_asked` (Abort.lean, pcq): The site is told of an abort only if it asked for one: not when the judge is gone, and not for any other reason.
* `C100_one_more` (Abort.lean, pcq): Once the flag is set, or the judge is gone, at most one more case is begun, and no verdict is told but that of cases that are skipped.
* `C100_told` (Abort.lean, pcq): If this happens during a case, no other is begun, and all that is told after it is the abort: whatever the outcome, unless the judge is gone or grading the case fails.
* `C100_killed_partial` (Abort.lean, pcq): The program of the case is killed at once: three steps of the listener after the request it is dead, whatever the main thread does meanwhile. (The program must be assigned, and the grader must not fail meanwhile: see `C100_window_fails`.)
* `C100_no_verdict` (Abort.lean, pcq): Nobody is judged by what an abort did to them: the verdict of a program that was killed for it is never told.
* `C100_hangup` (Abort.lean, pq): When the judge is gone nothing is sent any more.
* `C100_window_fails` (Abort.lean, pq): A request between the start of a program and the assignment of `_current_proc` (or any time between the end of the program of the case before and that) does not reach the program: it lives on, and nothing is told, until it ends by itself or for its limits.
* `C100_compile_fails` (Abort.lean, pq): A request while the submission is compiled reaches nothing either: after all of it is dealt with, the first program is started all the same.
* `C100_lost_fails` (Abort.lean, pq): A request after the last case that is graded is lost: the grading is told to have ended, although cases were left.
* `C100_error_fails` (Abort.lean, pq): An abort can be reported as an internal error: if grading the case of a killed program fails, that is what is told.

### C101 What is opened is what was checked

The file the kernel opens for a program is at the place whose name the sandbox has checked, if no link is met on the way and no other thread writes to the path in between; what else other threads write makes no difference. Where every link is a name for a file beside it, what is opened is in the directory that was checked, whatever the path looks like. A path without `..` leads where its names do or below the place some link stands for. Fails: the check takes `..` for the directory above by name, the kernel for that above the place it has come to, so a link in a readable directory to a directory in an unreadable one makes the files beside that one readable; a second thread that changes the path after the check opens anything.

* `C101_opens_partial` (Files.lean, pcq): what a program opens is at the place that was checked, so one of the readable (writable) ones: if no other thread writes to the path after it was checked, and no link is met on the way. Missing: links (`C101_dotdot_fails`), other threads (`C101_race_fails`), `int 0x80` from 64-bit code and the x32 ABI (C62).
* `C101_beside` (Files.lean, p): where every link is a name for a file beside it (as those of libraries are), what is opened is in the directory that was checked, whatever the path looks like.
* `C101_below_partial` (Files.lean, pq): a path without `..`, in a tree of links without `..`, leads where its names do, or below the place some link stands for. So the places links stand for are all that has to be looked at, if paths have no `..`.
* `C101_dotdot_fails` (Files.lean, pcq): fails** for links: `/usr/lib/jvm/conf/../passwd` is `/usr/lib/jvm/passwd` by name, which is readable; where `conf` is a link to `/etc/java`, the kernel opens `/etc/passwd`, which is not. One thread is enough, and nothing is written.
* `C101_race_fails` (Files.lean, pcq): fails** for programs with more than one thread, in a tree without links: another thread changes one byte of the path between the look of the tracer and that of the kernel, and `/opt/.x/../etc/passwd` becomes `/opt/../../etc/passwd`.

### C102 Test files are recognised by their names

Without test_cases in the configuration, a member of the archive is taken as an input file exactly if its name begins with in or contains .in, ignoring case, and contains a number with no whitespace after the last one; as an output file likewise with out. The case is the last number; the batch is the number before it, if that stands at the beginning or after a character that is no letter, digit or underscore and no whitespace is in between. So prefix.B.C.in and prefix.C.in mean what setters intend. Every archive is accepted; each resulting case pairs an input with an output of the same number, both named accordingly, and no test file is ignored unless a later one has the same numbers. Desired: an output file is never the input of a case, and no batch is dropped. Fails: in intervals.1.in and intervals.1.out both are inputs and the expected output is what submissions read; batch1/1.in and batch2/1.in are the same case and the first batch is not tested.

* `C102_numbers_unique` (Names.lean, pq): a name has at most one case number and at most one batch number.
* `C102_taken` (Names.lean, pcq): a member of the archive is taken as an input file exactly if its name begins with `in` or has `.in` in it, ignoring case, and has a number after whose last occurrence there is no whitespace; and as an output file likewise with `out`.
* `C102_numbers` (Names.lean, pcq): the case is the last number of the name; the batch is the number before it, if that stands at the beginning or after something that is neither letter, digit nor underscore and there is no whitespace between; there is no batch otherwise.
* `C102_accepted` (Names.lean, pcq): the judge rejects a problem with neither test cases nor an archive, and accepts every archive.
* `C102_pairs` (Names.lean, pcq): in every case that results, the input is a member of the archive named like an input file, the output a member named like an output file, and the two have the same case number.
* `C102_none_lost` (Names.lean, pcq): for every member named like an input file there is a case with an input of that case number (the file itself, or one with the same numbers later in the archive); likewise for outputs.
* `C102_apart_partial` (Names.lean, pcq): (partial)**: if no name has both markers, no input of a case is named like an output file, nor an output like an input file. Missing for the full claim: names with both (`C102_both_fails`).
* `C102_scheme` (Names.lean, pcq): files named `prefix.B.C.in` and `prefix.B.C.out`, whatever the prefix, are the input and the output of case `C` of batch `B`; also without prefix, `B.C.in`.
* `C102_scheme_plain` (Names.lean, pcq): files named `prefix.C.in` and `prefix.C.out`, or `prefixC.in` and `prefixC.out`, with no digit in the prefix, are the input and the output of case `C`, in no batch.
* `C102_both_fails` (Names.lean, pcq): fails** for problems whose name begins with `in`: of `intervals.1.in` and `intervals.1.out` both count as input, the later one is taken, and submissions are given the expected output to read.
* `C102_folders_fails` (Names.lean, pcq): fails** for batches in directories whose names end in a number after a letter: both files of the first directory are dropped without a complaint, and its batch is not tested.

### C103 What an init.yml means

For a problem whose init.yml is a dictionary, loading it gives exactly the settings in it, with the documented defaults where it is silent (a case is worth 1 point, the first 64 bytes of output are shown but none when grading by signature, 24 MiB of output, wall time factor 3, short circuit). A list of test cases is what is graded, with or without an archive. Without test_cases the cases are those found by name in the archive (C102), each worth the points of the problem. With input_format, output_format and case_points in test_cases, the members are matched with these and the points are given one after the other. A missing or empty or unparsable init.yml, an archive that is missing or no zip file, and anything to be found without an archive, are errors of the configuration. Desired: whatever is wrong with an init.yml is reported as such an error, and an empty list of test cases means no cases. Fails: an init.yml that is a text or number, an unknown tag, a text as test_cases, a bad pattern, fewer points than cases, an archive that is a directory each give some other exception; test_cases: [] means that cases are looked for in the archive. For settings of the right kinds only too few points and mixed ids give other exceptions.

* `C103_settings` (Load.lean, pcq): what the document says is the configuration; where it is silent the defaults hold: a case is worth 1 point, the first 64 bytes of the output are shown, none when grading by signature, and so on.
* `C103_given` (Load.lean, pcq): a list of test cases in the document is what is graded, with or without an archive.
* `C103_guessed` (Load.lean, pcq): a problem with an archive and no mention of test cases has those found by their names (C102), each worth the points of the problem.
* `C103_formats` (Load.lean, pcq): with anything in `test_cases` the members of the archive are matched with the formats given there or beside it, or the default ones, and the entries get the points listed one after the other, or those of the problem.
* `C103_refused` (Load.lean, pcq): a missing or empty `init.yml`, one that is not YAML, an archive that does not exist or is no zip file, and formats or a guess without an archive are refused as errors of the configuration.
* `C103_raises_partial` (Load.lean, pcq): (partial)**: if the settings are of the kinds they are meant to be, whatever keeps the problem from being loaded is reported as an error of the configuration, except for two: too few points for the cases found, and ids of which some are numbers and some are not. Missing for the full claim: these and settings of other kinds (`C103_raises_fails`).
* `C103_hyphen` (Load.lean, pcq): test cases under the name with a hyphen are taken as well.
* `C103_empty_fails` (Load.lean, pcq): fails**: an empty list of test cases is taken for none at all, and cases are looked for in the archive.
* `C103_raises_fails` (Load.lean, pcq): fails**: other errors for a problem that does not exist, a document that is no dictionary, YAML with an unknown tag or alias, test cases that are a text, a format that is no pattern, fewer points than cases, and an archive that is a directory.
* `C103_pairs_fails` (Load.lean, pcq): fails**: a document that is a list of pairs is taken for a dictionary, and its settings hold; but for it a `signature_grader` is not seen: the first 64 bytes of the output are shown although it is graded by signature.
* `C103_list` (Load.lean, pcq): Of the documents that are lists, exactly those whose elements all count as pairs are taken for dictionaries; the problem cannot be loaded from the others.
* `C103_list_refused` (Load.lean, pcq): So the problem cannot be loaded from the others.
* `C103_scalar` (Load.lean, pcq): a document that is a single value is refused as an invalid `init.yml` exactly if it counts as none (nothing, `false`, 0, an empty text); every other is refused with another error, so that the reason given is not that of the user's mistake.
* `C103_no_archive` (Load.lean, pcq): an archive that counts as none is none.
* `C103_format_fails` (Load.lean, pcq): (fails): a format that is no pattern, and one that is not even a text, are errors of the configuration, but none is reported as such: the exceptions are those of the library of patterns.
* `C103_archive_fails` (Load.lean, pcq): (fails): an archive that is not a text is an error of the configuration, too, and not reported as such.
* `C103_points` (Load.lean, pcq): points that are not a list: of a dictionary the keys are taken, not the values, and of a text its letters, each as a text; a number or a boolean is refused, although it could be meant as the points of each case, and not as an error of the configuration.

### C104 Who holds the pipes of a bridged session, and what goes through them

(C68 on the level of descriptors and bytes.) When a submission is graded by a second program, each reads what the other writes, in order and without loss. When the judge waits for them the pipes between them are in their hands only: a program has to wait for input only while the other is alive and can still write, and when the other has ended it gets what is left and then the end of file, and does not have to wait to write. The judge waits for nothing but a program that has not ended; at the end it has all that either has written to standard error. Desired: writing to standard error never blocks a program, and a submission is not left waiting when the interactor cannot be started. Fails: nobody reads standard error before both have ended, so a program that writes more to it than a pipe holds (64 KiB) is stuck until it is killed, a wrong verdict; after an exception before the interactor is started the judge keeps the pipes open and the submission waits until killed.

* `C104_ends` (Bridge.lean, pcq): when the judge waits, each pipe between the programs has its ends in their hands only, and only a program itself can write to its errors, which the judge can read.
* `C104_waits` (Bridge.lean, pcq): a program has to wait for input only if nothing is there and the other one is alive and can still write.
* `C104_over` (Bridge.lean, pcq): once the other program has ended, neither reading nor writing blocks: what is there is read, then the end of file.
* `C104_bytes` (Bridge.lean, pcq): bytes arrive in order and none is lost: what has been written to a pipe is what has been read and what is in it, at most its capacity; and only one program writes to each.
* `C104_proceeds` (Bridge.lean, pcq): the judge waits for nothing but a program that has not ended.
* `C104_result` (Bridge.lean, pcq): at the end both programs have ended, and the judge has all they have written to their errors.
* `C104_errors_partial` (Bridge.lean, pcq): (partial)**: as long as a program has written less to its errors than a pipe holds, it does not have to wait to write more. Missing for the full claim: beyond that (`C104_errors_fails`).
* `C104_errors_fails` (Bridge.lean, pcq): fails**: a submission that has written as much to its errors as a pipe holds, and wants to write one byte more, waits for ever: whatever the interactor does, the judge waits for the submission and does not read. Only being killed ends this.
* `C104_left_fails` (Bridge.lean, pq): fails**: if the interactor cannot be started (no expected output, a bad format of arguments), the submission is left waiting for input that never comes: the judge does not close its end. Only being killed ends this.

### C105 What is told of the end of a program is what ended it

(C69, C37 and C51 put together over a whole run.) The signal the judge has noted when a program ends is the last one its main thread was sent, none when it was sent none. A program killed in its main thread by a signal, within its limits and without a message of its own, has the name of that signal told. One that was sent no signal has none told. One killed for a system call it may not make has the name of that call told (or another name of the same call), by the table of the ABI it was made with, and "unknown" if the table does not have it. Fails: the judge itself sends SIGWINCH each second, so a program that runs for longer and ends with code 1, or is killed by SIGKILL, is said to have ended by that ("window changed"); nothing is told of signals acting in another thread and of SIGTRAP; call number -1 is told as "ptrace fail".

* `C105_signal` (Ending.lean, pcq): the signal noted when the program ends is the last its main thread was sent.
* `C105_unsignalled` (Ending.lean, pcq): none is noted when it was sent none.
* `C105_killed_partial` (Ending.lean, pcq): (partial)**: when the main thread is killed by a signal, the name of the signal is told. Missing: signals acting in other threads, `SIGTRAP`, and `SIGKILL`, which stops no thread (`C105_thread_fails`, `C105_trap_fails`, `C105_kill_fails`).
* `C105_end` (Ending.lean, pcq): (the end): a run is taken as an invalid return exactly if the program exited with a code other than zero, and as a runtime error exactly if a signal ended it.
* `C105_quiet` (Ending.lean, pcq): a program that ends by itself with a code other than 0, and was sent no signal, has nothing told about signals.
* `C105_disallowed` (Ending.lean, pcq): a program killed for a call it may not make has the name of the call told, or another name of the same call.
* `C105_unknown` (Ending.lean, pcq): a call the tables do not have is told as unknown.
* `C105_window_fails` (Ending.lean, pcq): fails**: the judge itself sends signal 28 (`SIGWINCH`) each second to a running program (tracer.py:332-351); one that runs longer and then ends by itself with code 1 is said to have ended by that signal ("window changed").
* `C105_kill_fails` (Ending.lean, pcq): fails**: `SIGKILL` stops no thread: a program killed by it, for example for want of memory, after a second has signal 28 told instead.
* `C105_thread_fails` (Ending.lean, pcq): fails**: a program killed by signal 11 sent to a thread other than the main one has nothing told.
* `C105_trap_fails` (Ending.lean, pcq): fails**: one killed by `SIGTRAP`, of which the tracer thinks it is its own, has nothing told.
* `C105_number_fails` (Ending.lean, pcq): fails**: call number −1, which a program can make, is told as a failure of `ptrace`.

### C106 Configured settings and options are the ones used

Whichever of the three programs (judge, command line, test suite) is started, with whatever configuration documents and options, and whichever executors and other modules are imported afterwards in whatever order: importing comes to an end; every setting that a module reads while it is imported, and every one read later, is that of the last document that has it or else the default; every copy of a variable of judgeenv.py is the variable as the command line left it. So submissions are compiled within compiler_time_limit, generators run and are compiled within the generator_* settings unless the problem asks otherwise, interactors have generator_memory_limit. Fails: the limits of a bridged checker are read before the configuration is loaded, so it always has 20 seconds and 512 MB unless the problem says otherwise, and the setting meant to limit its compilation is read by a name no setting has, so it is compiled without a limit of time; an interactor too.

* `C106_imports` (Settings.lean, pcq): Every program comes to its end of importing, whatever is imported later and in whatever order, and everything asked for was imported.
* `C106_settings_partial` (Settings.lean, pcq): Whatever is configured, in whatever documents, and whichever executors and other modules are imported in whatever order: a setting read by the body of a module other than the bridged checker is the one configured last, or else the default. Missing: the bridged checker, see `C106_checker_fails`.
* `C106_late` (Settings.lean, pcq): A setting read inside a function is the one configured last, or else the default, whenever the function is called after `load_env`.
* `C106_tls` (Settings.lean, pcq): The options of TLS are what the command line says; where it cannot say anything (a Python without `ssl`, the interactive judge, the testsuite), the connection is plain and certificates, if any, are checked: both are `False`.
* `C106_options` (Settings.lean, pcq): The copy of a variable of judgeenv.py in any module, whenever made, is the variable as the command line left it: those copied before the command line was looked at are never assigned again.
* `C106_submission` (Settings.lean, pcq): Submissions are compiled within the configured time.
* `C106_generator` (Settings.lean, pcq): A generator runs and is compiled within what the problem asks for, else within what is configured.
* `C106_generator_empty` (Settings.lean, pcq): An empty list or mapping in the problem asks for nothing: what is configured is in force.
* `C106_interactor` (Settings.lean, pcq): An interactor has the memory the problem asks for, else what is configured.
* `C106_interactor_time` (Settings.lean, pq): An interactor has the time of the submission and the time the problem asks for on top, two seconds if it asks for none: more than the submission in any case.
* `C106_interactor_compile_fails` (Settings.lean, p): An interactor for which the problem gives no time to compile within is compiled without any limit, whatever is configured.
* `C106_checker_fails` (Settings.lean, pq): A bridged checker for which the problem gives no limits runs within 20 seconds and 512 megabytes and is compiled without any limit of time: whatever is configured, in whichever program.
* `C106_checker_partial` (Settings.lean, pq): A limit the problem gives is used for the checker; and one of time or memory that is not configured is the default. Missing: what is configured otherwise, and the time to compile within, see `C106_checker_fails`.

### C107 What a compiler is started with and what is heard of it

Every compiler is told its terminal is an xterm. Go's sees exactly three variables, so foreign code cannot be turned on by the environment; GCC and its like see the configured variables over those the judge was started with; the others the judge's. Of most compilers all they write to standard output and standard error is heard, in order, with a carriage return before each line feed, which can be undone without loss; of Haskell, Pascal and Lisp compilers only standard error; of COBOL and Visual Basic all, as written. Whatever an unprivileged compiler and the programs it starts do, no file grows beyond the configured size. Ending the compiler ends all of them that have not left its group, and nothing outside it. Fails: a secret in the judge's environment is visible to all compilers but Go's; the message has carriage returns; a Haskell error on standard output is lost; a privileged compiler can raise its limit; with a limit above the judge's own no compiler starts.

* `C107_term` (CompilerStart.lean, pcq): Every compiler believes it has a terminal.
* `C107_go` (CompilerStart.lean, pcq): The compiler of Go sees three variables, whatever the environment of the judge and the configuration: foreign libraries cannot be turned on by it.
* `C107_gcc` (CompilerStart.lean, pcq): GCC and its like have the variables configured for them, and else those the judge was started with.
* `C107_environ` (CompilerStart.lean, pcq): The other compilers have the environment of the judge.
* `C107_secret_fails` (CompilerStart.lean, pcq): So whatever the judge was given in its environment (a password, say) the compilers of all languages but Go can read.
* `C107_heard` (CompilerStart.lean, pcq): What is heard of the compilers of most languages: all they write, to standard output and to standard error, in the order written, with carriage returns; of those of Haskell, Pascal and Lisp what they write to standard error, with carriage returns; of those of COBOL and Visual Basic all, as it is.
* `C107_plain` (CompilerStart.lean, p): Nothing is lost by the terminal: without the carriage returns it put in the text is what was written, whatever that was.
* `C107_lines_fails` (CompilerStart.lean, p): But the text has them: a message of two lines.
* `C107_quiet_fails` (CompilerStart.lean, pq): What the compiler of Haskell writes to standard output is not heard, even if it is all it has to say.
* `C107_size` (CompilerStart.lean, pcq): Whatever the compiler and the programs it starts do, no file gets larger than the configured size; the limit cannot be raised again. The judge is not privileged.
* `C107_group` (CompilerStart.lean, pcq): Ending a compiler ends it and all programs it started, but for those that left its group, and nothing else: the judge, being in another group, is not hit.
* `C107_root_fails` (CompilerStart.lean, pq): Run by a privileged judge the compiler can raise its limit.
* `C107_start_fails` (CompilerStart.lean, p): With a configured size above the limit the judge itself has no unprivileged judge can start any compiler.

### C108 What a green run of the test of all executors means

The test of all executors followed by the regression suite exits with 0 exactly if no executor counts against it and no case of the suite fails when run with exactly the executors that passed, each with the configuration it passed with. An executor counts against it if it was neither found nor passed its self-test, unless it may fail, was left out, or is one of Java. So in a green run on x86-64 every executor but five that may fail and those of Java works. The configuration printed is the one dmoj-autoconf would make; the executors named as failed are those that count. Fails: a Java executor whose every installed virtual machine fails its self-test is taken for one that is not installed; a module without an executor turns the run red without being named; if no executor works and all may fail the run is green though no source was graded.

* `C108_executors` (Citest.lean, pcq): The suite is run with exactly the executors that were found, or given, and passed their test, each with the configuration it passed with.
* `C108_languages` (Citest.lean, pcq): The languages of the suite are those whose executors passed, and the rest is as it is.
* `C108_works` (Citest.lean, pcq): Every executor the suite is run with works, also those given by hand, and these are tried as they are given, but for the architecture.
* `C108_green` (Citest.lean, pcq): The run is green exactly if no executor counts against it and no case of the suite fails with the executors that passed.
* `C108_excused` (Citest.lean, pcq): The five of the test on x86-64 may fail: whatever becomes of them, the run is as green as without them.
* `C108_docker` (Citest.lean, pcq): In a green run of the test of all executors on x86-64 every executor but the five that may fail, and those of Java, was found and works with the configuration it was found with.
* `C108_entries` (Citest.lean, pcq): The configuration printed is the one `dmoj-autoconf` would make for these executors (C88), unless some are given by hand.
* `C108_named` (Citest.lean, pcq): The names printed are those of the executors that count against the run.
* `C108_java_fails` (Citest.lean, pcq): A Java executor that fails its test with every virtual machine installed is no reason for a red run, whatever may fail: it is taken for one that is not installed.
* `C108_unnamed_fails` (Citest.lean, pcq): A module without an executor makes the run red even if it may fail, and is not named.
* `C108_nothing_fails` (Citest.lean, pcq): If no executor passes, and all may, the run is green and no source is graded, whatever grading would say.

### C109 Which files checkers, interactors and generators may use

A helper program (checker, interactor, generator or validator) reads what programs of its language may read, its own directory and what begins with the temporary directory of the system; in particular it can open the files made for its case, and it can write to none of them. No submission reads these files, as each has a name of its own. They are there with their contents while the helper runs, and gone afterwards however it ends. With a configured tempdir outside that of the system no helper reads anything of a submission. Fails: without it helpers read the directories of all submissions and the answers of cases of other judges, and directories whose names merely begin like it; the directory is a pattern, so under a name such as /tmp/a+b helpers cannot open the very files they are given, and under one with a brace every open is an error.

* `C109_reads` (HelperFs.lean, pcq): (reading).** A helper program reads what every program of its language may read, its own directory, and everything whose path begins with the temporary directory of the system, if that has an ordinary name.
* `C109_opens` (HelperFs.lean, pcq): (files of the case).** A helper program that opens a file made for it, without asking to write, is let through: for every executor, every name and every temporary directory with an ordinary name.
* `C109_writes` (HelperFs.lean, pcq): (writing).** No helper program writes to a file made for it, whatever the temporary directory: it may write to the three device files only.
* `C109_submission` (HelperFs.lean, pcq): (submissions).** Under a temporary directory in a hidden place, such as `/tmp`, no submission reads a file made for a helper program, unless the patterns of its language let it through: each has its own name.
* `C109_apart` (HelperFs.lean, pcq): (a place of their own).** With a configured `tempdir` in a hidden place outside the temporary directory of the system no helper program reads anything of a submission, unless the patterns of its language let it through; its own program may be kept anywhere else.
* `C109_where` (HelperFs.lean, pcq): (where directories are).** The directory of a submission is below the configured `tempdir`, that of a kept helper program below the configured `compiled_binary_cache_dir`; where these are not given, and for the files of the case in any case, it is the temporary directory of the system.
* `C109_slash` (HelperFs.lean, pcq): (names).** A final slash of the temporary directory makes no difference, and that directory may be the root.
* `C109_left` (HelperFs.lean, pcq): (nothing left).** The files of a case are there, each with its content, while the helper program runs, and gone afterwards, also if it fails or one of them cannot be made; the other files of the directory stay.
* `C109_submissions_fails` (HelperFs.lean, pcq): where it fails: submissions.** Without a configured `tempdir` a helper program reads whatever is in the directory of any submission being judged, not only the output it is given.
* `C109_answers_fails` (HelperFs.lean, pcq): where it fails: other cases.** Nor are the files of other cases, judged by another judge on the machine, closed to it: their answers are readable.
* `C109_prefix_fails` (HelperFs.lean, pcq): where it fails: names that begin alike.** The directory is not closed by a slash.
* `C109_plus_fails` (HelperFs.lean, pcq): where it fails: a name with a meaning.** Under `/tmp/a+b` a helper program cannot open the files it is given: the name is taken for a pattern.
* `C109_brace_fails` (HelperFs.lean, pcq): where it fails: braces.** Under a directory with a single brace in its name every file a helper program opens is an error of the judge.

### C110 Assembler programs: which languages are offered and how their programs are run

An assembler language is offered exactly if its programs can be traced on this machine or an emulator is configured, assembler and linker are configured, these and the dynamic linker and all start files exist, and the self-test passes unless skipped. Emulator, linker and start files are the configured ones, otherwise Debian's. Programs are given to the emulator where there is one, even if the machine could run them; otherwise they are run as they are and can be traced. Under the emulator they read two more places, and only those. Fails: with self-tests skipped and an emulator configured that is missing, a language is offered whose programs can be neither run nor traced; languages are not offered without the start files of the C library, which most programs do not need; the search for runtimes never finds a language that needs the emulator.

* `C110_offered` (Asm.lean, pcq): (offered).** An assembler language is offered exactly if its programs can be traced on this machine or an emulator is configured, assembler and linker are configured, they and the dynamic linker and all start files exist, and it passes its self-test unless that is skipped.
* `C110_machines` (Asm.lean, pq): (machines).** The languages whose programs can be traced without an emulator are those of the machine, and of the 32-bit one below it.
* `C110_settings` (Asm.lean, pcq): (settings).** The emulator, the dynamic linker and the start files are the configured ones, under either spelling of the key but for the linker; a list without entries and a path without characters count as nothing configured, except for the emulator.
* `C110_defaults` (Asm.lean, pcq): (defaults).** Where nothing is configured, or a list without entries, they are those of Debian.
* `C110_runs_partial` (Asm.lean, pcq): (running).** A program of an offered language is given to the emulator where one is configured and there, even if the machine could run it itself; otherwise it is executed as it is, and then it can be traced — provided that a configured emulator is there.
* `C110_files` (Asm.lean, pcq): (files).** Under the emulator a program reads besides the places of every program the least address that can be mapped and what is below `/etc/qemu-binfmt`; its own file is in its directory already. Run as it is it reads nothing more.
* `C110_missing_fails` (Asm.lean, pcq): where it fails: a missing emulator.** With self-tests skipped a language is offered whose programs the machine can neither run nor trace, if an emulator is configured that is not there: its programs are executed as they are.
* `C110_libc_fails` (Asm.lean, pcq): where it fails: the C library.** A language is not offered where the start files of the C library are missing, though programs that do not ask for it would be assembled, linked and run without them.
* `C110_search_fails` (Asm.lean, pcq): where it fails: finding it.** The search for installed runtimes never configures a language that needs the emulator, on any machine, though it would be offered if it were configured.

### C111 What a program reads, what is kept of it, and who waits for whom

(C43 together with the program and the pipes.) In an ordinary run, whatever the program does and however the two are scheduled: while the judge talks to the program, only these two hold the ends of the pipes; what the program reads is a beginning of the input, and all of it when it meets the end of file; nothing it writes is lost, and if the case is graded with an output, that and the errors are exactly what it wrote, within the limits; the output limit is said to be exceeded only if it was. The judge and the program never wait for each other; the judge waits only for a program that has not ended, does not work forever while the program does nothing, and comes to an end once the program has. If the program cannot be started its ends are closed. Fails: a program that closes its output and writes too much to its errors is not killed, and it and the judge wait for each other until the time limit.

* `C111_ends` (Exchange.lean, pcq): while the judge talks to the program, only the program can read the input and only the judge can write it; only the program can write to its outputs and only the judge can read them.
* `C111_input` (Exchange.lean, pcq): at any time, what the program has read, followed by what is waiting for it, is a beginning of the input.
* `C111_eof` (Exchange.lean, pcq): a program that meets the end of its input has read all of it.
* `C111_written` (Exchange.lean, pcq): nothing the program writes is lost: whatever it writes to an output or to its errors is added to what was put there, and nothing else is.
* `C111_result` (Exchange.lean, pcq): if the case is graded with an output, the program has ended, and the output and the errors are exactly what it wrote, within what is allowed.
* `C111_exceeded` (Exchange.lean, pcq): the output limit is said to be exceeded only if the program wrote more than is allowed to one of the two, and the program has been ended by then.
* `C111_other` (Exchange.lean, pcq): another failure comes up only if the program closed its output and wrote more than is allowed to its errors.
* `C111_lively_partial` (Exchange.lean, pcq): (partial)**: the judge and the program never wait for each other: if the judge, talking to the program, has to wait, then the program is alive and can do at once whatever it wants. Missing: a judge that has given up talking (`C111_stderr_fails`).
* `C111_waits` (Exchange.lean, pcq): the judge waits only for a program that has not ended.
* `C111_bounded` (Exchange.lean, pcq): the judge never goes on working forever while the program does nothing.
* `C111_finishes` (Exchange.lean, pcq): when the program has ended, the judge comes to an end by itself.
* `C111_unstarted` (Exchange.lean, pcq): if the program cannot be started, the ends made for it are closed all the same.
* `C111_stderr_fails` (Exchange.lean, pcq): fails** for a program that closes its output and writes more than is allowed to its errors: the judge gives up reading but does not kill it. The judge then waits for the end of the program, and the program waits for the judge to read: neither can do anything before the time limit.

### C112 Which files interpreted programs may read

(C64 for the languages whose executors add patterns of their own.) A program in one of the fourteen interpreted languages reads the common places, what the executor's own and the configured patterns match, its source, whatever begins like the home directory of the interpreter, and: in BASH what begins like an installed command, in RUBY2 each directory above the home directory, in COFFEE what begins like the configured program; nothing else. Where the names of directory and problem have no characters with a meaning in patterns, its source is in that directory, so that no other file is reached by its pattern; likewise for the byte code of Turing. Java programs also read what begins like the agent and write, besides the three device files, what is called submission_jvm_crash?log... in their directory. Fails: names are not escaped. A dot in the name of the directory lets a file of another directory be read, an open bracket in the name of a problem makes every run fail, home directories are not closed by a slash, two slashes in one make Ruby forget the directories above, and Java programs may write more than the log.

* `C112_reads` (ScriptFs.lean, pcq): Which places an interpreted program reads: the common ones (C64), those of the executor's own and of the configured patterns, its source, whatever begins like the home directory of the interpreter; in BASH what begins like a command, in RUBY2 the directories above the home directory, in COFFEE what begins like the configured program. A dot in the name of the source, of a command or of the program stands for any character.
* `C112_scripts` (ScriptFs.lean, pq): These are the languages whose programs are not compiled and given to an interpreter as the file they were written to, with the same extension.
* `C112_shell` (ScriptFs.lean, pcq): Of these, those may read the files of commands that may start them.
* `C112_source` (ScriptFs.lean, pcq): In every interpreted language, where the name of the directory has no character with a meaning (which includes dots) and the one of the problem has none either, the pattern for the source adds nothing to the directory: the program reads the common places, what it is in C112_reads and no more.
* `C112_dot_fails` (ScriptFs.lean, pcq): But a dot in the name of the directory, as in `/srv/dmoj.d`, stands for any character: the program also reads a file of the same name in another directory.
* `C112_home_fails` (ScriptFs.lean, pcq): The home directory of an interpreter is not closed by a slash: everything whose path begins so is readable.
* `C112_bracket_fails` (ScriptFs.lean, pcq): A problem with a bracket in its name that is not closed: no run of a program in an interpreted language (without a home directory) gets as far as the first file, for the pattern is none.
* `C112_double_fails` (ScriptFs.lean, pcq): With two slashes in a row the directories above Ruby's home directory are forgotten.
* `C112_turing` (ScriptFs.lean, pcq): Programs in Turing read the common places and what begins like their byte code, which is in their directory if its name has no dots.
* `C112_java` (ScriptFs.lean, pcq): Programs in Java read the common places and what begins like the agent.
* `C112_crash` (ScriptFs.lean, pcq): Where Java programs write: the three device files, and in their directory whatever is called `submission_jvm_crash?log…`.
* `C112_crash_fails` (ScriptFs.lean, pcq): So not only its log: a Java program may write files it has no need to.

### C113 No process of a submission escapes its group or outlives its run

From the first act of the child on, the processes of a submission in any language are exactly those in the process group of the program, whatever they do; killing the group, which is how the judge enforces its limits, ends all of them and nothing else. Under the in-kernel filter no process of a submission, traced or not, ever executes a call that its policy refuses. In the languages with a limit on processes a program is one process all the time, and when the judge has done with it nothing is left. In the others nothing is left unless the program made a process that nobody traces. Fails: no policy looks at the flags of clone, so in each of the 18 languages without a limit a program can leave a process behind (CLONE_UNTRACED), and without the filter such a process can leave the group, survive the kill and use calls that no policy permits; the loop that kills the children of an ended program misses those made by clone with another signal than SIGCHLD, which live until the tracing thread ends, and may hit a process that has nothing to do with the submission; a kill that comes before the first act of the child has no effect.

* `C113_group` (Family.lean, pcq): from its first act on, the processes of a submission in any language are exactly those in its group: none leaves it, whatever they do, and no other process is in it. Without the in-kernel filter this is so as long as no process nobody traces is made.
* `C113_killed` (Family.lean, pcq): so killing the group, which is how the judge enforces its limits, ends everything the submission has started and hits nothing else.
* `C113_checked` (Family.lean, pcq): whether traced or not, under the in-kernel filter no process of a submission ever executes a call that its policy refuses; without the filter this is so as long as no process nobody traces is made.
* `C113_over_partial` (Family.lean, pcq): in part: when the judge has done with a program, nothing of it is left, unless it made a process nobody traces. (Missing: such processes, see `C113_survivor_fails`.)
* `C113_single` (Family.lean, pcq): in the languages with a limit on processes the program is one process all the time, and it is gone when the judge has done with it, whatever it did.
* `C113_languages` (Family.lean, pcq): The languages without such a limit.
* `C113_survivor_fails` (Family.lean, pcq): In every language without a limit on processes a program can leave one behind that lives on when the judge has done with it: no policy looks at the flags of `clone`.
* `C113_privileged_fails` (Family.lean, pcq): With the privileges of an administrator so it is in every language: the limit on processes does not hold then (a judge does not start as such, C83).
* `C113_escape_fails` (Family.lean, pcq): Without the in-kernel filter, in every such language: it executes calls that no policy permits and cannot be killed with the group.
* `C113_early_fails` (Family.lean, pcq): A program killed before its first act is not killed: it is still in the judge's group. It then runs, in any language.
* `C113_late_fails` (Family.lean, pcq): "Children are not permitted to outlive parent" (ptproc.cpp:352) is not what that loop achieves: a process made by `clone` with another signal than `SIGCHLD` is not in its list, and lives on until the tracing thread ends.
* `C113_stale_fails` (Family.lean, pcq): What is seen out of order leaves a number in that list for good: when the program ends, a process that has nothing to do with it may be killed.

### C114 The judge does not wait for output longer than the submission lives

Once the program has ended, of itself or by a kill (the watchdog, an abort, too much output), the judge returns, after a bounded number of rounds of its own threads, whatever the other processes of the submission do and whoever holds the pipes: in the languages with a limit on processes always, in the others if no process was made that nobody traces. It does not return early either: unless there was too much output, when the judge returns no process can write to the output or the error output any more, ever. Fails: in each of the 18 languages without a limit a submission can keep the judge waiting for ever, past its time limit and every abort, by a process that nobody traces which keeps the output open: once the program has been waited for, kill does nothing and the watchdog has ended; and the judge may return while a process of the submission that has closed its output is still alive.

* `C114_returns_partial` (Vigil.lean, pcq): once the program is no longer alive and the judge has closed its own copies of the pipes, the judge returns, in at most as many rounds of its threads as there are reports to look at, and five, whatever else happens meanwhile, be it that other processes of the submission are alive and hold the pipes. *Missing* (see `C114_hang_fails`): processes that nobody traces, in the languages that can make them.
* `C114_killed_partial` (Vigil.lean, pcq): in particular the judge returns after a kill, by the watchdog or an abort. (The watchdog asks when the limit has passed, C68.)
* `C114_limit_partial` (Vigil.lean, pcq): the judge returns after there was too much output.
* `C114_final` (Vigil.lean, pq): the end of a pipe is final: once nobody can write to it, nobody will, whatever happens.
* `C114_complete` (Vigil.lean, pcq): and the judge does not return early: if it was not for too much output, then when it has returned no process can write to the output or the error output any more, now or later. (So with C111 nothing written is lost.)
* `C114_hang_fails` (Vigil.lean, pcq): In every language without a limit on processes a submission can keep the judge waiting for ever: a process that nobody traces holds the output and writes nothing; the program ends; the tracing thread has ended, and all later kills, of the watchdog (which has ended, too) or of an abort, do nothing, since there is a return code. It ends only when the process itself does (or closes its output, or writes too much).
* `C114_window_fails` (Vigil.lean, pcq): The judge may return while a process of the submission is alive, if the process has closed the pipes: `_died` is set before the tracing thread ends (tracer.py:328-330).

### C115 The limits on a program are those asked for, or it is not started

Limits are Python numbers that become machine words on the way to the kernel. A program is started exactly if all of them fit their C types, otherwise the constructor raises before anything is started; no conversion makes a limit on address space, data, processes or file size laxer or stricter, on machines of 64 and of 32 bits, and what is not asked for is not limited. A time limit, also of a fraction of a second, becomes a limit on processor time more than four and less than six seconds above it, so the judge's own count always comes first. A submission in any language with a positive time limit and a memory limit that fits the address space is not refused. Fails: with a time limit of 2^32 - 6 seconds the hard limit wraps to zero, the kernel refuses it and processor time is not limited; a time limit of -5 seconds is taken for none.

* `C115_starts` (Limits.lean, pcq): a program is started exactly if the numbers fit the C types; otherwise the constructor raises, and nothing was started.
* `C115_held` (Limits.lean, pcq): a program that was started is held to the limits asked for; no conversion on the way makes one laxer.
* `C115_exact` (Limits.lean, pcq): nor stricter: if the judge itself is not limited, they are exactly the ones asked for.
* `C115_unasked` (Limits.lean, pcq): what was not asked for is not limited: no memory limit, no time limit, a negative number of processes or file size.
* `C115_cpu_partial` (Limits.lean, pcq): a time limit of a fraction of a second or more becomes a limit on processor time of whole seconds, more than four and less than six above it, so that the judge's own count ends the program first. Missing (see `C115_cpu_fails`): limits near 2^32 seconds.
* `C115_cpu_fails` (Limits.lean, pcq): fails: with a time limit of 2^32 - 6 seconds the hard limit, an `unsigned int`, wraps to zero, the kernel refuses the pair, and the program runs without a limit on processor time.
* `C115_negative_fails` (Limits.lean, pcq): fails: a time limit of -5 seconds or less is taken for none, if it is accepted.
* `C115_languages` (Limits.lean, pcq): a submission in any language with a positive time limit and a memory limit that fits the address space is not refused for its limits.

### C116 What the worker reports of a case is what the judge tells the site, or the submission ends with an internal error

Results are made in the worker process and reach the judge pickled through a pipe. Of whatever the worker hands over, results of graders of problems included, the judge is told everything in order, or everything before the first result that cannot be sent, read or shown, and then of an error; nothing after it, and no result changed. A result that arrives has all attributes of the one in the worker except for its output, which is cut to the length that is shown, and for configuration, problem and generated data of its case. Results as the judge's graders make them always arrive, whatever the configuration and the generated data are, if the case's points are a simple value. Whatever goes wrong, the worker's messages still end with one that closes the submission. Fails: with points given as a list or a mapping every submission ends with an internal error at the first case, even if that case is skipped.

* `C116_stream` (Ipc.lean, pcq): Of whatever the worker hands over, results of graders of problems included, the judge is told everything in order, or everything before the first result something is wrong with, and then of an error. A result that it is told of says what the result in the worker says.
* `C116_farewell` (Ipc.lean, pq): What the worker sends ends with its farewell, which is sent once.
* `C116_delivered` (Ipc.lean, pcq): If nothing is wrong with any result, the judge is told of all of them.
* `C116_attributes` (Ipc.lean, pcq): What is received has all attributes of what was handed over, those that graders of problems added included, but for the output, which is cut, and for three attributes of the case, which are dropped.
* `C116_small` (Ipc.lean, pcq): The judge never holds more of an output than the site is shown.
* `C116_standard` (Ipc.lean, pcq): Whatever the configuration of the problem contains, whatever the generator wrote: a result as the graders of the judge make them is delivered if the case's points, length of shown output and kind of data are simple values.
* `C116_points_fails` (Ipc.lean, pq): With points given as a list or a dictionary no result of a case can be sent, not even that of a case that was skipped: the submission ends with an internal error after the first case.
* `C116_protocol` (Ipc.lean, pcq): So C18 and C20 hold for workers whose results cannot be sent, too: whatever goes wrong with whichever results, the worker says BYE only after a message that ends the submission, with every result followed by a closing message.
* `C116_read` (Ipc.lean, p): All that is sent before the farewell is read, one for one and in order, and nothing after it.

### C117 The compiled-binary cache over submissions: which directories stay, and whose

Every submission is graded in a process of its own, which has its own copy of the cache of compiled helper programs. Whatever such processes do and however they end, nothing that was on disk before is removed or replaced; a submission that needs no cached helper and whose worker ends in order leaves nothing behind, whether it compiles or not; otherwise a worker that ends in order leaves just the directories of the helpers in its cache, never more than fit into it. Desired: a helper compiled for one submission serves the next, and the directories on disk stay few. Fails: the cache ends with the worker, so that each submission compiles its checker again and leaves one more directory that nothing will ever remove; a worker that is killed leaves the submission's directory, too.

* `C117_foreign` (Workers.lean, pcq): Whatever workers do, and however they end, what was on disk before they were started is not removed or replaced by them: neither the judge's files nor those of earlier workers.
* `C117_left_partial` (Workers.lean, pcq): If nothing goes wrong on disk, a worker that ends in order leaves of all it made just the directories of the programs in its cache, so no more than fit into it.
* `C117_clean` (Workers.lean, pcq): A submission to a problem without cached helper programs whose worker ends in order leaves nothing behind, whether it compiles or not.
* `C117_idle` (Workers.lean, pcq): The judge is in this situation once the self-tests of the executors, which are not cached, are over; and after any submissions.
* `C117_reuse_fails` (Workers.lean, pcq): Desired: a helper program that was compiled for one submission is not compiled again for the next. It is, every time: whatever earlier workers have compiled, the first use of a program in a worker makes a new directory.
* `C117_grows_fails` (Workers.lean, pcq): Desired: the directories on disk stay few. They do not: a worker's directories are never removed by anyone once it is gone, even if it ends in order. So the same checker, used by every submission, leaves a directory each time.
* `C117_stays` (Workers.lean, pcq): What a worker leaves stays: nothing that comes after removes it.
* `C117_killed_fails` (Workers.lean, pcq): A worker that is killed leaves the directory of the submission, too; it stays for ever.

### C118 Aborting a submission takes effect in time

However far the grading of a submission has come when it is aborted: five seconds later it is over for the site (exactly one message ends it and nothing follows) and the judge reads messages of the site again; no result is reported after the request and at most one more program is started; a program that runs at that moment is killed at once and the site is told that the submission was aborted; a request after the end changes nothing. Desired: the site is always told that the submission was aborted. Fails: a compiler is not interrupted, a program that is about to be started is started and not killed, and a checker or generator is waited for; if that takes more than five seconds the worker is killed and the site is told of an internal error.

* `C118_bounded` (AbortTime.lean, pcq): Whatever is being done, five seconds after the request the grading is over for the site: exactly one message has ended it, nothing follows, and messages from the site are read again.
* `C118_order` (AbortTime.lean, pcq): Messages from the site are read again only when all of the submission is over: nothing of it is said after that, and the worker has had the time it needs to leave, or its five seconds.
* `C118_stops` (AbortTime.lean, pcq): After the request no result is reported any more, and at most one more program is started. (The first case is never short-circuited.)
* `C118_running` (AbortTime.lean, pcq): A program that runs when the request comes is killed at that moment, and the site is told that the submission was aborted as soon as its result has been looked at, if that takes no more than five seconds.
* `C118_told_partial` (AbortTime.lean, pcq): If the result of a case that is graded would come within five seconds after the request, the site is told that the submission was aborted. What is missing: if it takes longer, it is told of an internal error.
* `C118_compiling_fails` (AbortTime.lean, pcq): A request that comes while something is compiled that needs more than five seconds more ends in an internal error: nothing is interrupted.
* `C118_early_fails` (AbortTime.lean, pcq): A request that comes before the program of a case has been started (here, of the first) does not keep it from being started, nor kill it: if it does not end by itself in time, an internal error is what the site is told.
* `C118_over` (AbortTime.lean, pcq): A request that comes after the end of a grading changes nothing.

### C119 Waits and questions of the tracer that fail do no harm

The tracer does not look at whether its wait for the program succeeded. Once the program has been seen for the first time, waits that fail (interrupted by a signal), any number of them and at any moment, change nothing: the program gets the same permissions, results and signals, the judge is told the same, and the verdict and the end are those of the run without them. Desired: also that nothing else is killed. Fails: if a wait fails directly after the program has forked, or if the program is killed (time limit, abort) just when it forks, a variable that was not assigned is taken for the number of the new process, and the process with that number (all processes, if it is -1) is killed when the program ends; if already the first wait fails, the end of the program is reported although it has not ended, or it is never looked at again.

* `C119_harmless` (Interrupted.lean, pcq): if the first wait succeeds, waits that fail later, any number of them and anywhere but directly after the stop of a `fork`, change nothing: the program sees, the judge is told, and the end is exactly what it is without them.
* `C119_kept` (Interrupted.lean, pcq): the same with failures directly after the stop of a `fork`, as long as the variable there, which is not assigned, still has the value of the last time it was.
* `C119_program_partial` (Interrupted.lean, pq): (partial): whatever the variable holds, all that concerns the program and the verdict is the same. What is missing is that nothing else is killed: `C119_stray_fails`.
* `C119_stray_fails` (Interrupted.lean, pq): fails: a wait that fails directly after the stop of a `fork` can make the judge kill, when the program ends, whatever process the indeterminate number names, or with -1 all processes it may.
* `C119_killed_fails` (Interrupted.lean, pq): fails: the same without any failing wait, if a program is killed while it makes a process.
* `C119_first_fails` (Interrupted.lean, pq): fails: if the first wait fails, either the end of the program is reported although it has not ended, or it is never looked at again.

### C120 Clocks that are read while they are written

The watchdog reads the time a program has used while the tracing thread adds to it, without a lock. Whatever updates there are and at whichever moments the two fields are read, what is seen is less than a second too little and less than two seconds too much; so a program that is a second above its limit is noticed, and one that is two seconds below is not killed for it; what the tracing thread itself reads is exact. Desired: no program within its limits is killed. Fails: for every limit of a second or more there is a moment (between the two writes of a carry) at which a program that has used no more than the limit is killed; and if the nanoseconds of the time of the start are written first, one that has just been started is, as its wall clock time then is that since the machine was started.

* `C120_end` (Torn.lean, pq): (the thread itself): what the tracing thread reads after its own updates is their exact sum.
* `C120_seconds_first` (Torn.lean, pcq): (bounds): a reader that reads the seconds first, at any moments and however many updates come between its two reads, sees less than a second too little and at most a second too much: measured by the time accounted when it began, and by that when the last update it met is finished.
* `C120_nanoseconds_first` (Torn.lean, pcq): (bounds): a reader that reads the nanoseconds first never sees too little, and less than two seconds too much.
* `C120_wall` (Torn.lean, pcq): (wall clock): if the seconds of `start_time` are written first, the wall clock time seen while it is being written is zero, or at most a second too much.
* `C120_kills_partial` (Torn.lean, pcq): (partial): the watchdog kills only if the time accounted is less than two seconds below the limit, or the wall clock time less than one below its own, and the seconds of `start_time` were written first. What is missing is that it does so only above the limits: `C120_early_fails`, `C120_wall_fails`.
* `C120_noticed` (Torn.lean, pcq): (noticed): a program whose time was a second above the limit when the watchdog began to look is killed.
* `C120_early_fails` (Torn.lean, pcq): fails: for every limit of a second or more there is a moment at which a program that has used no more than the limit is killed for it.
* `C120_second_fails` (Torn.lean, pcq): fails: if the nanoseconds are read first, and updates come between the reads, even a program that is a second below the limit may be killed.
* `C120_overlooked_fails` (Torn.lean, pcq): fails: if the seconds are read first, a program above its limit is overlooked when an update comes between the reads.
* `C120_wall_fails` (Torn.lean, pcq): fails: if the nanoseconds of `start_time` are written first, a program that has just been started is killed if the machine has been up for longer than the limit.

### C121 A request by signal may come at any moment

An update of the list of problems can be asked for by the signal SIGUSR2, whose handler runs in the main thread between any two of its instructions, by the server for the API and by the observer of the directories. Desired: the request is served and the judge goes on. Holds exactly as long as no signal arrives while the main thread is itself between taking and giving back the lock of the event (in the handler of an earlier signal, or while the judge stops): then the main thread gets back to its work and a list is begun after every request, however the threads are scheduled as long as each goes on now and then, and the updater of a judge that stops ends. Fails otherwise: the lock is not reentrant, the main thread waits for itself for ever, no list is sent any more, and the threads of the API and the observer are stuck as well; two signals in a row may do it, or one while the judge stops.

* `C121_stuck_fails` (Usr2.lean, pcq): fails: if `SIGUSR2` arrives while the main thread is within `set`, it never gets back to its work, no list of problems is sent any more, and the other threads that ask for one (the server of the API, the observer) are stuck as well.
* `C121_two_fails` (Usr2.lean, pcq): fails: whenever the main thread does its work and the lock is free, two signals may do that, or one that arrives while the judge is stopped.
* `C121_returns_partial` (Usr2.lean, pcq): (partial): as long as no signal arrives at such a moment, the main thread can always get back to its work by the threads' going on. What is missing is that of any signals: by the second half, which is exact, it then cannot.
* `C121_served_partial` (Usr2.lean, pcq): (partial): and no request is forgotten: whoever made it, the list can be sent by the threads' going on.
* `C121_requested` (Usr2.lean, pq): Every call of `set` that writes makes a request.
* `C121_fair_partial` (Usr2.lean, pcq): (partial): moreover they do, under every fair schedule: as long as no signal arrives at such a moment, after finitely many rounds in which every thread goes on at least once, the main thread is back at its work, every other request has returned, and a list was begun after each request (unless the judge stops). Which of the threads gets the lock whenever it is free does not matter. Missing, as in `C121_returns_partial`: signals at any moment.
* `C121_ends_partial` (Usr2.lean, pcq): (partial): and if the judge is to stop, then the updater ends, under every fair schedule, so that it does not keep the process from ending. Missing, as above: signals at any moment.

### C122 The server for the API answers, and lets the judge stop

The server for the API serves one connection after the other, in a thread of its own, and the judge that stops waits for it. Desired: every request is answered rightly (200 and one update for POST /update/problems, an error otherwise), in the order of the connections, whatever other clients do; and a judge that stops, ends. Holds: what is answered is right, in order, at most once, no request is lost, the updates are as many as the answers that promise one; after the stop at most the connection being served is still answered. All are served, and the judge that stops gets past the server, exactly as long as no client that was accepted stays silent. Fails otherwise: a single client that connects and says nothing keeps all others from being answered, and keeps a stopping judge from ending until it is interrupted again.

* `C122_answers` (Control.lean, pcq): Whatever clients do and whenever the judge stops: what is answered is right, one connection after the other in the order in which they came, none twice; and an update was asked for as often as it was answered.
* `C122_kept` (Control.lean, pcq): No request is lost: one that was made is answered, at hand, or waits.
* `C122_served_partial` (Control.lean, pcq): All that was asked is answered by the server alone, if no client it has to wait for is silent and the judge does not stop. Missing for the full statement: a silent client, see `C122_stuck_fails`.
* `C122_turn_partial` (Control.lean, pcq): A request is answered once the server has gone on for twice as many steps as connections wait, whatever clients do meanwhile and however many more connect, if none of those before it is silent and the judge does not stop. Missing for the full statement: a silent client, see `C122_stuck_fails`.
* `C122_stops_partial` (Control.lean, pcq): The judge that stops gets past the server by itself exactly if the client being served, if any, is not silent. Missing for the full statement: the other case, see `C122_hang_fails`.
* `C122_after` (Control.lean, pcq): Once the judge stops, at most the connection being served is still answered.
* `C122_stuck_fails` (Control.lean, pcq): Desired: a request is answered whatever other clients do. Fails: as long as a client that was accepted says nothing, no one else is answered, and no update is begun by this way, whatever else happens.
* `C122_hang_fails` (Control.lean, pcq): Desired: a judge that stops, ends. Fails: one client that has connected and says nothing keeps it in `shutdown` for ever, until it is interrupted again.

### C123 The title of a judge's process tells which judge it is and which server it is for

An administrator tells the judges on a machine apart by the titles of their processes. The server is shown as host and port, with brackets around an address of IPv6 and an s for TLS. No two servers look alike, whatever the hosts; the port is what comes after the last colon. Two titles are the same exactly if the judges have the same name, host, port and kind of connection, as long as no host has a space in it. Fails otherwise: with spaces in what is given for the host two different judges may have one title.

* `C123_server` (Title.lean, pcq): what is shown of the server tells host, port and whether TLS is used: no two of them look alike, whatever the hosts (names, addresses of IPv4 or of IPv6).
* `C123_form` (Title.lean, p): a name or an address of IPv4 is shown as it is, one of IPv6 in brackets; the port comes after the last colon.
* `C123_title_partial` (Title.lean, pcq): (partial): the titles of two judges are the same exactly if they have the same name and the same server, seen with the same port and kind of connection. Missing: hosts with spaces in them, see `C123_title_fails`.
* `C123_title_fails` (Title.lean, pcq): (fails): with spaces in what is given for the host, two judges may look alike.

## Where the code does not do what one would expect

Each is a theorem ending in `_fails` with a concrete witness, listed above: `C09_linecount_fails`, `C10_peg_overaward_fails`, `C13_ignored_fails`, `C20_exactly_one_fails`, `C20_unserialisable_fails`, `C23_partial_write_fails`, `C24_query_idle_fails`, `C26_batch_zero_fails`, `C26_merge_fails`, `C26_duplicate_fails`, `C27_failed_run_fails`, `C29_get_falsy_fails`, `C29_dashed_own_fails`, `C29_items_fails`, `C29_add_fails`, `C30_both_fails`, `C30_plus_name_fails`, `C31_stale_fails`, `C32_pipe_fails`, `C34_statfs_fails`, `C36_whitelist_fails`, `C36_negative_fails`, `C37_clone_fails`, `C37_stdouterr_fails`, `C39_words_fails`, `C39_large_page_fails`, `C43_stderr_fails`, `C44_sibling_fails`, `C45_base_fails`, `C45_gcc_fails`, `C46_evicted_fails`, `C48_order_fails`, `C48_blank_fails`, `C48_delim_fails`, `C48_internal_fails`, `C49_resubmit_fails`, `C49_rejudge_id_fails`, `C49_guessed_fails`, `C49_limit_fails`, `C50_empty_fails`, `C50_brute_fails`, `C52_protocol_ignores_limits_fails`, `C54_points_fails`, `C54_feedback_fails`, `C54_any_points_fails`, `C54_missing_fails`, `C54_fraction_fails`, `C55_nothing_fails`, `C55_derived_instance_fails`, `C55_equal_fails`, `C56_int80_fails`, `C57_threads_fails`, `C59_clobber_fails`, `C61_failed_fails`, `C61_replaced_fails`, `C62_x32_fails`, `C62_int80_fails`, `C63_tcl_fails`, `C63_coffee_fails`, `C63_clone_fails`, `C64_sibling_fails`, `C64_brace_fails`, `C64_command_fails`, `C64_swift_fails`, `C64_objc_fails`, `C64_php_fails`, `C65_race_fails`, `C65_group_fails`, `C65_stray_fails`, `C66_runaway_fails`, `C66_verbose_fails`, `C66_terminal_fails`, `C66_stray_fails`, `C67_directory_fails`, `C67_missing_fails`, `C67_reconnect_fails`, `C67_deep_missing_fails`, `C67_depth_fails`, `C67_twice_fails`, `C67_string_fails`, `C68_wrong_fails`, `C68_output_fails`, `C68_stderr_fails`, `C68_interactor_stderr_fails`, `C69_java_fails`, `C69_log_fails`, `C70_quote_fails`, `C70_star_fails`, `C70_join_fails`, `C70_last_fails`, `C70_dollar_fails`, `C70_nested_fails`, `C71_config_fails`, `C71_negative_fails`, `C72_dynamic_fails`, `C72_checker_args_fails`, `C72_checker_name_fails`, `C72_flags_string_fails`, `C72_gen_source_fails`, `C72_cached_fails`, `C73_sources_fails`, `C73_interactor_limit_fails`, `C73_signature_dot_fails`, `C73_signature_header_fails`, `C74_crash_fails`, `C74_broken_fails`, `C74_connect_fails`, `C74_null_fails`, `C74_blank_fails`, `C75_arg5_fails`, `C75_refused_arm64_fails`, `C75_replaced_arm64_fails`, `C76_identity_fails`, `C76_docker_roots_fails`, `C76_testsuite_fails`, `C77_listing_fails`, `C77_nameless_fails`, `C77_clear_fails`, `C78_negative_fails`, `C79_thread_fails`, `C80_erase_fails`, `C80_colour_fails`, `C81_threads_fails`, `C83_log_fails`, `C83_ping_fails`, `C83_disconnect_fails`, `C83_monitor_fails`, `C83_twice_fails`, `C83_update_fails`, `C84_go_comment_fails`, `C84_go_clause_fails`, `C84_go_name_fails`, `C84_libc_label_fails`, `C84_gcc_dot_fails`, `C84_gcc_names_fails`, `C84_bom_fails`, `C85_crash_log_fails`, `C85_mono_signal_fails`, `C86_assembly_fails`, `C86_silent_fails`, `C87_lost_fails`, `C88_script_fails`, `C88_whole_fails`, `C88_ruby_fails`, `C88_objc_fails`, `C88_output_fails`, `C89_int80_fails`, `C90_quote_fails`, `C90_blank_fails`, `C90_colour_fails`, `C90_interrupt_fails`, `C90_filter_fails`, `C91_quoted_fails`, `C92_ack_fails`, `C92_terminate_fails`, `C92_limits_fails`, `C92_problem_fails`, `C92_id_fails`, `C93_better_fails`, `C94_nan_fails`, `C95_checker_text_fails`, `C95_interactor_text_fails`, `C97_missing_fails`, `C97_arguments_fails`, `C97_directory_fails`, `C97_stack_fails`, `C99_slow_fails`, `C100_window_fails`, `C100_compile_fails`, `C100_lost_fails`, `C100_error_fails`, `C101_dotdot_fails`, `C101_race_fails`, `C102_both_fails`, `C102_folders_fails`, `C103_empty_fails`, `C103_raises_fails`, `C103_pairs_fails`, `C103_format_fails`, `C103_archive_fails`, `C104_errors_fails`, `C104_left_fails`, `C105_window_fails`, `C105_kill_fails`, `C105_thread_fails`, `C105_trap_fails`, `C105_number_fails`, `C106_interactor_compile_fails`, `C106_checker_fails`, `C107_secret_fails`, `C107_lines_fails`, `C107_quiet_fails`, `C107_root_fails`, `C107_start_fails`, `C108_java_fails`, `C108_unnamed_fails`, `C108_nothing_fails`, `C109_submissions_fails`, `C109_answers_fails`, `C109_prefix_fails`, `C109_plus_fails`, `C109_brace_fails`, `C110_missing_fails`, `C110_libc_fails`, `C110_search_fails`, `C111_stderr_fails`, `C112_dot_fails`, `C112_home_fails`, `C112_bracket_fails`, `C112_double_fails`, `C112_crash_fails`, `C113_survivor_fails`, `C113_privileged_fails`, `C113_escape_fails`, `C113_early_fails`, `C113_late_fails`, `C113_stale_fails`, `C114_hang_fails`, `C114_window_fails`, `C115_cpu_fails`, `C115_negative_fails`, `C116_points_fails`, `C117_reuse_fails`, `C117_grows_fails`, `C117_killed_fails`, `C118_compiling_fails`, `C118_early_fails`, `C119_stray_fails`, `C119_killed_fails`, `C119_first_fails`, `C120_early_fails`, `C120_second_fails`, `C120_overlooked_fails`, `C120_wall_fails`, `C121_stuck_fails`, `C121_two_fails`, `C122_stuck_fails`, `C122_hang_fails`, `C123_title_fails`.

## Observations that are not theorems

Found while reading, outside the present model, or about assumptions listed above:

* `clone` flags are not restricted by the policy; a cloned child that is not reported as a fork or vfork is not inserted into `children` and so not killed at the end (ptproc.cpp).
* `debugger.pid` is always the main process: for a forked child, relative paths are resolved against the directory and descriptors of the main process (isolate.py:281, 258-276).
* The check of a path and its use by the kernel are separate steps: another thread may change the string in between (time of check, time of use); paths are normalised lexically, so `..` after a symbolic link means another place to the kernel.
* With seccomp the checking starts when `execve` is entered, before it succeeds.
* `wait4` returning an error leaves `status` as it was and the loop handles the old status again (ptproc.cpp:120-127).
* On a multi-threaded `execve` the thread id changes; the tracer does not follow it.
* `fcntl` is allowed without looking at its command (`F_SETOWN` can direct signals at other processes of the same user).
* An end of stream inside the 4-byte header is an exception in the network thread that ends the process with `os._exit(1)`, not a reconnect.
* If constructing a `JudgeWorker` raises, the grading lock stays held and no further submission is ever graded (judge.py `begin_grading`).
* `pt_process::monitor` ignores the result of `wait4`; after a failure it goes on with the old `status` and the process -1. This is harmless except directly after a `fork`: an unassigned variable is then taken as the number of a child to be killed at the end, as it also is, without any failing wait, if the program is killed between the report of its `fork` and the question for its child. A failing first wait is reported as an end, or never noticed (C119).
* Without the module `watchdog`, importing dmoj/monitor.py raises `NameError` (`FileSystemEventHandler` at line 51), although lines 13-15 mean to go on with a warning; not in the model, which takes `watchdog` as installed.
* The watchdog reads `exec_time` and `start_time` while `pt_process::monitor` writes them, without a lock or atomic access: in a carry it may see a second too much and kill a program within its limit (C120).
* The server for the API has one thread and no time limit: a client that connects and says nothing keeps every other from being served, and a stopping judge from ending (C122).
* The handler of `SIGUSR2` calls `Event.set`, which is not safe in a handler: if the main thread is within `set` itself (of an earlier signal, or of `murder`), it waits for its own lock for ever (C121).
* An abort waits 5 s for the worker and then kills it, after which the site is told of an internal error; compilers, checkers and generators are never interrupted, and a program about to be started still is (C118).
* `test_cases: []` is treated as if no test cases were configured; `pretest_test_cases++` is not recognised as a pretest configuration.
* A temporary directory configured with a trailing slash or `..` makes every symlink of `C44` refused.
* `/etc/passwd` is readable by Racket programs (RKT.py:9); the crash-log pattern of Java (java_executor.py:87), `_code` of script executors and `_agent_file` are used as patterns without escaping.
* Registers of a 32-bit program on a 64-bit machine are `uint32_t`: negative arguments are seen as large numbers (examples beside C75).
* `arg0` of the ARM build writes `ARM_ORIG_r0`, which the kernel does not look at again; no Python code uses the setter.
* monitor.py: `urlopen(url, data='')` raises a `TypeError` that is logged and swallowed, so the pings are never sent; without watchdog the class statement `SendProblemsHandler(FileSystemEventHandler)` is a `NameError`.
* java_executor.py `unravel_java` compares bytes with the string `'#!'`, so its loop never runs.
* bridged.py: if the interactor cannot be launched the pipes of the session stay open.
* `strip_ansi` goes over the text once: removing a sequence may join the parts of another.
* `load_modules`: names given to contrib modules and executor aliases are matched without an end anchor.
* gcc_executor.py: the cache key joins its parts without separators; `aux_sources` of the caller is changed; headers are passed to the compiler like sources.
* packet.py: `_send_packet` decodes bytes only at the top level of a packet.
* Versions: `PYPY` and `TCL` parse the output of their programs without checks (IndexError, ValueError); `BF` reports a constant; in base_executor.py `assert version is not None` follows `version or ()` and so always holds.
* graders/standard.py: an exception of `safe_communicate` other than the output limit (C43) leaves the program running; judge and program may then wait for each other until the time limit (C111).
* asm_executor.py: languages need the start files of the C library even for programs without it, and a configured emulator is not looked for (C110). The flags of GNUstep are not modelled.
* script_executor.py, COFFEE.py, TUR.py, java_executor.py: names of files are used as patterns without escaping; RUBY2.py stops at an empty component (C112).
* isolate.py: `clone` is allowed with all flags, so programs in languages without a limit on processes can make processes that are not traced (C113); ptproc.cpp does not list children made with another signal than SIGCHLD, and a list entry may be stale (C113).
* cptbox/tracer.py: `kill` does nothing once the program itself has been waited for and the watchdog ends with it, so an untraced process that keeps the output open keeps the judge waiting (C114).
* config.py: going through the entries of a node gives a dynamic key its old value and its code as an entry (C29_items_fails); the elements of a sum of two lists no longer see the settings around them (C29_add_fails).
* helper.cpp: `cpu_time + 1` may wrap to zero, the kernel then refuses the limit and the result is not looked at; a negative time limit of -5 seconds or less is taken for none (C115).
* problem.py: `points` of a case is kept when the case is pickled and may be a `ConfigNode`, which cannot be (C116).
* compiled_executor.py: the cache of compiled helpers is a variable of the worker and ends with it; its directories stay on disk for ever (C117).
* `print_protection_fault` looks up `errno.errorcode` without a default.
* Compilers run with the whole environment of the judge and outside the sandbox of submissions.
