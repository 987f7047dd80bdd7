{"id": "C01", "title": "Standard checker compares token lines", "statement": "The standard checker accepts a pair (judge output, process output) exactly when both split into the same list of non-blank lines, each line being the same list of whitespace-separated tokens. Consequently acceptance is reflexive, symmetric and transitive, and is unchanged by leading/trailing whitespace, by repeating blanks and by blank lines; '\\r' counts as a line break. It never reads outside the two buffers.", "quantifier": "all pairs of byte strings of any length", "why_tests_cant": "the two-cursor C loop has unboundedly many whitespace/token alignments; tests only sample a dozen strings", "anchors": ["dmoj/checkers/_checker.c: isline, iswhite, skip_spaces, check_standard", "dmoj/checkers/standard.py: check"]}
{"id": "C02", "title": "Sorted/unordered checker is multiset equality", "statement": "The sorted checker accepts exactly when the two outputs contain the same multiset of items, an item being (lines mode) the token list of a non-empty line or (whitespace mode, also `unordered`) a whitespace separated token; it raises an internal error exactly for an unknown split mode.", "quantifier": "all pairs of byte strings, all split modes", "why_tests_cant": "permutations and duplicate counts are unbounded; sorting followed by a pairwise loop could lose multiplicities only on unsampled inputs", "anchors": ["dmoj/checkers/sorted.py: check", "dmoj/checkers/unordered.py: check"]}
{"id": "C03", "title": "Easy checker ignores order, case and whitespace only", "statement": "The easy checker accepts exactly when the non-whitespace bytes of both outputs, ASCII-lowercased, are permutations of each other.", "quantifier": "all pairs of byte strings", "why_tests_cant": "quantifies over all permutations and byte values", "anchors": ["dmoj/checkers/easy.py: check"]}
{"id": "C04", "title": "Rstripped checker", "statement": "The rstripped checker accepts exactly when both outputs have the same number of lines and corresponding lines are equal after removing trailing whitespace; with filter_new_line empty lines are discounted first. Acceptance is an equivalence relation.", "quantifier": "all pairs of byte strings, both option values", "why_tests_cant": "unbounded line structure", "anchors": ["dmoj/checkers/rstripped.py: check"]}
{"id": "C05", "title": "Identical checker and presentation error", "statement": "The identical checker passes exactly on byte equality; otherwise it awards 0 points and reports presentation error exactly when presentation errors are allowed and the standard checker would accept.", "quantifier": "all pairs of byte strings, both option values", "why_tests_cant": "relates two checkers over all inputs", "anchors": ["dmoj/checkers/identical.py: check"]}
{"id": "C06", "title": "Linecount partial credit", "statement": "The linecount checker fails outright when there are more non-empty process lines than judge lines; passes with full credit when the judge has no lines and the process has none; otherwise it awards value*matches/total, where matches counts positions whose stripped lines agree, passes exactly when every judge line is matched, never awards more than the value of the case nor a negative amount, and its feedback has one mark per judge line.", "quantifier": "all pairs of byte strings, all non-negative point values", "why_tests_cant": "unbounded positions and counts", "anchors": ["dmoj/checkers/linecount.py: check"]}
{"id": "C07", "title": "Float checker tolerance and NaN", "statement": "The float checkers accept exactly when non-empty lines match in number, tokens per line match in number, every non-numeric judge token is matched byte for byte and every numeric one is matched by a numeric token within the selected tolerance; NaN in the process output against a numeric judge token is never accepted; malformed numbers, division errors etc. yield rejection, never an error escaping to the judge (for well-formed parameters).", "quantifier": "all byte strings, all precisions and error modes, all (real-valued) numbers plus NaN and infinities", "why_tests_cant": "continuum of values and boundary conditions", "anchors": ["dmoj/checkers/floats.py: verify_absolute, verify_relative, verify_default, check"]}
{"id": "C08", "title": "Verdict codes", "statement": "The main code of a result is the highest-priority code (order IE,TLE,MLE,OLE,RTE,IR,WA,SC) present among its flags and AC exactly if none is present; the readable code list is exactly the list of codes present, in that order without duplicates, headed by the main code, and is never empty.", "quantifier": "all flag values (every integer)", "why_tests_cant": "2^31 flag combinations and flags outside the table", "anchors": ["dmoj/result.py: Result.get_main_code, readable_codes"]}
{"id": "C09", "title": "Verdict and points of a graded case are consistent", "statement": "For every process outcome and every checker answer: a graded case is AC exactly when the process triggered no error condition and the checker passed; a checker that does not opt into run_on_error is never consulted and 0 points are awarded when the process had an error; the points reported equal the checker's points, or the full value/0 for a boolean answer; the feedback shown is the checker's, or if that is empty what is said about the process.", "quantifier": "all process outcomes, checker behaviours (including exceptions), point values", "why_tests_cant": "the product of process states and checker answers is unbounded", "anchors": ["dmoj/graders/standard.py: grade, check_result", "dmoj/executors/base_executor.py: populate_result", "dmoj/result.py: CheckerResult"]}
{"id": "C10", "title": "Checker/interactor protocol points stay in range", "statement": "Interpreting a helper program's exit code: a pass never awards negative or more than the value of the case, a fail awards 0, unrecognised exit codes always surface as internal errors. Expected for every protocol (default, testlib, coci, peg).", "quantifier": "all exit codes, outputs and point values", "why_tests_cant": "unbounded stderr/stdout text and exit codes", "anchors": ["dmoj/contrib/default.py", "dmoj/contrib/testlib.py", "dmoj/contrib/coci.py", "dmoj/contrib/peg.py", "dmoj/utils/helper_files.py: parse_helper_file_error"]}
{"id": "C11", "title": "Grading event stream is well formed", "statement": "For every problem and grader behaviour the worker's events of an unaborted grading are: begin, then the cases in configuration order numbered 1..n each exactly once, the cases of each non-empty batch enclosed by matching batch-begin/batch-end with the right batch number and nothing else enclosed, then end. An aborted grading yields a prefix of such a stream followed by the abort event.", "quantifier": "all test-case configurations, grader results, abort instants", "why_tests_cant": "unbounded number of cases/batches and arbitrary result histories", "anchors": ["dmoj/judge.py: JudgeWorker._grade_cases"]}
{"id": "C12", "title": "Short-circuit semantics", "statement": "A case is skipped (SC) exactly when an earlier case that was really graded received WA and that earlier case is in the same batch, or was worth zero points, or short-circuiting was requested for the submission; skipped cases are never executed, earn 0 points and carry only the SC flag.", "quantifier": "all configurations, grader results and short-circuit flags", "why_tests_cant": "stateful flag logic over arbitrary histories", "anchors": ["dmoj/judge.py: JudgeWorker._grade_cases"]}
{"id": "C13", "title": "Abort semantics", "statement": "After an abort is seen by the worker following a really graded case, that case's result is not reported, no further case is run, and the stream ends with the abort event. Desired: any abort that arrives before the end of grading ends with the abort event (fails when the remaining cases are short-circuited or there are none).", "quantifier": "all configurations, results and abort instants", "why_tests_cant": "abort can arrive at any point of any history", "anchors": ["dmoj/judge.py: JudgeWorker._grade_cases, _do_abort"]}
{"id": "C14", "title": "Test case positions and batch numbers", "statement": "Resolved cases get positions 0,1,2,... in configuration order with no gap or repetition across batches; cases inside the k-th batch carry batch number k, unbatched ones 0; nested batches are rejected; nothing is dropped.", "quantifier": "all nested case configurations", "why_tests_cant": "unbounded configuration trees with shared counters", "anchors": ["dmoj/graders/base.py: BaseGrader._resolve_testcases, cases", "dmoj/problem.py: BatchedTestCase"]}
{"id": "C15", "title": "Pretest selection", "statement": "A submission is graded on pretest cases exactly when only pretests are requested and the problem has them.", "quantifier": "all configurations and metadata values", "why_tests_cant": "truthiness of configuration values and inheritance", "anchors": ["dmoj/graders/base.py: BaseGrader.__init__, cases"]}
{"id": "C16", "title": "Result queue loses, duplicates and reorders nothing", "statement": "Whatever the interleaving of result enqueueing, periodic flushes and flushes forced by other packets, the concatenation of cases in transmitted status packets followed by the pending queue equals the sequence of enqueued results.", "quantifier": "all interleavings of the grading thread and flusher thread", "why_tests_cant": "race conditions depend on schedules", "anchors": ["dmoj/packet.py: _flush_testcase_queue, _periodically_flush_testcase_queue, test_case_status_packet"]}
{"id": "C17", "title": "Results precede the packets that close them", "statement": "On the wire, every result enqueued before a batch-begin, batch-end, grading-end, submission-terminated or internal-error packet is transmitted before that packet.", "quantifier": "all schedules and grading histories", "why_tests_cant": "ordering across threads", "anchors": ["dmoj/packet.py: batch_begin_packet, batch_end_packet, grading_end_packet, submission_aborted_packet, internal_error_packet"]}
{"id": "C18", "title": "Packets carry the id of their own submission", "statement": "Every result, compile, batch and terminal packet on the wire carries the id of the submission that produced it, whatever the interleaving of flusher thread, network thread and grading threads of consecutive submissions.", "quantifier": "all schedules and sequences of submissions", "why_tests_cant": "races between teardown of one submission and start of the next", "anchors": ["dmoj/packet.py: _flush_testcase_queue", "dmoj/judge.py: current_submission, begin_grading, _grading_thread_main"]}
{"id": "C19", "title": "One submission at a time; grading slot always freed", "statement": "At any time at most one worker exists and the grading lock is held exactly while a submission is being set up or graded; each finished grading thread clears the worker, wakes the starter and releases the lock exactly once, however the worker behaves (crash, timeout, garbage message).", "quantifier": "all worker behaviours and interleavings", "why_tests_cant": "depends on crash points and schedules", "anchors": ["dmoj/judge.py: begin_grading, _grading_thread_main"]}
{"id": "C20", "title": "Every accepted submission gets a terminal packet", "statement": "For every worker behaviour, a submission's packet sequence ends with at least one of compile-error, grading-end, submission-terminated, internal-error. Desired: exactly one.", "quantifier": "all worker message sequences and crash points", "why_tests_cant": "crash points between messages", "anchors": ["dmoj/judge.py: _grading_thread_main, JudgeWorker.communicate, log_internal_error, _worker_process_main"]}
{"id": "C21", "title": "No lost problem-list update", "statement": "If an update is requested, then unless the updater is told to exit a push of the problem list that starts after the request is eventually attempted; coalescing never drops the last request.", "quantifier": "all interleavings of requests with the updater loop", "why_tests_cant": "lost wake-ups are schedule dependent", "anchors": ["dmoj/judge.py: _updater_thread, update_problems", "dmoj/monitor.py: RefreshWorker", "dmoj/control.py"]}
{"id": "C22", "title": "Reconnect backoff is bounded", "statement": "Consecutive failed reconnects sleep 4*1.5^k seconds, strictly increasing, and the judge exits cleanly instead of sleeping more than a day: at most 25 sleeps without an intervening graded submission; a finished grading resets it.", "quantifier": "all sequences of connection failures and gradings", "why_tests_cant": "long failure histories take days of wall time", "anchors": ["dmoj/packet.py: _reconnect, _do_reconnect, compile_error_packet, grading_end_packet"]}
{"id": "C23", "title": "Packet framing round trip", "statement": "Any sequence of packets sent is decoded by the peer reader to exactly that sequence, regardless of sizes, as long as each compressed packet is shorter than 2^32 bytes; concurrent senders never interleave the bytes of two packets.", "quantifier": "all packet sequences and sender interleavings", "why_tests_cant": "unbounded payloads and schedules", "anchors": ["dmoj/packet.py: _send_packet, _read_single"]}
{"id": "C24", "title": "Server message handling", "statement": "Every submission request is acknowledged before grading starts, unknown packets are ignored, a terminate request affects only the running submission, a ping is answered with the same timestamp, nothing is done after the judge was told to end; desired: a current-submission query never kills the judge (fails when idle).", "quantifier": "all packet sequences", "why_tests_cant": "histories of messages interleaved with grading state", "anchors": ["dmoj/packet.py: _receive_packet, current_submission_packet, ping_packet", "dmoj/judge.py: abort_grading"]}
{"id": "C25", "title": "Newline normalisation of test data", "statement": "Normalised text data contains no '\\r', ends in '\\n' when non-empty, keeps every other byte in order, is idempotent, and maps the three newline conventions to the same result; binary and empty data are unchanged.", "quantifier": "all byte strings", "why_tests_cant": "replacement order over arbitrary \\r/\\n mixes", "anchors": ["dmoj/problem.py: TestCase._normalize"]}
{"id": "C26", "title": "Test case discovery by file name", "statement": "Grouping files into cases: each (batch, case) pair contributes one case pairing its input with its output file, batches and cases are ordered, no file matching the pattern is lost or assigned to another batch. Desired for all ids; fails for batch 0 and for a plain case id equal to a batch id.", "quantifier": "all file lists and pattern parse results", "why_tests_cant": "unbounded id combinations", "anchors": ["dmoj/problem.py: Problem._match_test_cases"]}
{"id": "C27", "title": "Input/output data selection and generator use", "statement": "Within one grading of a case the generator is run at most once, explicit input and output files are used without running the generator when both are given, the expected output is the explicit file whenever one is configured, without a generator a file that is not configured counts as empty, and data is dropped after grading.", "quantifier": "all configurations, generator outputs and access sequences", "why_tests_cant": "stateful caching over access orders", "anchors": ["dmoj/problem.py: TestCase.input_data, output_data, free_data, _run_generator"]}
{"id": "C28", "title": "Problem data lookup order", "statement": "Problem files are looked up in memory, then in the problem directory, then in the archive; an error is raised exactly when none has it.", "quantifier": "all directory/archive contents", "why_tests_cant": "quantifies over all contents", "anchors": ["dmoj/problem.py: ProblemDataManager.__missing__"]}
{"id": "C29", "title": "Configuration inheritance", "statement": "Looking up a key in a nested node yields its own value if present, else the nearest non-empty enclosing node's value, else nothing; explicit values override defaults. Desired: get(key, default) returns an explicitly configured value (fails for falsy values, e.g. `cached: false`).", "quantifier": "all configuration trees and keys", "why_tests_cant": "arbitrarily nested trees", "anchors": ["dmoj/config.py: ConfigNode.__getitem__, get, __getattr__"]}
{"id": "C30", "title": "Dynamic configuration keys evaluate once", "statement": "A dynamic key (`k+`, `k++`) is evaluated at most once per node, on first access; later lookups of the key return the stored value and never run code again.", "quantifier": "all access sequences", "why_tests_cant": "history dependent side effects", "anchors": ["dmoj/config.py: ConfigNode.__getitem__, __iter__"]}
{"id": "C31", "title": "Problem directory resolution", "statement": "Problem root lookup returns the first configured root that contains the problem's init file, or a cached root that still contains it; an unknown problem raises an error. Desired: a returned root always contains the init file (fails for a cached problem that disappeared).", "quantifier": "all filesystem contents and call histories", "why_tests_cant": "cache staleness depends on history", "anchors": ["dmoj/judgeenv.py: get_problem_root"]}
{"id": "C32", "title": "Sandbox path canonicalisation", "statement": "The path the sandbox checks is absolute, has no empty, '.' or '..' component, has exactly one leading slash, depends for absolute paths only on the path and for relative ones on the base directory joined with the path; canonicalisation is idempotent and equals lexical resolution.", "quantifier": "all path strings and base directories", "why_tests_cant": "unbounded component sequences", "anchors": ["dmoj/cptbox/isolate.py: get_full_path"]}
{"id": "C33", "title": "Write access is recognised for every flag combination", "statement": "An open request is treated as a write whenever its flags request writing, creation, truncation, exclusive creation or an unnamed temporary file; read-only opens without those flags are treated as reads.", "quantifier": "all 2^32 (indeed all integer) flag words", "why_tests_cant": "bit-level quantification", "anchors": ["dmoj/cptbox/isolate.py: is_write_flags"]}
{"id": "C34", "title": "No file syscall outside the allowed tree", "statement": "A path-taking syscall is let through exactly if its path pointer is non-null, the path is at most 4096 bytes and valid text, and its canonical path matches the read (or, for writes, write) filter; otherwise it is not executed and the program observes the prescribed error.", "quantifier": "all paths, filters, memory contents, flags", "why_tests_cant": "all argument combinations", "anchors": ["dmoj/cptbox/isolate.py: check_file_access, check_file_access_at, _file_access_check", "dmoj/cptbox/tracer.py: readstr"]}
{"id": "C35", "title": "Process-affecting syscalls are confined to the process itself", "statement": "kill/tgkill is executed only for the process itself, prlimit only on itself and only for reading or allowed, prctl only for whitelisted options; otherwise refused or the program is killed.", "quantifier": "all argument register values", "why_tests_cant": "full 64-bit argument space", "anchors": ["dmoj/cptbox/isolate.py: do_kill, do_tgkill, do_prlimit, do_prctl"]}
{"id": "C36", "title": "Default-deny syscall policy and seccomp consistency", "statement": "A syscall number for which the policy lists nothing is denied, on every ABI; the in-kernel allow list contains only numbers whose handler is unconditional allow, never exit/exit_group.", "quantifier": "all policies, ABIs and syscall numbers", "why_tests_cant": "full table for arbitrary policies", "anchors": ["dmoj/cptbox/tracer.py: TracedPopen.__init__ handler table, _get_seccomp_whitelist", "dmoj/cptbox/helper.cpp"]}
{"id": "C37", "title": "No denied syscall executes", "statement": "For every sequence of tracer stops: after the initial exec, a syscall whose handler does not allow it is never resumed: the whole process group is killed and a protection fault naming that syscall is recorded; an allowed one resumes unchanged; a callback deciding false kills.", "quantifier": "all syscall traces and policies", "why_tests_cant": "unbounded traces, threads", "anchors": ["dmoj/cptbox/ptproc.cpp: pt_process::monitor, protection_fault"]}
{"id": "C38", "title": "Strings read from the child are exact or rejected", "statement": "Reading a path from the child either returns exactly the bytes up to the first NUL (at most 4096 of them), or reports it as too long/unreadable; a truncated string is never used.", "quantifier": "all memory contents, addresses, page layouts", "why_tests_cant": "page boundary/alignments", "anchors": ["dmoj/cptbox/ptdebug.cpp: readstr, readstr_peekdata", "dmoj/cptbox/tracer.py: readstr"]}
{"id": "C39", "title": "String reads stay inside their buffer", "statement": "Neither string reading routine writes outside the buffer it allocated. Desired for all page sizes and both routines; fails for the word-by-word routine and for pages larger than the limit.", "quantifier": "all addresses, page sizes, limits and memory contents", "why_tests_cant": "memory errors on unsampled lengths are silent", "anchors": ["dmoj/cptbox/ptdebug.cpp: readstr, readstr_peekdata"]}
{"id": "C40", "title": "Directory descriptor decoding", "statement": "The directory descriptor argument is decoded as the kernel does: the low 32 bits as a signed integer, for every register value.", "quantifier": "all 64-bit register values", "why_tests_cant": "2^64 values", "anchors": ["dmoj/cptbox/isolate.py: get_full_path/_file_access_check_at dirfd"]}
{"id": "C41", "title": "Time accounting arithmetic", "statement": "Adding and subtracting time stamps keeps nanoseconds in [0,1e9) and is exact; accumulated running time equals the sum of the intervals between resume and stop.", "quantifier": "all normalised time stamps, all interval sequences", "why_tests_cant": "carry/borrow boundaries", "anchors": ["dmoj/cptbox/ptbox.h: timespec_add, timespec_sub", "dmoj/cptbox/ptproc.cpp: exec_time, wall_clock_time"]}
{"id": "C42", "title": "Resource verdicts", "statement": "A finished process is flagged time-limit-exceeded when it was killed for time or its execution time exceeds the limit, memory-limit-exceeded exactly when its peak exceeds a positive limit, runtime error on abnormal signals, invalid return exactly on nonzero exit; a clean exit within limits has no flag.", "quantifier": "all exit statuses, signals, times and memory figures", "why_tests_cant": "unbounded numeric space and combination", "anchors": ["dmoj/cptbox/tracer.py: TracedPopen.wait, is_ir, is_mle, is_ole, is_rte, is_tle", "dmoj/executors/base_executor.py: populate_result"]}
{"id": "C43", "title": "Bounded communication", "statement": "Feeding a process its input and collecting its output: bytes written are always a prefix of the input, collected output is exactly the bytes read in order, never more than the limit plus one chunk is buffered, exceeding the limit raises the output-limit error and marks the process, and at most the limits are returned. Desired: exceeding any limit raises that error (fails for stderr after stdout closed).", "quantifier": "all event sequences from poll, chunk sizes, limits", "why_tests_cant": "event order and chunking are schedule dependent", "anchors": ["dmoj/utils/communicate.py: safe_communicate"]}
{"id": "C44", "title": "Symlinks stay inside the submission directory", "statement": "A symlink configured for a test case is only created inside the submission's directory, everything else is refused. Fails: a sibling directory sharing the name prefix is accepted.", "quantifier": "all directory names and link names", "why_tests_cant": "string-prefix vs path-prefix differs only on special names", "anchors": ["dmoj/executors/mixins.py: launch"]}
{"id": "C45", "title": "Compiled-binary cache identity", "statement": "Two compilations share a cache entry only if they would produce the same program: same executor, problem name, sources and options. Fails: fields are concatenated without separators, so distinct requests collide; under unambiguous separation the key is injective.", "quantifier": "all pairs of compile requests", "why_tests_cant": "collisions are crafted inputs", "anchors": ["dmoj/executors/compiled_executor.py: _CompiledExecutorMeta.__call__, get_binary_cache_key", "dmoj/executors/gcc_executor.py: get_binary_cache_key"]}
{"id": "C46", "title": "Compiled-binary cache lifetime", "statement": "The cache never holds more than its capacity; a cache hit returns the executable stored by the compilation with that key; a cached directory is not deleted while its entry is in the cache. Desired: an executor obtained from the cache stays runnable while it is held (fails after eviction).", "quantifier": "all sequences of compile/evict/release operations", "why_tests_cant": "history dependent", "anchors": ["dmoj/executors/compiled_executor.py: _CompiledExecutorMeta, cleanup"]}
{"id": "C47", "title": "Brainf*** translation", "statement": "A program is rejected exactly when its brackets do not match; for an accepted program the generated C body has matching braces, ignores comment bytes, and translation is compositional.", "quantifier": "all source byte strings", "why_tests_cant": "unbounded nesting", "anchors": ["dmoj/executors/BF.py: _has_invalid_brackets, trans"]}
{"id": "C48", "title": "Interactor tokenisation and integer range", "statement": "An interactive judge reading tokens gets exactly the whitespace-separated tokens of the stream regardless of how reads and token/line calls interleave; an integer read is returned only if it is a valid integer of at most the permitted digits inside the requested inclusive range, otherwise wrong answer.", "quantifier": "all streams, call sequences and ranges", "why_tests_cant": "buffering across arbitrary call sequences", "anchors": ["dmoj/graders/interactive.py: Interactor"]}
{"id": "C49", "title": "Local submission lookup", "statement": "A submission id typed by the user resolves to exactly the submission listed with that id and out-of-range ids (including zero and negatives) are refused.", "quantifier": "all ids and histories", "why_tests_cant": "negative-index wrap-around", "anchors": ["dmoj/commands/base_command.py: get_submission_data", "dmoj/commands/resubmit.py", "dmoj/commands/submissions.py"]}
{"id": "C50", "title": "Child file descriptors closed", "statement": "Before running the submission every open descriptor numbered 3 or above is closed except none; the name parser recognises exactly decimal names.", "quantifier": "all open descriptor sets, directory entry names", "why_tests_cant": "arbitrary descriptor tables", "anchors": ["dmoj/cptbox/helper.cpp: pos_int_from_ascii, cptbox_closefrom_getdents, cptbox_closefrom_brute"]}
{"id": "C51", "title": "Syscall translation table", "statement": "Every syscall name gets one id; aliases share their target's id; for every ABI the table maps each number to the id of its name, and policy keyed by id reaches every ABI's number for that name.", "quantifier": "all tables and alias lists", "why_tests_cant": "table-driven over all entries", "anchors": ["dmoj/cptbox/syscalls.py: create, alloc_id"]}
{"id": "C52", "title": "Helper program failures are reported as internal errors", "statement": "When a helper program (checker, generator, interactor) misbehaves, the error raised names the most specific cause in the order time limit, memory limit, protection fault, nonzero exit; no misbehaviour is silently ignored.", "quantifier": "all process outcomes", "why_tests_cant": "combination of outcomes", "anchors": ["dmoj/utils/helper_files.py: parse_helper_file_error"]}
{"id": "C53", "title": "Bridged interactive grading verdict", "statement": "In bridged interactive grading the interactor's verdict counts only if the submission itself triggered no error, interactor failures surface as internal errors.", "quantifier": "all outcomes of both processes", "why_tests_cant": "product of two process outcomes", "anchors": ["dmoj/graders/bridged.py: check_result", "dmoj/graders/interactive.py: check_result"]}
{"id": "C54", "title": "Regression-suite expectations", "statement": "A test-suite expectation for a case is met exactly when the produced codes/feedback/score are among the permitted ones, and a suite run fails exactly when some expectation is unmet; where nothing is said every case is expected to be correct, with any points and feedback.", "quantifier": "all expectation documents and results", "why_tests_cant": "unbounded expectation documents", "anchors": ["dmoj/testsuite.py"]}
{"id": "C55", "title": "Long integer parsing guard", "statement": "With the guard installed, converting text longer than the digit limit to an integer raises ValueError and every other conversion behaves as before.", "quantifier": "all inputs", "why_tests_cant": "unbounded lengths", "anchors": ["dmoj/utils/builtin_int_patch.py"]}
{"id": "C56", "title": "The tracer judges the call the kernel will run", "statement": "Whenever the kernel runs a system call for a traced program, the ABI and number the tracer looked up in its policy are those of that call, for every register value and entry instruction; replacing or skipping a call has the intended effect in every ABI. Fails: int 0x80 from 64-bit code is judged as a 64-bit call.", "quantifier": "all register values, entry instructions and kernel table sizes", "why_tests_cant": "2^64 register values; needs crafted machine code", "anchors": ["dmoj/cptbox/ptdebug_x64.cpp: abi_from_reg_size, syscall", "dmoj/cptbox/ptdebug.cpp: pre_syscall"]}
{"id": "C57", "title": "A refused call is not executed and reports its error", "statement": "When the policy refuses a call with an error code, the call is not executed and the program sees exactly that error; if the registers cannot be updated the program is killed. Fails without seccomp when two threads have refused calls in flight.", "quantifier": "all stop sequences and interleavings of threads", "why_tests_cant": "thread interleavings", "anchors": ["dmoj/cptbox/handlers.py: errno_handler", "dmoj/cptbox/_cptbox.pyx: Debugger.syscall, on_return", "dmoj/cptbox/ptproc.cpp: monitor"]}
{"id": "C58", "title": "Nothing outlives the program", "statement": "Supervision ends exactly when the main process is gone, every forked process still alive is killed then, and signals are passed on to the program except the initial stop.", "quantifier": "all stop sequences", "why_tests_cant": "process trees of unbounded size", "anchors": ["dmoj/cptbox/ptproc.cpp: pt_process::monitor"]}
{"id": "C59", "title": "The child's standard streams", "statement": "The submission starts with exactly the three standard streams it was given and no other descriptor. Fails when a requested stream sits on a standard descriptor overwritten before it is used.", "quantifier": "all descriptor tables and requests", "why_tests_cant": "arbitrary descriptor tables", "anchors": ["dmoj/cptbox/helper.cpp: cptbox_child_run"]}
{"id": "C60", "title": "Resource limits", "statement": "Address space, data, CPU, process-count, file-size and core limits are imposed exactly when asked for, with the requested amounts plus the documented grace.", "quantifier": "all configurations", "why_tests_cant": "arithmetic over all values", "anchors": ["dmoj/cptbox/tracer.py: TracedPopen.__init__", "dmoj/cptbox/helper.cpp: cptbox_child_run"]}
{"id": "C61", "title": "Submission directories are removed", "statement": "A directory the judge made for a submission that still exists belongs to an executor which is in use or in the compiled-binary cache; an uncached executor's directory is removed when it is let go of, and no other directory is touched. Fails: the directory of a cached compilation that fails, and that of a cached executor whose executable was lost and which is compiled again, stay forever.", "quantifier": "all sequences of compile, failure, eviction and release", "why_tests_cant": "history dependent; leaks only show over long runs", "anchors": ["dmoj/executors/compiled_executor.py: _CompiledExecutorMeta, cleanup", "dmoj/executors/base_executor.py: BaseExecutor.cleanup"]}
{"id": "C62", "title": "The kernel executes only what the policy lets through", "statement": "On x86-64 with seccomp filtering, after the program was started, every system call the kernel executes for it - through the in-kernel filter, or by the tracer restarting the thread, in whichever ABI - has a name in the table of that ABI, an entry in the policy and is let through by that entry; a file is opened only if the string at the address the kernel uses leads to a place permitted for what the flags ask; no executor's program gets a call executed that reaches beyond it or changes the directory tree.", "quantifier": "for all register contents, memory contents, kernel entries, tracer states, executors, translations by the filter library that preserve names", "why_tests_cant": "needs the composition of policy, alias and number tables, filter, ABI detection and handlers over all 64-bit register values; tests run a few programs", "anchors": ["dmoj/cptbox/tracer.py:132-183", "dmoj/cptbox/helper.cpp:76-107", "dmoj/cptbox/ptproc.cpp:196-277", "dmoj/cptbox/ptdebug_x64.cpp:27-75", "dmoj/cptbox/isolate.py:40-300", "dmoj/cptbox/_cptbox.pyx:219-330"]}
{"id": "C63", "title": "What the policies of the executors mean", "statement": "The policy of an executor is the base policy with its additions, where the last entry about a call under any of its names counts and silence means denial; all names used exist; under no executor is a call possible that reaches beyond the program (other processes, network, devices, users, namespaces) or changes the directory tree; every call with a path argument that is not denied has exactly that argument checked; programs are started by the shell executor only, and only listed ones; only the shell executor may fork, .NET programs being told to try again, and procctl acts on the process itself only. Desired: no other program makes processes (fails: clone, which threads need, is allowed to all).", "quantifier": "for all executors, all sets of shell commands, all calls of all Linux tables, all situations", "why_tests_cant": "a missing check shows only if a test happens to try that call with that executor; the claims range over all situations a handler can meet", "anchors": ["dmoj/executors/mixins.py:63-74", "dmoj/executors/shell_executor.py:24-39", "dmoj/executors/java_executor.py:41-57", "dmoj/executors/mono_executor.py:38-46", "dmoj/cptbox/isolate.py:40-148", "dmoj/cptbox/tracer.py:134-152"]}
{"id": "C64", "title": "Which places a program may read and write", "statement": "The patterns handed to the sandbox compile, for every process id and submission directory without braces, to one pattern that matches a path exactly when one of the parts does; together they admit for reading exactly the listed system places, the files of the own process and what begins with the submission's directory, and for writing exactly /dev/stdout, /dev/stderr and /dev/null; so home directories, other submissions, /etc/passwd and other processes are out of reach. Fails: names that merely begin with the directory's name are included; a brace in the directory or a missing shell command makes every checked call raise; PHP's and Swift's additions admit unrelated files.", "quantifier": "for all paths, process ids, directories and additional patterns", "why_tests_cant": "a pattern that admits too much shows only for the path nobody tried; the claim ranges over all paths", "anchors": ["dmoj/executors/mixins.py:15-45,76-82", "dmoj/cptbox/isolate.py:238-276", "dmoj/executors/PHP.py:10", "dmoj/executors/SWIFT.py:8", "dmoj/executors/shell_executor.py:15-19"]}
{"id": "C65", "title": "The time limit is enforced", "statement": "A program is said to have exceeded its time only if the kernel said so or a limit was exceeded; when it is reported dead, time over the limit has been noticed however it ended; a running program over its limits is killed within one more turn of the watchdog, under every interleaving of the threads involved; if no thread is starved for more than some time, a program is never alive for longer than its wall clock limit and five times that; without a limit nothing is killed; every dead program is reported and no thread is left behind; when the program could not be started no signal is sent. Fails: a program killed for its wall clock time can be reported before the flag is set (runtime error instead of time limit exceeded); the watchdog gives up if the process group is not found; it can signal the process id of a reaped program.", "quantifier": "for all interleavings of the monitor thread, the watchdog, the program and the clock, of any length", "why_tests_cant": "races between three threads that no test controls", "anchors": ["dmoj/cptbox/tracer.py:154-166,231-245,292-352", "dmoj/cptbox/ptproc.cpp:31-43,128-147", "dmoj/cptbox/_cptbox.pyx:493-499,559-563"]}
{"id": "C66", "title": "Running a compiler", "statement": "A compilation succeeds exactly if the compiler ended by itself with code 0 and its output was read to the end within the limit, and the warning is exactly that output; it is reported as timed out only after the limit, as too much output only with more than the limit, and otherwise with all of the output; over its time the compiler's process group is killed within one turn of the watchdog; once nobody holds the terminal the compilation ends. Fails: after too much output nobody stops the compiler; a process that left the group and holds the terminal blocks the judge for ever; a reaped process id can be signalled.", "quantifier": "for all interleavings of the two threads, the compiler's processes and the clock, of any length", "why_tests_cant": "races and hanging compilers; liveness under all schedules", "anchors": ["dmoj/executors/compiled_executor.py:72-112,220-252", "dmoj/utils/communicate.py:56-97"]}
{"id": "C67", "title": "Problem roots and the list of problems", "statement": "The search by depth finds exactly the directories that many levels below a root. Every list the updater sends contains exactly the problems with a readable init.yml in the roots the configuration means at that time, with their present times, and one is sent exactly if everything searched can be listed and the configuration has no illegal depth; at the start roots that are not directories are left out with a warning; between updates the reported problems come from the roots last found; every reported problem can be found when a submission comes in, if its init.yml is a file. Fails: a problem whose init.yml is a directory is reported but raises KeyError; a missing root stops every update, and after the first update also the list at reconnects; a missing root with a depth keeps the judge from starting; a problem in two roots is reported twice; an illegal depth is only warned about at the start, but after the first update no list can be sent and no problem is found any more; if the configuration is a single string, the roots are the directories in it until the first update and then it itself, so other problems are reported.", "quantifier": "for all directory trees, configurations and sequences of updates, connections and changes of the file system", "why_tests_cant": "trees and sequences are unbounded; the failures need a root that disappears", "anchors": ["dmoj/judgeenv.py:170-178,210-309", "dmoj/judge.py:85-104"]}
{"id": "C68", "title": "Interactive sessions", "statement": "After the interactor returned, a submission waiting for input gets end of file, and only its own unread output can hold it; a submission that ended by itself gets exactly the interactor's verdict. With a bridged interactor the judge holds no end of the conversation once it waits, so when either side is gone the other is not left waiting by it; a standstill of both is one of their conversation or a full standard error; when both are gone the judge finishes. Fails: a submission found wrong while it waits for an answer is not told and gets the verdict of the time limit, as does one found right that writes more than a pipe holds; a standard error of more than a pipe stops the submission or the interactor until a time limit.", "quantifier": "for all interleavings of judge, interactor, submission and time limits, of any length, and all pipe capacities", "why_tests_cant": "deadlocks depend on scheduling and on pipe capacities", "anchors": ["dmoj/graders/interactive.py:93-117", "dmoj/graders/bridged.py:38-99"]}
{"id": "C69", "title": "Feedback on a failed case", "statement": "A program stopped for a forbidden call is reported with the name of the call; nothing is said about one that ended normally or was over a limit; otherwise it is reported with the exception its runtime named, as failed to start, or with its signal. For C and C++ the exception is that of the last runtime message at the end of a line; for Python that of the last traceback; for .NET the name the runtime gave last, of any length, always one line without a colon. What such a program can make the judge show is a name of at most 40 (20) characters of the permitted class. Fails: a Java program can show any text without newline and colon, of any length; a crash log left by one case makes each later failing case an internal error.", "quantifier": "for all texts on standard error and all ways a process can end", "why_tests_cant": "the text is chosen by the submission; all texts have to be considered", "anchors": ["dmoj/result.py:72-101", "dmoj/executors/gcc_executor.py:84-92", "dmoj/executors/python_executor.py:49-56", "dmoj/executors/java_executor.py:114-139"]}
{"id": "C70", "title": "The class of a Java program", "statement": "The class name found in a submission is never empty and contains no slash, dot, minus or white space, so it stays in its directory and is no option; it is the first public class declared in what is left after comments and literals are removed, and if there is none the program is rejected; a program that declares a package is always rejected, and only such a program is rejected for it. In a program whose literals and line comments contain no /* and whose line comments contain no quotes, exactly the comments and literals are removed and the first public class is used. Fails: a quote in a line comment or /* in a string hides the class; a comment between two words joins them; a comment on a last line without newline counts as code; names with $ are cut; nested public classes count.", "quantifier": "for all program texts, as sequences of code, comments and literals of any length", "why_tests_cant": "program texts are chosen by users and unbounded", "anchors": ["dmoj/executors/java_executor.py:15-38,214-239"]}
{"id": "C71", "title": "The environment and buffering of a program", "statement": "A program finds in its environment exactly what the judge means to give it: under each name what the executor says, else what the configuration says, else the default, and nothing under other names; nothing of the judge's own environment reaches it but LD_LIBRARY_PATH (and PATH for the shell). Standard output of an unbuffered problem is unbuffered, and otherwise both streams have the buffering that was asked for. Fails: the configuration can undo an unbuffered problem's setting; a negative size is taken as almost 2^64.", "quantifier": "for all environments of the judge, configurations, executors and buffer sizes", "why_tests_cant": "a leak shows only for the variable nobody looked at; all sizes and configurations", "anchors": ["dmoj/executors/mixins.py:90-138", "dmoj/executors/gcc_executor.py:79-82", "dmoj/executors/script_executor.py:46-52", "dmoj/executors/shell_executor.py:41-44", "dmoj/executors/mono_executor.py:48-55", "dmoj/cptbox/tracer.py:115-119", "dmoj/utils/setbufsize.c"]}
{"id": "C72", "title": "Configured graders, checkers and generators", "statement": "The grader is the custom one if the problem has a custom_judge, else that for signatures, else the interactive one, else the standard one. The checker is the configured one of the case or around it, builtin or from a file of the problem, with its parameters, and the standard one if none is configured; what goes wrong is reported as an error of the configuration. A generator is run with the files, flags, language, limits and arguments configured for it, the arguments of the case first, and with the judge's limits where none are configured. Fails: caching of a generator cannot be turned off; a dynamic custom_judge is overlooked; a checker takes args from the problem around it; a checker without a name raises TypeError.", "quantifier": "for all configurations", "why_tests_cant": "configurations are unbounded trees with inheritance", "anchors": ["dmoj/problem.py:156-173,257-324,349-369", "dmoj/config.py:70-120"]}
{"id": "C73", "title": "Helper programs of several files", "statement": "A helper program is made with the configured language, else with the best installed C++ (C) executor. A C or C++ program is compiled from exactly the given files, each with its own content, in the given order, if their names differ; a program in another language has exactly one file. The flags given come before those of the executor, and the compiler has the limit given. In signature grading the compiler is given the submission after its prefix, the header and the entry point. Fails: of two files of the same name in different directories one is silently dropped; an interactor without an own limit is compiled without any; a problem with a dot in its name, or a header named like the submission, breaks signature grading.", "quantifier": "for all lists of files, contents, installed executors and names", "why_tests_cant": "unbounded lists; collisions need particular names", "anchors": ["dmoj/utils/helper_files.py:16-61", "dmoj/executors/gcc_executor.py:28-43", "dmoj/graders/signature.py", "dmoj/graders/bridged.py:94-105"]}
{"id": "C74", "title": "The executors the judge offers", "statement": "The judge offers exactly those executors that have a module, that -e (if given) names and -x does not, that can be imported, whose configured programs exist, and that pass their self-test unless self-tests are skipped. A self-test is passed exactly if nothing raises, the program ends within its limits and prints the message and nothing to standard error. The version reported of a program is the first, longest dotted number in the output of the first flag that gives one. Unless self-tests are skipped every handshake names exactly the executors offered, with their versions at the start, and cannot fail. The judge starts unless one of three named things is wrong. Fails: a test program that prints and then crashes passes; with self-tests skipped a broken compiler keeps the judge from starting, another broken program keeps it from connecting; a key without a value keeps it from starting; a blank after a comma of -e silently loses an executor.", "quantifier": "for all directory listings, options, configurations, modules and behaviours of the programs", "why_tests_cant": "which programs are installed and what they print is different on every machine", "anchors": ["dmoj/utils/load.py:11-57", "dmoj/executors/__init__.py", "dmoj/executors/base_executor.py:120-231", "dmoj/judgeenv.py:105-107,139-140,310-313", "dmoj/packet.py:90-91"]}
{"id": "C75", "title": "The sandbox looks at the right registers on every machine", "statement": "On each of the four Linux machines cptbox is built for, and for each kind of program it runs, the ABI is recognised whatever the registers hold; the number and the arguments the policy looks at are those the kernel will use. A refused call is skipped by the kernel, the program finds the error as its result and no other register has changed. The launching code is let through exactly until its execve. Fails: on ARM64 the error is written into the register of the call number, so a program whose call was refused finds its own first argument (seccomp) or its process number (ptrace) as the result; on 32-bit x86 the sixth argument is always taken for zero.", "quantifier": "for all register contents, ABIs, machines, call numbers and errors", "why_tests_cant": "the tests run on one machine, with a few calls and arguments; the tables of registers are selected at compile time", "anchors": ["dmoj/cptbox/ptdebug_x64.cpp", "dmoj/cptbox/ptdebug_x86.cpp", "dmoj/cptbox/ptdebug_arm.cpp", "dmoj/cptbox/ptdebug_arm64.cpp", "dmoj/cptbox/ptdebug.cpp:61-111", "dmoj/cptbox/handlers.py:9-18"]}
{"id": "C76", "title": "What the judge starts with", "statement": "The judge, the shell and the test suite start exactly if the configuration (and in docker the list of runtimes) can be read and is a mapping, names problem roots, all directories searched can be listed, and the directory of tests exists. Name and key are those of the command line, else those of the files; the roots are those named by the configuration; the test suite uses its directory alone. Every problem ever reported lies in a directory watched for changes. The API listens only in docker or on the port given. Fails: in docker without a configuration file the name and key of the command line are ignored; in docker a configuration file without problem roots keeps the judge from starting though /problems would do; so it does with the test suite, which does not use them.", "quantifier": "for all command lines, configuration files, file systems and histories", "why_tests_cant": "load_env is marked as not covered; combinations of docker, files and arguments are many", "anchors": ["dmoj/judgeenv.py:55-208", "dmoj/config.py:59-63,83-120"]}
{"id": "C77", "title": "Connecting to the site", "statement": "The judge is online exactly if problems and versions were found, the site was reached, its certificate accepted (when TLS is asked for), the handshake sent, and the first packet back is a handshake-success; what follows is left for the reader. The key is sent at most once per attempt, to a site that was accepted, through TLS if asked for. Failed attempts are repeated with the sleeps of C22; it is stated exactly which failures end the judge in place of that. Fails: an OSError of listing problems is taken for a network failure, so the judge sleeps without connecting; an answer without a name ends the judge; trusted certificates without -s are ignored and the key goes out in the clear.", "quantifier": "for all behaviours of machine, network and site, and all options", "why_tests_cant": "needs a misbehaving server, certificates and days of waiting", "anchors": ["dmoj/packet.py:53-138,290-306"]}
{"id": "C78", "title": "What the site is shown of outputs and compilers' messages", "statement": "For every output of a program, the text sent for a case is what lies in the first `output_prefix_length` bytes of its output: for text, all characters wholly inside them and one replacement character if the last is cut; for any bytes, a text sent without replacement characters is exactly those bytes, text after undecodable bytes is sent unharmed, and never more than that many characters are sent. A compiler's message is sent whole if it is text; a failed compilation is reported once, with a log that is not empty; a successful one never as a failure. Fails: a negative prefix length is applied twice, so more is cut than was asked for.", "quantifier": "for all byte sequences, prefix lengths and messages", "why_tests_cant": "the set of byte sequences is infinite; tests try a few outputs", "anchors": ["dmoj/result.py:69-71", "dmoj/judge.py:188-194,442-453,497-500", "dmoj/packet.py:197-240,321-330", "dmoj/utils/unicode.py:34-39"]}
{"id": "C79", "title": "Logging a result never harms it", "statement": "Every result a grader produces reaches the queue to the site: making the coloured line for the log raises nothing, provided no feedback contains a `](`; without colours nothing is ever raised. The log shows the asked colours and attributes, and the same characters with and without colours. Fails: feedback chosen by the program (the exception name of a Java program) or by a checker that contains `](` followed by an unknown colour raises in the grading thread, and the submission becomes an internal error.", "quantifier": "for all results, feedback texts and settings of colours", "why_tests_cant": "needs feedback that looks like the markup of the log; no test has one", "anchors": ["dmoj/judge.py:140-187,202-222", "dmoj/utils/ansi.py:11-25"]}
{"id": "C80", "title": "Removing colours from messages", "statement": "strip_ansi removes the colours and nothing else from a message made of text without escape characters, colours with at most two short parameters, and erases not followed by a character of a parameter. A text without escapes is left as it is. It only ever deletes. Fails: the first character after an erase is lost if it is a capital, digit, comma, m or |; colours with three short parameters or a long second one leave remains.", "quantifier": "for all messages", "why_tests_cant": "the expression is matched against whatever compilers print; combinations are unbounded", "anchors": ["dmoj/utils/ansi.py:6-8", "dmoj/judge.py:276-297"]}
{"id": "C81", "title": "Memory accounting", "statement": "The peak memory reported for a program, on which the memory verdict rests, is the peak the kernel shows when its main thread leaves: the number is read exactly from the status file whatever lines come before it (the program chooses its own name there), and never with an access outside the buffer; a program stopped for a forbidden call is reported with its peak at that stop; a program never above the limit is never reported above it. Fails: memory used by other threads after the main thread has left is not counted, so a program can stay far below its limit in the report though it is above it.", "quantifier": "for all contents of the status file, all sequences of stops, threads and questions by other threads of the judge", "why_tests_cant": "needs programs whose threads outlive the main one and process names that look like the field; timing decides", "anchors": ["dmoj/cptbox/_cptbox.pyx:167-191,420-422,542-551", "dmoj/cptbox/ptproc.cpp:81-83,309-338", "dmoj/cptbox/tracer.py:214-216"]}
{"id": "C82", "title": "The site is told exactly what each worker reported", "statement": "Whatever the interleaving of network thread, grading threads and flusher: when no submission is being graded, the sequence of results and packets the site has received is exactly the concatenation, in the order the site asked for the submissions, of one report per submission: everything its worker said (results, batch brackets, compiler message, the end), in the order it said it and under the id of that submission, or an initial part of that followed by one internal-error. At every instant the reports on earlier submissions are complete and what has arrived of the current one is an initial part of such a report. If no case raises and nobody aborts, the report is the whole layout of the problem followed by grading-end; a complete report ends the submission exactly once, at its end.", "quantifier": "for all interleavings, all numbers of submissions, all worker runs and all moments at which workers die", "why_tests_cant": "needs all interleavings of three kinds of threads over unbounded sequences of submissions", "anchors": ["dmoj/judge.py:112-186,315-335,357-507", "dmoj/packet.py:154-360"]}
{"id": "C83", "title": "The judge starts only where it is safe, sends the list of problems when asked, and stops when told", "statement": "The judge starts only on a system where submissions can be sandboxed and not as root, with a warning exactly if the BPF JIT is off or the compiled checker is missing. Its log file is the configured name with %s replaced by the judge's name (a name with another % can keep it from starting: C83_log_fails). A control request leads to an update exactly if it is a POST of /update/problems, and is answered 200 exactly then; after each change in the problem directories every configured other server is tried again, however changes and rounds overlap (but http and https requests are never made: C83_ping_fails). Once told to stop, by the site, by a signal or by an error, the process ends whatever its threads are doing (taking the server for the API to stop when asked, see C122, and no request by signal to come in between, see C121), with code 0 if nothing was being sent and the worker ends in time, and all queued results are sent before the connection is closed. This fails when the site disconnects during grading (code 1), when the directories could not be watched (code 1), when the list of problems is being sent (code 1), and when the judge is interrupted a second time (it never ends).", "quantifier": "for all hosts, log names, requests, overlaps of changes and refresh rounds, and all interleavings of the main thread, grading thread, updater and flusher from any state", "why_tests_cant": "needs all interleavings of four threads around shutdown", "anchors": ["dmoj/judge.py:85-110,238-272,520-641", "dmoj/packet.py:185-248", "dmoj/monitor.py:20-122", "dmoj/control.py:1-22"]}
{"id": "C84", "title": "What reaches the compiler is what was submitted", "statement": "For every language the file its compiler or interpreter reads has the language's extension, lies in the directory of the submission and has exactly the submitted text, but for a byte order mark before it for Python, a line end after it for assemblers, and line ends of one kind for Zig. Files given along with a C or C++ program all get there under names of their own. A Go program is accepted exactly if its package clause names main, whatever white space and comments come before it; an assembly program is linked with the C library exactly if its list of features says libc. This fails for problem names with a dot, for auxiliary files whose names differ only in the extension, for Python text that has a mark of its own, for Go comments that contain the beginning of another, package clauses over two lines and names outside ASCII, and for a feature list that runs on into the next line.", "quantifier": "for all languages, problem names, class names, texts and auxiliary files", "why_tests_cant": "the texts and comments are unbounded, and the regular expressions interact with each other", "anchors": ["dmoj/executors/GO.py:7-13,54-58", "dmoj/executors/asm_executor.py:10-38,147-151", "dmoj/executors/gcc_executor.py:28-43", "dmoj/executors/compiled_executor.py:134-137", "dmoj/executors/script_executor.py:9-34", "dmoj/executors/python_executor.py:38-47", "dmoj/executors/ZIG.py:23-27", "dmoj/executors/java_executor.py:66-72,215-231", "dmoj/executors/RUST.py:81-90", "dmoj/executors/D.py:16"]}
{"id": "C85", "title": "What is run for a submission", "statement": "For every language the program started is the configured runtime, or the file compiled in the directory of the submission; the file with the submission is an argument of the compiler or interpreter, after arguments that depend on the configuration only; where the compiler is told what to write, that is what is run; arguments of the program come last and unchanged; nothing in the text of a submission has a say in the command lines but the class of a Java program. The sandbox gets the memory limit of the problem, except that the Java machine is told the limit instead, Brainf*** programs get 8 MB more and a tape of the size of the limit, and the heap of Lisp is the limit rounded up to the next MB. This fails in that the machines of Kotlin, Groovy and Scala are not told where to leave the log of a crash, which the judge looks for, and in that the way of starting .NET programs that would ignore SIGXCPU is asked for and not used.", "quantifier": "for all languages, problem names, directories, configurations, memory limits and arguments", "why_tests_cant": "paths, limits and arguments are unbounded, and most executors are not installed where tests run", "anchors": ["dmoj/executors/mixins.py:110-138", "dmoj/executors/compiled_executor.py:237-260", "dmoj/executors/script_executor.py:36-44", "dmoj/executors/gcc_executor.py:45-74", "dmoj/executors/asm_executor.py:51-80", "dmoj/executors/python_executor.py:27-36", "dmoj/executors/java_executor.py:89-134", "dmoj/executors/mono_executor.py:14-64", "dmoj/executors/KOTLIN.py:35-39", "dmoj/executors/BF.py:61-65", "dmoj/executors/SBCL.py:20-40"]}
{"id": "C86", "title": "What the user is told of a compilation", "statement": "In every language a compiler that fails is reported with exactly what it said (for Java with a fixed text exactly if it says that the class belongs into another file), one over its time or with too much output with a fixed text naming the limit. What a successful compiler said is sent as it is; for Pascal and COBOL only if it has one of the words that announce a fatal error, warning or note, otherwise an empty text; for assembly programs what assembler and linker said without white space around, and nothing if both said nothing. This fails for an assembler or linker that succeeds and says something that is not UTF-8: the submission ends with an internal error. In other languages an empty message is sent for a compiler that said nothing.", "quantifier": "for all languages, outputs and ends of compilers", "why_tests_cant": "outputs are unbounded and most compilers are not installed where tests run", "anchors": ["dmoj/executors/compiled_executor.py:220-253", "dmoj/executors/PAS.py:20-22", "dmoj/executors/CBL.py:26-33", "dmoj/executors/asm_executor.py:51-70", "dmoj/executors/java_executor.py:236-239", "dmoj/judge.py:442-453", "dmoj/utils/unicode.py:34-39"]}
{"id": "C87", "title": "Listening to the site over the judge's life", "statement": "Over any number of connections, each lost after any number of bytes, the judge handles exactly the packets that arrived whole, in order, none twice and none in part, and connects again after each loss until it gives up. This fails for connections that the site closes within the four bytes of a header and for those that are reset or time out within the content of a packet: the process ends instead, with status 1.", "quantifier": "for all packets, numbers of bytes that arrive, ways to lose a connection, and numbers of connections", "why_tests_cant": "connections are lost at any byte in two ways, over days of operation", "anchors": ["dmoj/packet.py:104-139", "dmoj/packet.py:154-187"]}
{"id": "C88", "title": "Finding the runtimes that are installed", "statement": "The automatic configuration offers an executor exactly if the files it needs are found, the first of each list of names being taken, and its self-test passes with them; what is printed is what the executors were tested with, so that each still passes with all of it, and nothing but the configuration is on standard output. This fails for compilers of the GCC family that need different targets, for Ruby and Objective-C, which are never made available, for a JVM started by a script, and when a self-test exceeds a limit.", "quantifier": "for all machines (files found, traces of scripts, outcomes of self-tests), verbosities, lists of executors, and keys", "why_tests_cant": "there are sixty executors and any set of them may be installed, in any versions", "anchors": ["dmoj/executors/autoconfig.py:17-95", "dmoj/executors/base_executor.py:237-284", "dmoj/executors/gcc_executor.py:105-127", "dmoj/executors/java_executor.py:172-267", "dmoj/executors/GROOVY.py:40-67", "dmoj/executors/SCALA.py:46-74", "dmoj/executors/KOTLIN.py:40-50"]}
{"id": "C89", "title": "What a submission can reach, from the kernel to the patterns", "statement": "Whatever file the kernel opens for a program run by any executor is one of the readable places, below the directory of the submission, or one that the patterns of the executor or of the configuration match; opened for writing, it is one of three devices or one that the patterns for writing match. So nothing in the judge's, other users' or the system's directories and nothing of other processes is opened unless such a pattern or the directory itself covers it, and the other calls that take paths reach nothing else either. Not covered: int 0x80 from 64-bit code, the x32 ABI, statfs, and the calls some executors leave unchecked (C62, C63); links in the file system and paths changed by another thread (C101).", "quantifier": "for all executors, states of the monitor, ways into the kernel, registers, memories, working directories, submission directories, and additional patterns", "why_tests_cant": "the claim runs through the seccomp filter, the tracer, the reading of memory, the normalisation of paths and the regular expressions; a test sees one path through them", "anchors": ["dmoj/cptbox/isolate.py:1-330", "dmoj/cptbox/tracer.py:235-420", "dmoj/cptbox/ptproc.cpp:120-420", "dmoj/executors/mixins.py:20-160"]}
{"id": "C90", "title": "The prompt of the local judge", "statement": "A line typed at the prompt is split into words by the quoting rules of a POSIX shell, so that any words at all can be typed; blank lines, unknown and refused commands change nothing and the session goes on; a number that stands for a submission keeps standing for it and nothing but what submit accepted is recorded. With a command on the command line the exit status is 127 exactly for an unknown one, and otherwise 0 or 1 by exact conditions. A stray quote, a blank quoted at the end of the line, a bad filter, a command or problem named like the end of a coloured text, and Control-C while judging again end the session.", "quantifier": "for all sequences of lines, end-of-file and interrupts, with the problems, files, languages, editors and argument parsers being different each time", "why_tests_cant": "lines are arbitrary texts; what ends a session shows only in combination with what was typed before", "anchors": ["dmoj/cli.py:72-139", "dmoj/commands/base_command.py:14-23", "dmoj/commands/submit.py:39-85", "dmoj/commands/rejudge.py:12-20", "dmoj/commands/show.py:16-40", "dmoj/commands/diff.py:17-43", "dmoj/commands/problems.py:18-40", "dmoj/commands/quit.py:10-11"]}
{"id": "C91", "title": "Helper programs are started with the files of the case", "statement": "A checker or interactor program is started with the files its kind documents, in that order, each holding the data of the case; a format string of the problem's own takes the place of the kind's. Every word of a format string reaches the program as one argument, and a placeholder outside quotes stands for the name of its file whatever characters the name has. An interactor may run longer than the submission by the preprocessing time, two seconds by default. A placeholder between the format string's own quotes need not stand for the file.", "quantifier": "for all format strings, file names, contents and kinds", "why_tests_cant": "format strings and file names are arbitrary texts, and two quoting conventions and one brace convention are applied one after the other", "anchors": ["dmoj/checkers/bridged.py:43-60", "dmoj/graders/bridged.py:54-83", "dmoj/contrib/default.py:12-18", "dmoj/contrib/testlib.py", "dmoj/contrib/coci.py", "dmoj/contrib/peg.py"]}
{"id": "C92", "title": "Packets of the site, well-formed or not", "statement": "Whatever JSON the site sends, the judge answers or ends by exact conditions. A request that describes a submission is acknowledged with its id and that very submission is graded, field by field; nothing else is ever graded, and every start follows its acknowledgement. Packets of unknown kinds are ignored; which packets end the judge, and with which status, is known exactly. An acknowledged submission is not graded if the rest of its packet is bad, a termination aborts whichever submission is being graded, limits are taken unseen, and a problem whose name looks like colours, or an id that is no number, ends the judge.", "quantifier": "for all sequences of JSON values, whatever is being graded when each arrives", "why_tests_cant": "packets are arbitrary JSON; that an acknowledgement precedes the checks only shows with packets no site sends on purpose", "anchors": ["dmoj/packet.py:154-165", "dmoj/packet.py:250-285", "dmoj/judge.py:112-130", "dmoj/judge.py:238-255", "dmoj/judge.py:300-312"]}
{"id": "C93", "title": "A submission from its runs to its points", "statement": "On a problem with the standard grader and checker every case is reported once, in order, and the grading ends; a case that is run gets its full points and no flag exactly if the process did nothing wrong and wrote the tokens of the answer file, line by line, however the author ended the lines; otherwise it gets none. A program that is right on every case gets every point, and (if each case is worth something) only such a program. Without batches and free cases the points are those of the cases on which the program is right. A program that is right wherever another is gets no fewer points, except where a batch contains a case worth nothing: there, correcting a program can cost points.", "quantifier": "for all problems, answer files, outputs, process endings, requests for short-circuiting", "why_tests_cant": "whether the pieces (data, process, checker, case, loop) compose into the right award depends on all of them at once; that a better program can be awarded less needs three particular cases", "anchors": ["dmoj/graders/standard.py:13-75", "dmoj/checkers/standard.py:7-10", "dmoj/problem.py:235-255", "dmoj/judge.py:437-507"]}
{"id": "C94", "title": "What packets say survives the way to the site", "statement": "Every packet the judge sends, whatever texts and numbers it contains, is read back by the site as a packet of this kind with every field as the judge had it (compiler output that is not UTF-8 with replacement characters); packets with the same bytes say the same; only printable ASCII goes into the text, and the text is JSON (RFC 8259) unless it contains a number that is not finite. The judge in turn accepts from the site exactly the JSON texts, with any white space and escapes, and takes each for the one value it stands for.", "quantifier": "for all packets, texts (all Unicode scalar values), integers, nested values and received texts", "why_tests_cant": "escapes, surrogate pairs, number forms and nesting have no bound; that no two packets are confused concerns all pairs", "anchors": ["dmoj/packet.py:178-248", "dmoj/packet.py:287-388", "dmoj/sysinfo.py:1-34", "dmoj/result.py:69-71", "dmoj/utils/unicode.py:34-39"]}
{"id": "C95", "title": "What a submission is awarded where the author's own code decides", "statement": "On a problem judged by a checker program, an interactor program (protocols default, testlib, coci) or a Python interactor, each case that is run gets exactly what that code decides: full points, the part of the points it states (never below zero or above the worth of the case), or none; a submission that crashed or broke a limit gets none whatever the code says; code that fails is never counted against or for the submission but ends the grading without a result for the case and without an end report, and nothing else does. Otherwise there is one result per case in order, a case is skipped exactly for a failed case of its batch, a failed free case or requested short-circuiting, and the sum is between nothing and the worth of the problem, the latter exactly if every case is judged worth its full points.", "quantifier": "for all problems (cases, batches, points), all runs of the submission, all exit statuses, outputs and endings of the author's code", "why_tests_cant": "it is the composition of exit-status parsing, limits, text decoding, grading of a case and the grading loop; batches, cases and texts have no bound", "anchors": ["dmoj/checkers/bridged.py:26-74", "dmoj/graders/bridged.py:22-38", "dmoj/graders/interactive.py:93-117", "dmoj/graders/standard.py:13-75", "dmoj/contrib/default.py:20-26", "dmoj/contrib/testlib.py:24-42", "dmoj/contrib/coci.py:17-30", "dmoj/judge.py:437-507"]}
{"id": "C96", "title": "The points the site adds up", "statement": "At every instant, and however the threads of the judge interleave, what the site has been told falls into parts, one for each of the first submissions it asked for, each being all or the beginning of a report on that submission (at rest: one whole report per submission). The results in such a part are those of the first cases, in order and each at most once, with the points the rules of C93 and C95 give the case (nothing if it was not run). So the sum the site can add up is never below zero or above the worth of the problem, whatever is aborted, crashes or breaks; it is the full worth only if every case was decided to be worth its full points, and is the full worth if this is so and the site was told that the grading is over. At rest, a submission nobody aborted, whose judging did not fail and that is not reported as an internal error, is reported as over with exactly the sum the worker awarded.", "quantifier": "for all interleavings of the threads, all sequences of submissions, all problems (cases, batches, points), all runs, all behaviours of the author's code, aborts after any case and deaths of workers at any time", "why_tests_cant": "it composes concurrency (three threads, batching of results in packets) with grading and judging; interleavings, submissions and cases have no bound", "anchors": ["dmoj/judge.py:70-272", "dmoj/judge.py:357-507", "dmoj/packet.py:154-248", "dmoj/graders/standard.py:13-75", "dmoj/graders/bridged.py:22-38", "dmoj/graders/interactive.py:93-117"]}
{"id": "C97", "title": "Starting a program: what surrounds it, and how a failed start is reported", "statement": "Whenever a program is started by the tracer it can gain no privileges, is traced, is filtered by at most the whitelist of its policy, has no open descriptors but its three standard streams, and no limit (address space, data, CPU time, processes, file size, core) is laxer than asked for, whichever other calls fail. At its first instruction the tracer is judging its calls, goes on doing so whatever happens, and nothing done before counts against it; this holds for every language, because no policy lets `execve` pass the filter (without that nothing the program calls would be judged). A start that fails is reported by `wait` as the failure it is, with the cause; a program that did start is reported with its own exit code, even one of 202-205. It runs in the directory asked for, with an unlimited stack and its arguments unchanged. Where the code falls short (proved): a program file that cannot be executed is reported, when the filter is used, as a program that ran and exited with 205; a failing `chdir` is ignored; a lower hard limit of the judge keeps the stack limited; arguments end at a zero byte.", "quantifier": "for all configurations, all answers of the kernel to the child, all initial limits and descriptors, all further stops of the program, all executors", "why_tests_cant": "tests run on one kernel where every call succeeds; failure paths and the combination with the tracer's state machine cannot be provoked", "anchors": ["dmoj/cptbox/helper.cpp:30-142", "dmoj/cptbox/helper.h:5-8", "dmoj/cptbox/ptproc.cpp:68-79", "dmoj/cptbox/ptproc.cpp:225-241", "dmoj/cptbox/ptdebug_x64.cpp:119-130", "dmoj/cptbox/tracer.py:169-203", "dmoj/cptbox/_cptbox.pyx:157-165", "dmoj/cptbox/_cptbox.pyx:455-491"]}
{"id": "C98", "title": "From the bytes on the connection to the points the site adds up", "statement": "A site that reads the connection frame by frame (four bytes of length, then that many compressed bytes of JSON) understands every complete frame, whichever threads of the judge send, and however much of what they wrote has arrived. What it is told is determined by the bytes, and is the first part of what happened at the judge, in order; all of it once everything arrived and nobody is sending. It falls into parts, one per submission in the order in which the site asked for them, each about this submission only. If the numbers in the results of a submission that compiled are the points its worker produced, they add up to something between nothing and what the problem is worth: to all of it only if every case is decided to be worth its full points, and to all of it if this is so and the site has been told that the grading is over.", "quantifier": "for all reachable states of the judge's threads, all contents of packets, all interleavings of the senders, all prefixes of the bytes, all problems, submissions and authors' checkers that do not award points themselves", "why_tests_cant": "combines byte streams cut anywhere, thread schedules and gradings; no test can enumerate the product of these", "anchors": ["dmoj/packet.py:167-183", "dmoj/packet.py:191-248", "dmoj/packet.py:307-388", "dmoj/judge.py:105-235", "dmoj/judge.py:357-507"]}
{"id": "C99", "title": "The judge's patience with its worker", "statement": "The judge waits a minute for the next message of a worker, or twice the time limit if that is more. If no step of the worker takes longer than that (its start, compiling, and each case including, for the first, reading the list of cases), the judge hears everything the worker says and then its goodbye, however long the judge takes for each message. If one does, the judge hears what was said before, then kills the worker at this moment and reports an internal error. The judge is never stuck: between one message and the next, and the end, there is no more than its patience and its own work, whatever the worker does. A problem is safe if its wall clock limit, the delays of the judge's threads and the author's code fit into the patience; with the usual limits, up to 13 seconds. Fails: the usual wall clock limit is three times the time limit, so for every time limit over 20 seconds a right program that stays within both limits can be cut off before it is judged.", "quantifier": "for all workers and all paces of their steps, all delays of the judge, all schedules of the watchdog's threads, all time limits", "why_tests_cant": "takes minutes of silence, and depends on the schedule of two processes and three threads", "anchors": ["dmoj/judge.py:315-335", "dmoj/judge.py:357-507", "dmoj/problem.py:47", "dmoj/graders/standard.py:79-88", "dmoj/cptbox/tracer.py:332-351"]}
{"id": "C100", "title": "Aborting a grading", "statement": "The two threads of a worker, the program and the judge together tell nothing but what a grading with an abort at some point tells, whatever the order of their steps: what C11 to C13 say holds for every interleaving. The site is told of an abort only if it asked for one. Once the request is read, or the judge is gone, at most one more case is begun and no verdict is told except of cases that are skipped; during a case all that is told afterwards is the abort. A program that is running and known to the grader is dead after three steps of the listening thread. The verdict of a program killed for an abort is never told. When the judge is gone nothing is sent. Fails: a request that is read before the process is assigned does not reach the program, which lives on until its limits; a request during compilation does not stop the first program from being started; one after the last graded case is lost; if grading the killed program fails the site is told of an internal error instead.", "quantifier": "for all interleavings of the steps of both threads, the program, requests and hang-ups, of any length, all problems and outcomes of cases", "why_tests_cant": "the order of the steps of two threads, two processes and a program is not under the control of a test", "anchors": ["dmoj/judge.py:349-435", "dmoj/judge.py:437-512", "dmoj/graders/base.py:13-31", "dmoj/graders/standard.py:13-40", "dmoj/graders/standard.py:79-103"]}
{"id": "C101", "title": "What is opened is what was checked", "statement": "The file the kernel opens for a program is at the place whose name the sandbox has checked, if no link is met on the way and no other thread writes to the path in between; what else other threads write makes no difference. Where every link is a name for a file beside it, what is opened is in the directory that was checked, whatever the path looks like. A path without `..` leads where its names do or below the place some link stands for. Fails: the check takes `..` for the directory above by name, the kernel for that above the place it has come to, so a link in a readable directory to a directory in an unreadable one makes the files beside that one readable; a second thread that changes the path after the check opens anything.", "quantifier": "for all executors, states of the monitor, registers, memories, trees of files and links, and writes of other threads", "why_tests_cant": "tests use one file system and cannot place the write of another thread between the check and the call", "anchors": ["dmoj/cptbox/isolate.py:197-284", "dmoj/cptbox/ptproc.cpp:107-290", "dmoj/executors/mixins.py:15-45"]}
{"id": "C102", "title": "Test files are recognised by their names", "statement": "Without test_cases in the configuration, a member of the archive is taken as an input file exactly if its name begins with in or contains .in, ignoring case, and contains a number with no whitespace after the last one; as an output file likewise with out. The case is the last number; the batch is the number before it, if that stands at the beginning or after a character that is no letter, digit or underscore and no whitespace is in between. So prefix.B.C.in and prefix.C.in mean what setters intend. Every archive is accepted; each resulting case pairs an input with an output of the same number, both named accordingly, and no test file is ignored unless a later one has the same numbers. Desired: an output file is never the input of a case, and no batch is dropped. Fails: in intervals.1.in and intervals.1.out both are inputs and the expected output is what submissions read; batch1/1.in and batch2/1.in are the same case and the first batch is not tested.", "quantifier": "for all archives, names without line breaks, numbers and prefixes, and any Unicode tables with the stated facts", "why_tests_cant": "names are unbounded texts and the pattern backtracks; a test tries a few names", "anchors": ["dmoj/problem.py:20-21", "dmoj/problem.py:63-153"]}
{"id": "C103", "title": "What an init.yml means", "statement": "For a problem whose init.yml is a dictionary, loading it gives exactly the settings in it, with the documented defaults where it is silent (a case is worth 1 point, the first 64 bytes of output are shown but none when grading by signature, 24 MiB of output, wall time factor 3, short circuit). A list of test cases is what is graded, with or without an archive. Without test_cases the cases are those found by name in the archive (C102), each worth the points of the problem. With input_format, output_format and case_points in test_cases, the members are matched with these and the points are given one after the other. A missing or empty or unparsable init.yml, an archive that is missing or no zip file, and anything to be found without an archive, are errors of the configuration. Desired: whatever is wrong with an init.yml is reported as such an error, and an empty list of test cases means no cases. Fails: an init.yml that is a text or number, an unknown tag, a text as test_cases, a bad pattern, fewer points than cases, an archive that is a directory each give some other exception; test_cases: [] means that cases are looked for in the archive. For settings of the right kinds only too few points and mixed ids give other exceptions.", "quantifier": "for all documents, archives, meanings of patterns and all names of files", "why_tests_cant": "documents are arbitrary trees; the tests load a handful of good ones", "anchors": ["dmoj/problem.py:24-61", "dmoj/problem.py:129-153", "dmoj/problem.py:175-185", "dmoj/config.py:84-149"]}
{"id": "C104", "title": "Who holds the pipes of a bridged session, and what goes through them", "statement": "(C68 on the level of descriptors and bytes.) When a submission is graded by a second program, each reads what the other writes, in order and without loss. When the judge waits for them the pipes between them are in their hands only: a program has to wait for input only while the other is alive and can still write, and when the other has ended it gets what is left and then the end of file, and does not have to wait to write. The judge waits for nothing but a program that has not ended; at the end it has all that either has written to standard error. Desired: writing to standard error never blocks a program, and a submission is not left waiting when the interactor cannot be started. Fails: nobody reads standard error before both have ended, so a program that writes more to it than a pipe holds (64 KiB) is stuck until it is killed, a wrong verdict; after an exception before the interactor is started the judge keeps the pipes open and the submission waits until killed.", "quantifier": "for all behaviours of both programs, all interleavings of theirs and the judge's actions, all capacities of pipes", "why_tests_cant": "the interleavings of three processes and the amounts written are unbounded; a test runs one schedule with a few bytes", "anchors": ["dmoj/graders/bridged.py:23-94", "dmoj/cptbox/tracer.py:284-306", "dmoj/cptbox/tracer.py:353-393", "dmoj/cptbox/helper.cpp:62-105"]}
{"id": "C105", "title": "What is told of the end of a program is what ended it", "statement": "(C69, C37 and C51 put together over a whole run.) The signal the judge has noted when a program ends is the last one its main thread was sent, none when it was sent none. A program killed in its main thread by a signal, within its limits and without a message of its own, has the name of that signal told. One that was sent no signal has none told. One killed for a system call it may not make has the name of that call told (or another name of the same call), by the table of the ABI it was made with, and \"unknown\" if the table does not have it. Fails: the judge itself sends SIGWINCH each second, so a program that runs for longer and ends with code 1, or is killed by SIGKILL, is said to have ended by that (\"window changed\"); nothing is told of signals acting in another thread and of SIGTRAP; call number -1 is told as \"ptrace fail\".", "quantifier": "for all sequences of stops the kernel reports, all ways to end, all configurations of the tracer, all executors' messages", "why_tests_cant": "what is told depends on the whole sequence of stops of all threads, which a test cannot enumerate; tests kill a short program by one signal", "anchors": ["dmoj/cptbox/_cptbox.pyx:420-439", "dmoj/cptbox/_cptbox.pyx:501-503", "dmoj/cptbox/_cptbox.pyx:548-559", "dmoj/cptbox/ptproc.cpp:290-362", "dmoj/cptbox/tracer.py:22-30", "dmoj/cptbox/tracer.py:64-73", "dmoj/cptbox/tracer.py:210-224", "dmoj/cptbox/tracer.py:262-294", "dmoj/cptbox/tracer.py:332-351", "dmoj/result.py:72-98"]}
{"id": "C106", "title": "Configured settings and options are the ones used", "statement": "Whichever of the three programs (judge, command line, test suite) is started, with whatever configuration documents and options, and whichever executors and other modules are imported afterwards in whatever order: importing comes to an end; every setting that a module reads while it is imported, and every one read later, is that of the last document that has it or else the default; every copy of a variable of judgeenv.py is the variable as the command line left it. So submissions are compiled within compiler_time_limit, generators run and are compiled within the generator_* settings unless the problem asks otherwise, interactors have generator_memory_limit. Fails: the limits of a bridged checker are read before the configuration is loaded, so it always has 20 seconds and 512 MB unless the problem says otherwise, and the setting meant to limit its compilation is read by a name no setting has, so it is compiled without a limit of time; an interactor too.", "quantifier": "for all programs, all documents and option values, all lists of modules imported later", "why_tests_cant": "which value a module sees depends on the order of imports in the whole program; tests import modules one by one and set limits directly", "anchors": ["dmoj/judgeenv.py:14-52", "dmoj/judgeenv.py:118-207", "dmoj/checkers/bridged.py:25-41", "dmoj/problem.py:258-288", "dmoj/graders/bridged.py:55-60", "dmoj/executors/compiled_executor.py:69-81", "dmoj/executors/compiled_executor.py:115-118", "dmoj/executors/base_executor.py:25-33", "dmoj/executors/gcc_executor.py:11-13", "dmoj/utils/helper_files.py:45-47", "dmoj/judge.py:567-580", "dmoj/cli.py:74-86", "dmoj/testsuite.py:277-285"]}
{"id": "C107", "title": "What a compiler is started with and what is heard of it", "statement": "Every compiler is told its terminal is an xterm. Go's sees exactly three variables, so foreign code cannot be turned on by the environment; GCC and its like see the configured variables over those the judge was started with; the others the judge's. Of most compilers all they write to standard output and standard error is heard, in order, with a carriage return before each line feed, which can be undone without loss; of Haskell, Pascal and Lisp compilers only standard error; of COBOL and Visual Basic all, as written. Whatever an unprivileged compiler and the programs it starts do, no file grows beyond the configured size. Ending the compiler ends all of them that have not left its group, and nothing outside it. Fails: a secret in the judge's environment is visible to all compilers but Go's; the message has carriage returns; a Haskell error on standard output is lost; a privileged compiler can raise its limit; with a limit above the judge's own no compiler starts.", "quantifier": "for all executors, environments, writes, and all histories of the compiler's processes", "why_tests_cant": "what compilers may write and start is unbounded; the tests compile fixed programs", "anchors": ["dmoj/executors/compiled_executor.py:115-118", "dmoj/executors/compiled_executor.py:142-218", "dmoj/executors/compiled_executor.py:220-228", "dmoj/executors/mixins.py:141-159", "dmoj/executors/gcc_executor.py:11-13", "dmoj/executors/gcc_executor.py:76-77", "dmoj/executors/GO.py:38-45", "dmoj/executors/CBL.py:11-24", "dmoj/executors/MONOVB.py:10-26"]}
{"id": "C108", "title": "What a green run of the test of all executors means", "statement": "The test of all executors followed by the regression suite exits with 0 exactly if no executor counts against it and no case of the suite fails when run with exactly the executors that passed, each with the configuration it passed with. An executor counts against it if it was neither found nor passed its self-test, unless it may fail, was left out, or is one of Java. So in a green run on x86-64 every executor but five that may fail and those of Java works. The configuration printed is the one dmoj-autoconf would make; the executors named as failed are those that count. Fails: a Java executor whose every installed virtual machine fails its self-test is taken for one that is not installed; a module without an executor turns the run red without being named; if no executor works and all may fail the run is green though no source was graded.", "quantifier": "for all machines, executors, overrides and suites", "why_tests_cant": "the test of the tests: only runs on particular machines are ever seen", "anchors": ["dmoj/citest.py:38-127", ".docker.test.py:8-46", "dmoj/executors/java_executor.py:172-198", "dmoj/executors/base_executor.py:237-284", "dmoj/testsuite.py:130-182"]}
{"id": "C109", "title": "Which files checkers, interactors and generators may use", "statement": "A helper program (checker, interactor, generator or validator) reads what programs of its language may read, its own directory and what begins with the temporary directory of the system; in particular it can open the files made for its case, and it can write to none of them. No submission reads these files, as each has a name of its own. They are there with their contents while the helper runs, and gone afterwards however it ends. With a configured tempdir outside that of the system no helper reads anything of a submission. Fails: without it helpers read the directories of all submissions and the answers of cases of other judges, and directories whose names merely begin like it; the directory is a pattern, so under a name such as /tmp/a+b helpers cannot open the very files they are given, and under one with a brace every open is an error.", "quantifier": "for all process ids, executors, directories and names of files, and all numbers of files of a case", "why_tests_cant": "the temporary directory is a setting of the machine; tests run with /tmp and with files that happen to be there", "anchors": ["dmoj/utils/helper_files.py:9-13", "dmoj/utils/helper_files.py:44", "dmoj/checkers/bridged.py:49-61", "dmoj/graders/bridged.py:68-90", "dmoj/executors/base_executor.py:47", "dmoj/executors/base_executor.py:78-83", "dmoj/executors/mixins.py:76-82"]}
{"id": "C110", "title": "Assembler programs: which languages are offered and how their programs are run", "statement": "An assembler language is offered exactly if its programs can be traced on this machine or an emulator is configured, assembler and linker are configured, these and the dynamic linker and all start files exist, and the self-test passes unless skipped. Emulator, linker and start files are the configured ones, otherwise Debian's. Programs are given to the emulator where there is one, even if the machine could run them; otherwise they are run as they are and can be traced. Under the emulator they read two more places, and only those. Fails: with self-tests skipped and an emulator configured that is missing, a language is offered whose programs can be neither run nor traced; languages are not offered without the start files of the C library, which most programs do not need; the search for runtimes never finds a language that needs the emulator.", "quantifier": "for all machines, configurations, languages and directories", "why_tests_cant": "no test machine has emulators and foreign assemblers; configurations are unbounded", "anchors": ["dmoj/executors/asm_executor.py:14-48", "dmoj/executors/asm_executor.py:72-119", "dmoj/executors/asm_executor.py:167-198", "dmoj/executors/GASARM.py:6-17", "dmoj/cptbox/tracer.py:396-397", "dmoj/config.py:82-118"]}
{"id": "C111", "title": "What a program reads, what is kept of it, and who waits for whom", "statement": "(C43 together with the program and the pipes.) In an ordinary run, whatever the program does and however the two are scheduled: while the judge talks to the program, only these two hold the ends of the pipes; what the program reads is a beginning of the input, and all of it when it meets the end of file; nothing it writes is lost, and if the case is graded with an output, that and the errors are exactly what it wrote, within the limits; the output limit is said to be exceeded only if it was. The judge and the program never wait for each other; the judge waits only for a program that has not ended, does not work forever while the program does nothing, and comes to an end once the program has. If the program cannot be started its ends are closed. Fails: a program that closes its output and writes too much to its errors is not killed, and it and the judge wait for each other until the time limit.", "quantifier": "for all inputs, limits, programs, schedules, and capacities of pipes of at least PIPE_BUF", "why_tests_cant": "schedules of two processes and three pipes cannot be enumerated; deadlocks depend on them", "anchors": ["dmoj/graders/standard.py:78-100", "dmoj/utils/communicate.py:10-97", "dmoj/cptbox/tracer.py:295-309", "dmoj/cptbox/tracer.py:353-387", "dmoj/cptbox/helper.cpp:62-65"]}
{"id": "C112", "title": "Which files interpreted programs may read", "statement": "(C64 for the languages whose executors add patterns of their own.) A program in one of the fourteen interpreted languages reads the common places, what the executor's own and the configured patterns match, its source, whatever begins like the home directory of the interpreter, and: in BASH what begins like an installed command, in RUBY2 each directory above the home directory, in COFFEE what begins like the configured program; nothing else. Where the names of directory and problem have no characters with a meaning in patterns, its source is in that directory, so that no other file is reached by its pattern; likewise for the byte code of Turing. Java programs also read what begins like the agent and write, besides the three device files, what is called submission_jvm_crash?log... in their directory. Fails: names are not escaped. A dot in the name of the directory lets a file of another directory be read, an open bracket in the name of a problem makes every run fail, home directories are not closed by a slash, two slashes in one make Ruby forget the directories above, and Java programs may write more than the log.", "quantifier": "for all directories, problem names, home directories, commands, process ids and paths", "why_tests_cant": "the sets of names and paths are infinite, and tests run in one directory with one name", "anchors": ["dmoj/executors/script_executor.py:10-30", "dmoj/executors/shell_executor.py:8-19", "dmoj/executors/RUBY2.py:17-27", "dmoj/executors/COFFEE.py:40-41", "dmoj/executors/TUR.py:17-18", "dmoj/executors/java_executor.py:83-87", "dmoj/cptbox/isolate.py:238-256"]}
{"id": "C113", "title": "No process of a submission escapes its group or outlives its run", "statement": "From the first act of the child on, the processes of a submission in any language are exactly those in the process group of the program, whatever they do; killing the group, which is how the judge enforces its limits, ends all of them and nothing else. Under the in-kernel filter no process of a submission, traced or not, ever executes a call that its policy refuses. In the languages with a limit on processes a program is one process all the time, and when the judge has done with it nothing is left. In the others nothing is left unless the program made a process that nobody traces. Fails: no policy looks at the flags of clone, so in each of the 18 languages without a limit a program can leave a process behind (CLONE_UNTRACED), and without the filter such a process can leave the group, survive the kill and use calls that no policy permits; the loop that kills the children of an ended program misses those made by clone with another signal than SIGCHLD, which live until the tracing thread ends, and may hit a process that has nothing to do with the submission; a kill that comes before the first act of the child has no effect.", "quantifier": "for all executors, with and without the filter, and all histories of processes made, calls, ends, kills and things seen by the tracer in any order", "why_tests_cant": "the processes of a submission and the judge run concurrently; tests see one interleaving of a few harmless programs", "anchors": ["dmoj/cptbox/ptproc.cpp:68-96", "dmoj/cptbox/ptproc.cpp:170-180", "dmoj/cptbox/ptproc.cpp:298-330", "dmoj/cptbox/ptproc.cpp:352-363", "dmoj/cptbox/tracer.py:230-243", "dmoj/cptbox/tracer.py:298-330", "dmoj/cptbox/isolate.py:40-148", "dmoj/executors/base_executor.py:24"]}
{"id": "C114", "title": "The judge does not wait for output longer than the submission lives", "statement": "Once the program has ended, of itself or by a kill (the watchdog, an abort, too much output), the judge returns, after a bounded number of rounds of its own threads, whatever the other processes of the submission do and whoever holds the pipes: in the languages with a limit on processes always, in the others if no process was made that nobody traces. It does not return early either: unless there was too much output, when the judge returns no process can write to the output or the error output any more, ever. Fails: in each of the 18 languages without a limit a submission can keep the judge waiting for ever, past its time limit and every abort, by a process that nobody traces which keeps the output open: once the program has been waited for, kill does nothing and the watchdog has ended; and the judge may return while a process of the submission that has closed its output is still alive.", "quantifier": "for all executors and all histories of processes made, ended, calls, pipes closed, kills and steps of the judge's threads in any order", "why_tests_cant": "three threads of the judge and any number of processes share the pipes; tests run programs of one process that end", "anchors": ["dmoj/utils/communicate.py:20-99", "dmoj/cptbox/tracer.py:185-186", "dmoj/cptbox/tracer.py:230-243", "dmoj/cptbox/tracer.py:298-352", "dmoj/graders/standard.py:85-100", "dmoj/cptbox/ptproc.cpp:352-363"]}
{"id": "C115", "title": "The limits on a program are those asked for, or it is not started", "statement": "Limits are Python numbers that become machine words on the way to the kernel. A program is started exactly if all of them fit their C types, otherwise the constructor raises before anything is started; no conversion makes a limit on address space, data, processes or file size laxer or stricter, on machines of 64 and of 32 bits, and what is not asked for is not limited. A time limit, also of a fraction of a second, becomes a limit on processor time more than four and less than six seconds above it, so the judge's own count always comes first. A submission in any language with a positive time limit and a memory limit that fits the address space is not refused. Fails: with a time limit of 2^32 - 6 seconds the hard limit wraps to zero, the kernel refuses it and processor time is not limited; a time limit of -5 seconds is taken for none.", "quantifier": "for all times (floats, infinities, NaN), memory limits, graces, numbers of processes, file sizes, limits of the judge, both word sizes, and every rounding of floating point addition", "why_tests_cant": "wrap-around and truncation happen at values no test uses; the failure is silent, as the result of setrlimit is not looked at", "anchors": ["dmoj/cptbox/tracer.py:119-128", "dmoj/cptbox/_cptbox.pyx:388-391", "dmoj/cptbox/_cptbox.pyx:455-461", "dmoj/cptbox/helper.h:10-16", "dmoj/cptbox/helper.cpp:31-39", "dmoj/cptbox/helper.cpp:114-133", "dmoj/packet.py:266-267"]}
{"id": "C116", "title": "What the worker reports of a case is what the judge tells the site, or the submission ends with an internal error", "statement": "Results are made in the worker process and reach the judge pickled through a pipe. Of whatever the worker hands over, results of graders of problems included, the judge is told everything in order, or everything before the first result that cannot be sent, read or shown, and then of an error; nothing after it, and no result changed. A result that arrives has all attributes of the one in the worker except for its output, which is cut to the length that is shown, and for configuration, problem and generated data of its case. Results as the judge's graders make them always arrive, whatever the configuration and the generated data are, if the case's points are a simple value. Whatever goes wrong, the worker's messages still end with one that closes the submission. Fails: with points given as a list or a mapping every submission ends with an internal error at the first case, even if that case is skipped.", "quantifier": "for all sequences of messages and results, all attributes and values of results and cases (including such as cannot be pickled or loaded), all lengths of output", "why_tests_cant": "tests do not send results through the pipe; what the attributes of a result are depends on the problem's own code and configuration", "anchors": ["dmoj/problem.py:225-234", "dmoj/problem.py:377-386", "dmoj/result.py:31-51", "dmoj/result.py:65-71", "dmoj/judge.py:315-335", "dmoj/judge.py:357-435", "dmoj/judge.py:495-501", "dmoj/packet.py:195-216", "dmoj/config.py:80-81"]}
{"id": "C117", "title": "The compiled-binary cache over submissions: which directories stay, and whose", "statement": "Every submission is graded in a process of its own, which has its own copy of the cache of compiled helper programs. Whatever such processes do and however they end, nothing that was on disk before is removed or replaced; a submission that needs no cached helper and whose worker ends in order leaves nothing behind, whether it compiles or not; otherwise a worker that ends in order leaves just the directories of the helpers in its cache, never more than fit into it. Desired: a helper compiled for one submission serves the next, and the directories on disk stay few. Fails: the cache ends with the worker, so that each submission compiles its checker again and leaves one more directory that nothing will ever remove; a worker that is killed leaves the submission's directory, too.", "quantifier": "for all sequences of workers, all sequences of compilations, failures, hits, evictions and releases in them, all cache sizes and keys", "why_tests_cant": "the cache works within one submission, which is all a test looks at; what is left behind shows over many submissions only", "anchors": ["dmoj/judge.py:298-313", "dmoj/judge.py:357-435", "dmoj/executors/compiled_executor.py:30-69", "dmoj/executors/compiled_executor.py:130-132", "dmoj/executors/base_executor.py:60-80", "dmoj/utils/helper_files.py:55"]}
{"id": "C118", "title": "Aborting a submission takes effect in time", "statement": "However far the grading of a submission has come when it is aborted: five seconds later it is over for the site (exactly one message ends it and nothing follows) and the judge reads messages of the site again; no result is reported after the request and at most one more program is started; a program that runs at that moment is killed at once and the site is told that the submission was aborted; a request after the end changes nothing. Desired: the site is always told that the submission was aborted. Fails: a compiler is not interrupted, a program that is about to be started is started and not killed, and a checker or generator is waited for; if that takes more than five seconds the worker is killed and the site is told of an internal error.", "quantifier": "for all moments of the abort, all numbers of test cases, and all times that compiling, generating, running and checking take", "why_tests_cant": "the outcome depends on the moment within the grading at which the request arrives, and on durations", "anchors": ["dmoj/judge.py:238-255", "dmoj/judge.py:337-355", "dmoj/judge.py:444-512", "dmoj/graders/base.py:24-30", "dmoj/graders/standard.py:13-22", "dmoj/cptbox/tracer.py:230-243"]}
{"id": "C119", "title": "Waits and questions of the tracer that fail do no harm", "statement": "The tracer does not look at whether its wait for the program succeeded. Once the program has been seen for the first time, waits that fail (interrupted by a signal), any number of them and at any moment, change nothing: the program gets the same permissions, results and signals, the judge is told the same, and the verdict and the end are those of the run without them. Desired: also that nothing else is killed. Fails: if a wait fails directly after the program has forked, or if the program is killed (time limit, abort) just when it forks, a variable that was not assigned is taken for the number of the new process, and the process with that number (all processes, if it is -1) is killed when the program ends; if already the first wait fails, the end of the program is reported although it has not ended, or it is never looked at again.", "quantifier": "for all configurations, all sequences of stops, and failures of any number of waits at any places", "why_tests_cant": "needs signals that arrive in the tracing thread between two stops of the program, and uninitialised memory", "anchors": ["dmoj/cptbox/ptproc.cpp:107-182", "dmoj/cptbox/ptproc.cpp:196-224", "dmoj/cptbox/ptproc.cpp:308-354"]}
{"id": "C120", "title": "Clocks that are read while they are written", "statement": "The watchdog reads the time a program has used while the tracing thread adds to it, without a lock. Whatever updates there are and at whichever moments the two fields are read, what is seen is less than a second too little and less than two seconds too much; so a program that is a second above its limit is noticed, and one that is two seconds below is not killed for it; what the tracing thread itself reads is exact. Desired: no program within its limits is killed. Fails: for every limit of a second or more there is a moment (between the two writes of a carry) at which a program that has used no more than the limit is killed; and if the nanoseconds of the time of the start are written first, one that has just been started is, as its wall clock time then is that since the machine was started.", "quantifier": "for all starting values, all sequences of updates, all pairs of moments of reading, both orders of reading and all limits", "why_tests_cant": "needs reads by one thread between two machine instructions of another", "anchors": ["dmoj/cptbox/ptbox.h:79-122", "dmoj/cptbox/ptproc.cpp:31-43", "dmoj/cptbox/ptproc.cpp:121-164", "dmoj/cptbox/tracer.py:331-352"]}
{"id": "C121", "title": "A request by signal may come at any moment", "statement": "An update of the list of problems can be asked for by the signal SIGUSR2, whose handler runs in the main thread between any two of its instructions, by the server for the API and by the observer of the directories. Desired: the request is served and the judge goes on. Holds exactly as long as no signal arrives while the main thread is itself between taking and giving back the lock of the event (in the handler of an earlier signal, or while the judge stops): then the main thread gets back to its work and a list is begun after every request, however the threads are scheduled as long as each goes on now and then, and the updater of a judge that stops ends. Fails otherwise: the lock is not reentrant, the main thread waits for itself for ever, no list is sent any more, and the threads of the API and the observer are stuck as well; two signals in a row may do it, or one while the judge stops.", "quantifier": "for all interleavings of signals, requests of any number of threads, the updater and the end of the judge", "why_tests_cant": "needs a signal between two particular instructions of the library, and all interleavings of several threads", "anchors": ["dmoj/judge.py:76-110", "dmoj/judge.py:264-272", "dmoj/judge.py:611-616", "dmoj/control.py:7-18", "dmoj/monitor.py:56-60"]}
{"id": "C122", "title": "The server for the API answers, and lets the judge stop", "statement": "The server for the API serves one connection after the other, in a thread of its own, and the judge that stops waits for it. Desired: every request is answered rightly (200 and one update for POST /update/problems, an error otherwise), in the order of the connections, whatever other clients do; and a judge that stops, ends. Holds: what is answered is right, in order, at most once, no request is lost, the updates are as many as the answers that promise one; after the stop at most the connection being served is still answered. All are served, and the judge that stops gets past the server, exactly as long as no client that was accepted stays silent. Fails otherwise: a single client that connects and says nothing keeps all others from being answered, and keeps a stopping judge from ending until it is interrupted again.", "quantifier": "for all clients, interleavings of what they do with the server and the end of the judge", "why_tests_cant": "all interleavings of any number of clients with two threads; that something never happens", "anchors": ["dmoj/judge.py:618-645", "dmoj/control.py:4-22"]}
{"id": "C123", "title": "The title of a judge's process tells which judge it is and which server it is for", "statement": "An administrator tells the judges on a machine apart by the titles of their processes. The server is shown as host and port, with brackets around an address of IPv6 and an s for TLS. No two servers look alike, whatever the hosts; the port is what comes after the last colon. Two titles are the same exactly if the judges have the same name, host, port and kind of connection, as long as no host has a space in it. Fails otherwise: with spaces in what is given for the host two different judges may have one title.", "quantifier": "for all names of judges, hosts, ports and kinds of connection", "why_tests_cant": "injectivity over all pairs of texts and numbers", "anchors": ["dmoj/judge.py:560-564", "dmoj/judge.py:598"]}
