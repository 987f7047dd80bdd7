{
 "claims": [
  {
   "property": "C01",
   "status": "proved",
   "theorems": [
    "Verif.Props.C01_charClasses",
    "Verif.Props.C01_standard_spec",
    "Verif.Props.C01_standard_refl",
    "Verif.Props.C01_standard_symm",
    "Verif.Props.C01_standard_trans",
    "Verif.Props.C01_standard_pad",
    "Verif.Props.C01_standard_runs",
    "Verif.Props.C01_standard_token"
   ],
   "note": ""
  },
  {
   "property": "C02",
   "status": "proved",
   "theorems": [
    "Verif.Props.C02_sorted_lines",
    "Verif.Props.C02_sorted_whitespace",
    "Verif.Props.C02_unordered",
    "Verif.Props.C02_sorted_error"
   ],
   "note": ""
  },
  {
   "property": "C03",
   "status": "proved",
   "theorems": [
    "Verif.Props.C03_easy_spec"
   ],
   "note": ""
  },
  {
   "property": "C04",
   "status": "proved",
   "theorems": [
    "Verif.Props.C04_rstripped_spec",
    "Verif.Props.C04_rstripped_filter_spec",
    "Verif.Props.C04_rstripped_equivalence"
   ],
   "note": ""
  },
  {
   "property": "C05",
   "status": "proved",
   "theorems": [
    "Verif.Props.C05_identical_spec"
   ],
   "note": ""
  },
  {
   "property": "C06",
   "status": "proved",
   "theorems": [
    "Verif.Props.C06_linecount_spec",
    "Verif.Props.C06_linecount_range"
   ],
   "note": ""
  },
  {
   "property": "C07",
   "status": "proved",
   "theorems": [
    "Verif.Props.C07_float_structure",
    "Verif.Props.C07_float_total",
    "Verif.Props.C07_float_bad_mode",
    "Verif.Props.C07_nan_rejected",
    "Verif.Props.C07_nan_output_rejected",
    "Verif.Props.C07_absolute_exact",
    "Verif.Props.C07_relative_exact",
    "Verif.Props.C07_default_exact",
    "Verif.Props.C07_infinity",
    "Verif.Props.C07_precision"
   ],
   "note": ""
  },
  {
   "property": "C08",
   "status": "proved",
   "theorems": [
    "Verif.Props.C08_main_code",
    "Verif.Props.C08_ac_iff",
    "Verif.Props.C08_readable",
    "Verif.Props.C08_readable_shape"
   ],
   "note": ""
  },
  {
   "property": "C09",
   "status": "partial",
   "theorems": [
    "Verif.Props.C09_error_not_checked",
    "Verif.Props.C09_checked",
    "Verif.Props.C09_ac_iff",
    "Verif.Props.C09_flags_kept",
    "Verif.Props.C09_feedback",
    "Verif.Props.C09_linecount_fails"
   ],
   "note": "The code does not have the full property; counterexamples: C09_linecount_fails (fails for a checker that asks to be run on errors: with the linecount checker, a process that crashed on a case with an empty reference output gets all points of it, and is not marked wrong). The other theorems say what holds."
  },
  {
   "property": "C10",
   "status": "partial",
   "theorems": [
    "Verif.Props.C10_default",
    "Verif.Props.C10_testlib",
    "Verif.Props.C10_coci",
    "Verif.Props.C10_partial_credit",
    "Verif.Props.C10_peg_partial",
    "Verif.Props.C10_peg_overaward_fails"
   ],
   "note": "The code does not have the full property; counterexamples: C10_peg_overaward_fails (The peg protocol can award more than the value of the case: feedback `3` over `2`). The other theorems say what holds."
  },
  {
   "property": "C11",
   "status": "proved",
   "theorems": [
    "Verif.Props.C11_stream",
    "Verif.Props.C11_complete",
    "Verif.Props.C11_compile_error",
    "Verif.Props.C11_numbers"
   ],
   "note": ""
  },
  {
   "property": "C12",
   "status": "proved",
   "theorems": [
    "Verif.Props.C12_results",
    "Verif.Props.C12_skip_iff"
   ],
   "note": ""
  },
  {
   "property": "C13",
   "status": "partial",
   "theorems": [
    "Verif.Props.C13_abort",
    "Verif.Props.C13_abort_only",
    "Verif.Props.C13_request_partial",
    "Verif.Props.C13_ignored_fails"
   ],
   "note": "The code does not have the full property; counterexamples: C13_ignored_fails (An abort requested while the remaining cases are short-circuited is ignored: the grading ends normally). The other theorems say what holds."
  },
  {
   "property": "C14",
   "status": "proved",
   "theorems": [
    "Verif.Props.C14_positions",
    "Verif.Props.C14_nested_rejected",
    "Verif.Props.C14_positions_range",
    "Verif.Props.C14_batch_agrees"
   ],
   "note": ""
  },
  {
   "property": "C15",
   "status": "proved",
   "theorems": [
    "Verif.Props.C15_pretests"
   ],
   "note": ""
  },
  {
   "property": "C16",
   "status": "proved",
   "theorems": [
    "Verif.Props.C16_conserved",
    "Verif.Props.C16_prefix",
    "Verif.Props.C16_delivers"
   ],
   "note": ""
  },
  {
   "property": "C17",
   "status": "proved",
   "theorems": [
    "Verif.Props.C17_order"
   ],
   "note": ""
  },
  {
   "property": "C18",
   "status": "proved",
   "theorems": [
    "Verif.Props.C18_results",
    "Verif.Props.C18_packets",
    "Verif.Props.C18_protocol_needed"
   ],
   "note": ""
  },
  {
   "property": "C19",
   "status": "proved",
   "theorems": [
    "Verif.Props.C19_one",
    "Verif.Props.C19_worker",
    "Verif.Props.C19_freed",
    "Verif.Props.C19_progress",
    "Verif.Props.C19_started"
   ],
   "note": ""
  },
  {
   "property": "C20",
   "status": "partial",
   "theorems": [
    "Verif.Props.C20_worker_protocol",
    "Verif.Props.C20_terminal",
    "Verif.Props.C20_exactly_one_fails",
    "Verif.Props.C20_unserialisable_fails"
   ],
   "note": "The code does not have the full property; counterexamples: C20_exactly_one_fails (Exactly one terminal packet is not guaranteed: a worker that dies after reporting the end of grading and before saying BYE yields both a grading-end and an internal-error packet) C20_unserialisable_fails (A result that cannot be serialised leaves its submission without any terminal packet: the flush fails, and so does the flush of the internal-error packet meant to report it). The other theorems say what holds."
  },
  {
   "property": "C21",
   "status": "proved",
   "theorems": [
    "Verif.Props.C21_no_lost_update",
    "Verif.Props.C21_no_spurious"
   ],
   "note": ""
  },
  {
   "property": "C22",
   "status": "proved",
   "theorems": [
    "Verif.Props.C22_sleeps",
    "Verif.Props.C22_backoff",
    "Verif.Props.C22_reset"
   ],
   "note": ""
  },
  {
   "property": "C23",
   "status": "partial",
   "theorems": [
    "Verif.Props.C23_header",
    "Verif.Props.C23_round_trip",
    "Verif.Props.C23_interleaving",
    "Verif.Props.C23_partial_write_fails"
   ],
   "note": "The code does not have the full property; counterexamples: C23_partial_write_fails (Complete writes matter and are not ensured: the socket file is unbuffered, and a `send` that takes only part of a line makes the peer read different packets (here: two packets sent, and the peer misreads the second one's header as the end of the first, then gives up)). The other theorems say what holds."
  },
  {
   "property": "C24",
   "status": "partial",
   "theorems": [
    "Verif.Props.C24_ack",
    "Verif.Props.C24_ack_first",
    "Verif.Props.C24_unknown",
    "Verif.Props.C24_ping",
    "Verif.Props.C24_abort",
    "Verif.Props.C24_ends",
    "Verif.Props.C24_query_idle_fails",
    "Verif.Props.C24_survives_partial"
   ],
   "note": "The code does not have the full property; counterexamples: C24_query_idle_fails (A query for the current submission while one is running is answered with its id; while none is running it ends the judge process). The other theorems say what holds."
  },
  {
   "property": "C25",
   "status": "proved",
   "theorems": [
    "Verif.Props.C25_no_cr",
    "Verif.Props.C25_ends",
    "Verif.Props.C25_content",
    "Verif.Props.C25_unchanged",
    "Verif.Props.C25_idempotent",
    "Verif.Props.C25_newline",
    "Verif.Props.C25_conventions",
    "Verif.Props.C25_binary"
   ],
   "note": ""
  },
  {
   "property": "C26",
   "status": "partial",
   "theorems": [
    "Verif.Problem.C26_entries_partial",
    "Verif.Problem.C26_no_case",
    "Verif.Problem.C26_accepted",
    "Verif.Problem.C26_no_conflict",
    "Verif.Problem.C26_batch_zero_fails",
    "Verif.Problem.C26_merge_fails",
    "Verif.Problem.C26_duplicate_fails"
   ],
   "note": "The code does not have the full property; counterexamples: C26_batch_zero_fails (fails for batch 0: two files of batch 0 do not become one batch but two plain cases) C26_merge_fails (fails when a plain case is numbered like a batch: its file becomes part of the batch) C26_duplicate_fails (fails when two input files have the same ids: the earlier one is dropped silently). The other theorems say what holds."
  },
  {
   "property": "C27",
   "status": "partial",
   "theorems": [
    "Verif.Props.C27_at_most_once",
    "Verif.Props.C27_explicit",
    "Verif.Props.C27_output_file",
    "Verif.Props.C27_no_files",
    "Verif.Props.C27_same_run",
    "Verif.Props.C27_freed",
    "Verif.Props.C27_failed_run_fails"
   ],
   "note": "The code does not have the full property; counterexamples: C27_failed_run_fails (A failing generator is reported only once: the access that ran it raises, the next one answers with the output of the failed run). The other theorems say what holds."
  },
  {
   "property": "C28",
   "status": "proved",
   "theorems": [
    "Verif.Props.C28_lookup"
   ],
   "note": ""
  },
  {
   "property": "C29",
   "status": "partial",
   "theorems": [
    "Verif.Config.C29_nearest",
    "Verif.Config.C29_missing",
    "Verif.Config.C29_empty_parent",
    "Verif.Config.C29_null_hides",
    "Verif.Config.C29_defaults",
    "Verif.Config.C29_get_partial",
    "Verif.Config.C29_get_default",
    "Verif.Config.C29_get_falsy_fails",
    "Verif.Config.C29_attr",
    "Verif.Config.C29_attr_dashed",
    "Verif.Config.C29_dashed_own_fails",
    "Verif.Config.C29_iter",
    "Verif.Config.C29_iter_inherits",
    "Verif.Config.C29_items_partial",
    "Verif.Config.C29_items_fails",
    "Verif.Config.C29_add_fails"
   ],
   "note": "The code does not have the full property; counterexamples: C29_get_falsy_fails (fails for `get` with a value that counts as false: `cached: false` reads as the default `True`) C29_dashed_own_fails (fails for the dashed spelling: an own `time-limit` loses against an enclosing `time_limit`) C29_items_fails (fails for entries with a dynamic key: going through them gives the old value, and the code as an entry of its own) C29_add_fails (fails for the sum of two lists: it has the elements of both, but these no longer see the settings around them). The other theorems say what holds."
  },
  {
   "property": "C30",
   "status": "partial",
   "theorems": [
    "Verif.Config.C30_once_partial",
    "Verif.Config.C30_lazy",
    "Verif.Config.C30_stored_partial",
    "Verif.Config.C30_failed",
    "Verif.Config.C30_both_fails",
    "Verif.Config.C30_plus_name_fails"
   ],
   "note": "The code does not have the full property; counterexamples: C30_both_fails (fails when a node has both `k++` and `k+`: the second lookup of `k` runs code again) C30_plus_name_fails (fails when names ending in `+` are themselves looked up: `k+` is evaluated twice). The other theorems say what holds."
  },
  {
   "property": "C31",
   "status": "partial",
   "theorems": [
    "Verif.Props.C31_root_partial",
    "Verif.Props.C31_unknown",
    "Verif.Props.C31_stale_fails"
   ],
   "note": "The code does not have the full property; counterexamples: C31_stale_fails (A problem that has disappeared from all roots is still \"found\" in its old place). The other theorems say what holds."
  },
  {
   "property": "C32",
   "status": "partial",
   "theorems": [
    "Verif.Path.C32_absolute",
    "Verif.Path.C32_relative",
    "Verif.Path.C32_canonical",
    "Verif.Path.C32_idempotent",
    "Verif.Path.C32_pipe_fails"
   ],
   "note": "The code does not have the full property; counterexamples: C32_pipe_fails (fails when the base \"directory\" is not a path (a descriptor of a pipe): `..` can remain). The other theorems say what holds."
  },
  {
   "property": "C33",
   "status": "proved",
   "theorems": [
    "Verif.Path.C33_write"
   ],
   "note": ""
  },
  {
   "property": "C34",
   "status": "partial",
   "theorems": [
    "Verif.Isolate.C34_sound",
    "Verif.Isolate.C34_otherwise",
    "Verif.Isolate.C34_complete",
    "Verif.Isolate.C34_table_partial",
    "Verif.Isolate.C34_opens",
    "Verif.Isolate.C34_statfs_fails"
   ],
   "note": "The code does not have the full property; counterexamples: C34_statfs_fails (fails for `statfs` and `statfs64`: they take a path and are let through unchecked). The other theorems say what holds."
  },
  {
   "property": "C35",
   "status": "proved",
   "theorems": [
    "Verif.Isolate.C35_kill",
    "Verif.Isolate.C35_kill_exact",
    "Verif.Isolate.C35_kill_groups",
    "Verif.Isolate.C35_prlimit",
    "Verif.Isolate.C35_prctl",
    "Verif.Isolate.C35_table"
   ],
   "note": ""
  },
  {
   "property": "C36",
   "status": "partial",
   "theorems": [
    "Verif.Sandbox.C36_filter",
    "Verif.Sandbox.C36_exits",
    "Verif.Syscalls.C36_default",
    "Verif.Syscalls.C36_listed",
    "Verif.Syscalls.C36_whitelist_partial",
    "Verif.Syscalls.C36_whitelist_fails",
    "Verif.Syscalls.C36_above",
    "Verif.Syscalls.C36_negative",
    "Verif.Syscalls.C36_negative_fails",
    "Verif.Syscalls.C36_by_name",
    "Verif.Syscalls.C36_unknown",
    "Verif.Syscalls.C36_kernel_list"
   ],
   "note": "The code does not have the full property; counterexamples: C36_whitelist_fails (fails for a table with an ambiguous number: an unconditional permission for its first name hides the check of its second) C36_negative_fails (fails for negative numbers: Python's negative indices make the callback of number 568+n decide. (The kernel knows no negative numbers, so nothing is executed.)). The other theorems say what holds."
  },
  {
   "property": "C37",
   "status": "partial",
   "theorems": [
    "Verif.Monitor.C37_seccomp_forbidden",
    "Verif.Monitor.C37_unreadable",
    "Verif.Monitor.C37_seccomp_permitted",
    "Verif.Monitor.C37_ptrace_forbidden_partial",
    "Verif.Monitor.C37_ptrace_permitted_partial",
    "Verif.Monitor.C37_checking",
    "Verif.Monitor.C37_unchecked",
    "Verif.Monitor.C37_exit_reason",
    "Verif.Monitor.C37_clone_fails",
    "Verif.Monitor.C37_stdouterr_fails",
    "Verif.Monitor.C37_stdouterr"
   ],
   "note": "The code does not have the full property; counterexamples: C37_clone_fails (Without seccomp filtering, after a clone the tracer takes entries for exits: a call forbidden by the policy (here number 41, `socket`; everything but `clone`, 56, is forbidden) is restarted unchanged. The history: initial stop, exec, clone (entry, clone event, exit), then the entry of the forbidden call) C37_stdouterr_fails (A call limited to the standard output streams and used on another descriptor is reported and the group killed, but the thread is restarted as well. No policy in the repository uses this handler). The other theorems say what holds."
  },
  {
   "property": "C38",
   "status": "proved",
   "theorems": [
    "Verif.ReadStr.C38_exact",
    "Verif.ReadStr.C38_too_long",
    "Verif.ReadStr.C38_complete",
    "Verif.ReadStr.C38_complete_words",
    "Verif.ReadStr.C38_answers",
    "Verif.ReadStr.C38_mode"
   ],
   "note": ""
  },
  {
   "property": "C39",
   "status": "partial",
   "theorems": [
    "Verif.ReadStr.C39_pages_partial",
    "Verif.ReadStr.C39_short_partial",
    "Verif.ReadStr.C39_words_fails",
    "Verif.ReadStr.C39_large_page_fails"
   ],
   "note": "The code does not have the full property; counterexamples: C39_words_fails (fails for word reads: a path of 4096 or more bytes makes the routine write eight bytes at offset 4096 of an allocation of 4098) C39_large_page_fails (fails for 64 KiB pages: the first read is not limited by the size of the buffer). The other theorems say what holds."
  },
  {
   "property": "C40",
   "status": "proved",
   "theorems": [
    "Verif.Path.C40_decode",
    "Verif.Path.C40_cwd"
   ],
   "note": ""
  },
  {
   "property": "C41",
   "status": "proved",
   "theorems": [
    "Verif.Time.C41_add",
    "Verif.Time.C41_sub",
    "Verif.Time.C41_total",
    "Verif.Time.C41_monotone",
    "Verif.Time.C41_wall"
   ],
   "note": ""
  },
  {
   "property": "C42",
   "status": "proved",
   "theorems": [
    "Verif.Props.C42_flag_bits",
    "Verif.Props.C42_clean_iff",
    "Verif.Props.C42_mono"
   ],
   "note": ""
  },
  {
   "property": "C43",
   "status": "partial",
   "theorems": [
    "Verif.Communicate.C43_order",
    "Verif.Communicate.C43_sent",
    "Verif.Communicate.C43_sent_all",
    "Verif.Communicate.C43_returned",
    "Verif.Communicate.C43_buffered",
    "Verif.Communicate.C43_raised",
    "Verif.Communicate.C43_stdout",
    "Verif.Communicate.C43_stderr_partial",
    "Verif.Communicate.C43_stderr_fails",
    "Verif.Communicate.C43_registered",
    "Verif.Communicate.C43_waits",
    "Verif.Communicate.C43_progress",
    "Verif.Communicate.C43_limits"
   ],
   "note": "The code does not have the full property; counterexamples: C43_stderr_fails (A process which closes its standard output and then writes more than the limit to its standard error makes the call end with a `ValueError`, not with the output-limit error). The other theorems say what holds."
  },
  {
   "property": "C44",
   "status": "partial",
   "theorems": [
    "Verif.Symlink.C44_inside_partial",
    "Verif.Symlink.C44_complete",
    "Verif.Symlink.C44_sibling_fails",
    "Verif.Symlink.C44_links",
    "Verif.Symlink.C44_touched",
    "Verif.Symlink.C44_refused"
   ],
   "note": "The code does not have the full property; counterexamples: C44_sibling_fails (A link can be made outside of the directory). The other theorems say what holds."
  },
  {
   "property": "C45",
   "status": "partial",
   "theorems": [
    "Verif.Cache.C45_base_partial",
    "Verif.Cache.C45_gcc_partial",
    "Verif.Cache.C45_base_fails",
    "Verif.Cache.C45_gcc_fails"
   ],
   "note": "The code does not have the full property; counterexamples: C45_base_fails (Different requests for the same executor share an entry: another problem and source) C45_gcc_fails (Different requests for the same executor, problem and options share an entry: text moved from the end of one auxiliary file to the beginning of the next, or a file under another name). The other theorems say what holds."
  },
  {
   "property": "C46",
   "status": "partial",
   "theorems": [
    "Verif.Cache.C46_capacity",
    "Verif.Cache.C46_program",
    "Verif.Cache.C46_kept",
    "Verif.Cache.C46_held_partial",
    "Verif.Cache.C46_evicted_fails",
    "Verif.Cache.C46_hit",
    "Verif.Cache.C46_present",
    "Verif.Cache.C46_least_recent"
   ],
   "note": "The code does not have the full property; counterexamples: C46_evicted_fails (An executor obtained from the cache, still held, whose directory has been deleted). The other theorems say what holds."
  },
  {
   "property": "C47",
   "status": "proved",
   "theorems": [
    "Verif.BF.C47_accepts",
    "Verif.BF.C47_brackets",
    "Verif.BF.C47_frame",
    "Verif.BF.C47_parts",
    "Verif.BF.C47_meaning",
    "Verif.BF.C47_statements",
    "Verif.BF.C47_memory"
   ],
   "note": ""
  },
  {
   "property": "C48",
   "status": "partial",
   "theorems": [
    "Verif.Interactor.C48_nothing_lost",
    "Verif.Interactor.C48_order_partial",
    "Verif.Interactor.C48_order_fails",
    "Verif.Interactor.C48_lines",
    "Verif.Interactor.C48_tokens",
    "Verif.Interactor.C48_words_partial",
    "Verif.Interactor.C48_stripped",
    "Verif.Interactor.C48_blank_fails",
    "Verif.Interactor.C48_delim",
    "Verif.Interactor.C48_delim_line",
    "Verif.Interactor.C48_delim_fails",
    "Verif.Interactor.C48_int_unique",
    "Verif.Interactor.C48_int",
    "Verif.Interactor.C48_int_else_partial",
    "Verif.Interactor.C48_int_eof",
    "Verif.Interactor.C48_internal_fails",
    "Verif.Interactor.C48_float",
    "Verif.Interactor.C48_float_else_partial",
    "Verif.Interactor.C48_float_ok",
    "Verif.Interactor.C48_float_eof"
   ],
   "note": "The code does not have the full property; counterexamples: C48_order_fails (`a b`, `c`: a token, then a line, then a token give `a`, `c`, `b`) C48_blank_fails (A blank line is a token, and blanks before the only word of a line are part of the token) C48_delim_fails (The empty field after a last delimiter is lost, and an empty delimiter is not refused) C48_internal_fails (A token that is not text ends the case in an internal error instead of a wrong answer; so does a bound too large to be written in the message). The other theorems say what holds."
  },
  {
   "property": "C49",
   "status": "partial",
   "theorems": [
    "Verif.Commands.C49_lookup",
    "Verif.Commands.C49_listed",
    "Verif.Commands.C49_resubmit_fails",
    "Verif.Commands.C49_stable",
    "Verif.Commands.C49_submit_id",
    "Verif.Commands.C49_refused",
    "Verif.Commands.C49_rejudge",
    "Verif.Commands.C49_rejudge_id_fails",
    "Verif.Commands.C49_checked_partial",
    "Verif.Commands.C49_language",
    "Verif.Commands.C49_guessed_fails",
    "Verif.Commands.C49_limit",
    "Verif.Commands.C49_limit_fails",
    "Verif.Commands.C49_source",
    "Verif.Commands.C49_problems"
   ],
   "note": "The code does not have the full property; counterexamples: C49_resubmit_fails (Resubmitting is refused always: the check for the problem looks at something that is never a problem's name) C49_rejudge_id_fails (But it is graded under the id of the latest submission) C49_guessed_fails (With the language guessed from the file name, an unknown language and negative limits are accepted) C49_limit_fails (The limit is documented as giving the most recent ones, but gives the oldest). The other theorems say what holds."
  },
  {
   "property": "C50",
   "status": "partial",
   "theorems": [
    "Verif.Child.C50_names",
    "Verif.Child.C50_empty_fails",
    "Verif.Child.C50_closefrom",
    "Verif.Child.C50_brute_partial",
    "Verif.Child.C50_brute_fails"
   ],
   "note": "The code does not have the full property; counterexamples: C50_empty_fails (The parser does not recognise only numerals: the empty name (which no directory contains) is taken for descriptor 0) C50_brute_fails (The fallback misses descriptors above the limit (opened before it was lowered)). The other theorems say what holds."
  },
  {
   "property": "C51",
   "status": "proved",
   "theorems": [
    "Verif.Syscalls.C51_listed",
    "Verif.Syscalls.C51_only",
    "Verif.Syscalls.C51_same",
    "Verif.Syscalls.C51_by_id",
    "Verif.Syscalls.C51_by_id_alias",
    "Verif.Syscalls.C51_tables",
    "Verif.Syscalls.C51_abi"
   ],
   "note": ""
  },
  {
   "property": "C52",
   "status": "partial",
   "theorems": [
    "Verif.Props.C52_priority",
    "Verif.Props.C52_nothing_ignored",
    "Verif.Props.C52_protocol_ignores_limits_fails",
    "Verif.Props.C52_default_partial"
   ],
   "note": "The code does not have the full property; counterexamples: C52_protocol_ignores_limits_fails (For checkers and interactors a helper that used more than its limits but exited with a recognised code is silently accepted). The other theorems say what holds."
  },
  {
   "property": "C53",
   "status": "proved",
   "theorems": [
    "Verif.Props.C53_interactive_ac",
    "Verif.Props.C53_interactive_error",
    "Verif.Props.C53_interactive_wrong",
    "Verif.Props.C53_bridged_interactor_error",
    "Verif.Props.C53_bridged_error",
    "Verif.Props.C53_bridged_silent",
    "Verif.Props.C53_bridged_answer",
    "Verif.Props.C53_bridged_default"
   ],
   "note": ""
  },
  {
   "property": "C54",
   "status": "partial",
   "theorems": [
    "Verif.TestSuite.C54_applies",
    "Verif.TestSuite.C54_source_partial",
    "Verif.TestSuite.C54_points_fails",
    "Verif.TestSuite.C54_feedback_fails",
    "Verif.TestSuite.C54_any_points_fails",
    "Verif.TestSuite.C54_missing_fails",
    "Verif.TestSuite.C54_codes",
    "Verif.TestSuite.C54_list",
    "Verif.TestSuite.C54_points",
    "Verif.TestSuite.C54_fraction_fails",
    "Verif.TestSuite.C54_points_refused",
    "Verif.TestSuite.C54_feedback",
    "Verif.TestSuite.C54_defaults",
    "Verif.TestSuite.C54_exit_partial",
    "Verif.TestSuite.C54_exit_any",
    "Verif.TestSuite.C54_last_document"
   ],
   "note": "The code does not have the full property; counterexamples: C54_points_fails (If internal errors are permitted, wrong points for a case go unnoticed: the text of the complaint cannot be made, and the exception counts as a permitted internal error) C54_feedback_fails (Feedback written as a number is never compared: the complaint cannot be made, nor can the complaint about that) C54_any_points_fails (\"Any points\" for a single case makes the test fail whatever the points) C54_missing_fails (An expectation for a case that is never reported is not missed) C54_fraction_fails (Half points in a list are taken for none). The other theorems say what holds."
  },
  {
   "property": "C55",
   "status": "partial",
   "theorems": [
    "Verif.IntPatch.C55_long",
    "Verif.IntPatch.C55_same_partial",
    "Verif.IntPatch.C55_nothing_fails",
    "Verif.IntPatch.C55_unapply",
    "Verif.IntPatch.C55_derived",
    "Verif.IntPatch.C55_instance",
    "Verif.IntPatch.C55_derived_instance",
    "Verif.IntPatch.C55_derived_instance_fails",
    "Verif.IntPatch.C55_equal",
    "Verif.IntPatch.C55_equal_fails"
   ],
   "note": "The code does not have the full property; counterexamples: C55_nothing_fails (`int()` is 0 without the guard and a `TypeError` with it, whatever the real `int` does) C55_derived_instance_fails (But a class derived from the guarded `int` takes every integer for its instance) C55_equal_fails (But a class derived from the guarded `int` compares equal to the real one, and one derived from the real one does not; equality of classes is no longer transitive). The other theorems say what holds."
  },
  {
   "property": "C56",
   "status": "partial",
   "theorems": [
    "Verif.Abi.C56_native",
    "Verif.Abi.C56_compat",
    "Verif.Abi.C56_negative",
    "Verif.Abi.C56_skip",
    "Verif.Abi.C56_replace",
    "Verif.Abi.C56_int80_fails"
   ],
   "note": "The code does not have the full property; counterexamples: C56_int80_fails (The full property fails: 64-bit code may use `int 0x80`. Number 5 then is the 32-bit `open`, while the tracer judges the 64-bit call 5, `fstat`, which the policy allows without looking at its arguments). The other theorems say what holds."
  },
  {
   "property": "C57",
   "status": "partial",
   "theorems": [
    "Verif.Monitor.C57_seccomp",
    "Verif.Monitor.C57_write_back",
    "Verif.Monitor.C57_ptrace_partial",
    "Verif.Monitor.C57_threads_fails"
   ],
   "note": "The code does not have the full property; counterexamples: C57_threads_fails (Two threads with refused calls in flight: the first to return gets the error of the other one, and the other one gets the result of the harmless call). The other theorems say what holds."
  },
  {
   "property": "C58",
   "status": "proved",
   "theorems": [
    "Verif.Monitor.C58_end",
    "Verif.Monitor.C58_signal",
    "Verif.Monitor.C58_trap"
   ],
   "note": ""
  },
  {
   "property": "C59",
   "status": "partial",
   "theorems": [
    "Verif.Child.C59_streams_partial",
    "Verif.Child.C59_only",
    "Verif.Child.C59_clobber_fails"
   ],
   "note": "The code does not have the full property; counterexamples: C59_clobber_fails (Asking for the parent's standard input as output after redirecting input gives the new input). The other theorems say what holds."
  },
  {
   "property": "C60",
   "status": "proved",
   "theorems": [
    "Verif.Child.C60_limits",
    "Verif.Child.C60_nproc",
    "Verif.Child.C60_wall"
   ],
   "note": ""
  },
  {
   "property": "C61",
   "status": "partial",
   "theorems": [
    "Verif.Cache.C61_no_leak_partial",
    "Verif.Cache.C61_failed_fails",
    "Verif.Cache.C61_replaced_fails",
    "Verif.Cache.C61_uncached"
   ],
   "note": "The code does not have the full property; counterexamples: C61_failed_fails (The directory of a failed compilation for the cache is never removed: it belongs to no executor) C61_replaced_fails (The directory of a cached executor whose executable was lost is left behind when its key is compiled again). The other theorems say what holds."
  },
  {
   "property": "C62",
   "status": "partial",
   "theorems": [
    "Verif.Sandbox.C62_permitted_partial",
    "Verif.Sandbox.C62_escape_partial",
    "Verif.Sandbox.C62_opens_partial",
    "Verif.Sandbox.C62_paths_partial",
    "Verif.Sandbox.C62_x32_fails",
    "Verif.Sandbox.C62_int80_fails"
   ],
   "note": "The code does not have the full property; counterexamples: C62_x32_fails (fails for the x32 ABI (if the kernel has it): the tracer looks at the string at the lower half of the address, the kernel opens the one at the whole address, which need not be permitted) C62_int80_fails (fails for the 32-bit entry from 64-bit code: the tracer takes 32-bit `open` (5) for 64-bit `fstat` (5). The kernel opens whatever file is named). The other theorems say what holds."
  },
  {
   "property": "C63",
   "status": "partial",
   "theorems": [
    "Verif.Policy.C63_effective",
    "Verif.Policy.C63_decision",
    "Verif.Policy.C63_escape",
    "Verif.Policy.C63_tree",
    "Verif.Policy.C63_plain",
    "Verif.Policy.C63_names",
    "Verif.Policy.C63_paths_partial",
    "Verif.Policy.C63_tcl_fails",
    "Verif.Policy.C63_coffee_fails",
    "Verif.Policy.C63_opens",
    "Verif.Policy.C63_exec",
    "Verif.Policy.C63_procctl",
    "Verif.Policy.C63_fork",
    "Verif.Policy.C63_clone_fails"
   ],
   "note": "The code does not have the full property; counterexamples: C63_tcl_fails (With the TCL executor a program learns which files exist anywhere: `access` is allowed without a check) C63_coffee_fails (With the COFFEE executor `statx` is allowed without a check) C63_clone_fails (But every program of every language may call `clone`, with whatever flags: it can start processes all the same). The other theorems say what holds."
  },
  {
   "property": "C64",
   "status": "partial",
   "theorems": [
    "Verif.FsPatterns.C64_join",
    "Verif.FsPatterns.C64_empty",
    "Verif.FsPatterns.C64_dir",
    "Verif.FsPatterns.C64_read",
    "Verif.FsPatterns.C64_write",
    "Verif.FsPatterns.C64_hidden",
    "Verif.FsPatterns.C64_process",
    "Verif.FsPatterns.C64_checked",
    "Verif.FsPatterns.C64_sibling_fails",
    "Verif.FsPatterns.C64_raises",
    "Verif.FsPatterns.C64_brace_fails",
    "Verif.FsPatterns.C64_command_fails",
    "Verif.FsPatterns.C64_own",
    "Verif.FsPatterns.C64_swift_fails",
    "Verif.FsPatterns.C64_objc_fails",
    "Verif.FsPatterns.C64_dart_perl",
    "Verif.FsPatterns.C64_php",
    "Verif.FsPatterns.C64_php_fails"
   ],
   "note": "The code does not have the full property; counterexamples: C64_sibling_fails (The directory of the submission is not closed by a slash: a directory whose name merely begins with it is readable as well) C64_brace_fails (So with any brace in the directory: patterns are formatted, but the directory is only escaped for `re`) C64_command_fails (And with a command of BASH that is not installed (`find_executable` gives `None`)) C64_swift_fails (Swift's `/lib` is not closed by a slash: any top-level name beginning so is readable) C64_objc_fails (Programs in Objective-C read the command line of every process besides the common places, and nothing else: what other submissions and the judge itself were started with is not out of reach) C64_php_fails (PHP programs read ini files of anyone: any path through a directory `conf.d`, where the dot even stands for any character). The other theorems say what holds."
  },
  {
   "property": "C65",
   "status": "partial",
   "theorems": [
    "Verif.Watchdog.C65_no_false",
    "Verif.Watchdog.C65_late",
    "Verif.Watchdog.C65_flagged",
    "Verif.Watchdog.C65_watched",
    "Verif.Watchdog.C65_enforced",
    "Verif.Watchdog.C65_unlimited",
    "Verif.Watchdog.C65_ends",
    "Verif.Watchdog.C65_failed",
    "Verif.Watchdog.C65_bounded",
    "Verif.Watchdog.C65_stray_partial",
    "Verif.Watchdog.C65_race_fails",
    "Verif.Watchdog.C65_group_fails",
    "Verif.Watchdog.C65_stray_fails"
   ],
   "note": "The code does not have the full property; counterexamples: C65_race_fails (The hypothesis that the watchdog has finished is needed in `C65_flagged`: `kill` comes before `_is_tle = True`, so for a program killed for its wall clock time `wait` can return before the flag is set. The verdict is then a runtime error, killed by signal 9, instead of a time limit exceeded) C65_group_fails (`Found` is needed: when `killpg` fails the watchdog takes its task for done. The program keeps running and from then on nobody watches it, whatever happens) C65_stray_fails (The window of `C65_stray_partial` exists: the watchdog can kill the process id of a program that `wait4` has already reaped, which may be someone else's by then). The other theorems say what holds."
  },
  {
   "property": "C66",
   "status": "partial",
   "theorems": [
    "Verif.Compile.C66_success",
    "Verif.Compile.C66_success_iff",
    "Verif.Compile.C66_error",
    "Verif.Compile.C66_all",
    "Verif.Compile.C66_no_false",
    "Verif.Compile.C66_enforced",
    "Verif.Compile.C66_ends",
    "Verif.Compile.C66_runaway_fails",
    "Verif.Compile.C66_verbose_fails",
    "Verif.Compile.C66_terminal_fails",
    "Verif.Compile.C66_stray_fails"
   ],
   "note": "The code does not have the full property; counterexamples: C66_runaway_fails (After too much output the compilation is over and the executor's directory is removed, but nobody stops the compiler: it runs on, possibly until its time is over) C66_verbose_fails (Too much output is a compile error even if the compiler succeeds: its code is never looked at) C66_terminal_fails (A process that left the compiler's group and keeps the terminal open is not reached: whatever the judge's threads do and however long it takes, the compilation does not end) C66_stray_fails (Between the test of `returncode` and `killpg` the compiler can be reaped: the signal goes to a process id that may be someone else's). The other theorems say what holds."
  },
  {
   "property": "C67",
   "status": "partial",
   "theorems": [
    "Verif.Props.C67_depth",
    "Verif.Props.C67_depth_ok",
    "Verif.Props.C67_update_partial",
    "Verif.Props.C67_sent_partial",
    "Verif.Props.C67_start",
    "Verif.Props.C67_bad_depth",
    "Verif.Props.C67_between",
    "Verif.Props.C67_resolves_partial",
    "Verif.Props.C67_directory_fails",
    "Verif.Props.C67_missing_fails",
    "Verif.Props.C67_reconnect_fails",
    "Verif.Props.C67_deep_missing_fails",
    "Verif.Props.C67_depth_fails",
    "Verif.Props.C67_twice_fails",
    "Verif.Props.C67_string_fails"
   ],
   "note": "The code does not have the full property; counterexamples: C67_directory_fails (A problem whose `init.yml` is a directory is reported to the site, but a submission for it ends in a `KeyError`) C67_missing_fails (A configured root that does not exist, or cannot be listed, keeps every turn of the updater from sending a list, whatever the other roots contain) C67_reconnect_fails (At the start such a root is only warned about and the problems of the other roots are reported; after the first turn of the updater they no longer are, neither by it nor when the judge reconnects, though nothing in the file system changed) C67_deep_missing_fails (A root given with a positive depth that does not exist, or cannot be listed, is not warned about: the judge does not start) C67_depth_fails (An illegal depth is only warned about at the start (`C67_bad_depth`), and the problems of the other roots are reported; but the list of warnings is then deleted, so after the first turn of the updater no list can be sent any more, neither by it nor when the judge reconnects, and no submission (graded in a copy of this process) finds its problem, whatever happens later) C67_twice_fails (A problem that two roots have is reported twice, with two times; only one of the directories is used) C67_string_fails (If `problem_storage_root` is a single string, the roots are the directories in it until the updater first runs, and then it itself: the judge reports other problems, and finds other problems, though nothing in the file system changed). The other theorems say what holds."
  },
  {
   "property": "C68",
   "status": "partial",
   "theorems": [
    "Verif.Props.C68_input_ends",
    "Verif.Props.C68_kept_only_by_output",
    "Verif.Props.C68_verdict",
    "Verif.Props.C68_wrong_fails",
    "Verif.Props.C68_output_fails",
    "Verif.Props.C68_no_early_end",
    "Verif.Props.C68_no_ends",
    "Verif.Props.C68_interactor_gone",
    "Verif.Props.C68_submission_gone",
    "Verif.Props.C68_stuck",
    "Verif.Props.C68_stderr_fails",
    "Verif.Props.C68_interactor_stderr_fails",
    "Verif.Props.C68_finishes"
   ],
   "note": "The code does not have the full property; counterexamples: C68_wrong_fails (A program that waits for an answer when the interactor has found it wrong is not told: whatever happens, it waits until the time limit kills it, and the verdict is that of the time limit) C68_output_fails (The same happens to a program found right that goes on to write more than a pipe holds) C68_stderr_fails (A submission that has filled its standard error is stuck there, whatever the interactor does, until the time limit kills it) C68_interactor_stderr_fails (An interactor that has filled its standard error is stuck there until its own time limit kills it, and the submission is not judged at all). The other theorems say what holds."
  },
  {
   "property": "C69",
   "status": "partial",
   "theorems": [
    "Verif.Props.C69_fault",
    "Verif.Props.C69_quiet",
    "Verif.Props.C69_failed",
    "Verif.Props.C69_cpp",
    "Verif.Props.C69_cpp_shape",
    "Verif.Props.C69_python_shape",
    "Verif.Props.C69_python",
    "Verif.Props.C69_java_partial",
    "Verif.Props.C69_java_fails",
    "Verif.Props.C69_log_fails",
    "Verif.Props.C69_mono_shape",
    "Verif.Props.C69_mono"
   ],
   "note": "The code does not have the full property; counterexamples: C69_java_fails (But it is otherwise the program's choice, and as long as it likes: after the marker, which any program can print to its standard error, comes the text shown) C69_log_fails (A crash log left in the submission's directory by one case makes every later case that fails, for whatever reason, an internal error, even one stopped for a forbidden call). The other theorems say what holds."
  },
  {
   "property": "C70",
   "status": "partial",
   "theorems": [
    "Verif.Props.C70_safe",
    "Verif.Props.C70_none",
    "Verif.Props.C70_first",
    "Verif.Props.C70_strip_partial",
    "Verif.Props.C70_lone",
    "Verif.Props.C70_found_partial",
    "Verif.Props.C70_package",
    "Verif.Props.C70_package_only",
    "Verif.Props.C70_quote_fails",
    "Verif.Props.C70_star_fails",
    "Verif.Props.C70_join_fails",
    "Verif.Props.C70_last_fails",
    "Verif.Props.C70_dollar_fails",
    "Verif.Props.C70_nested_fails"
   ],
   "note": "The code does not have the full property; counterexamples: C70_quote_fails (A quote in a line comment hides the code up to the next quote) C70_star_fails (So does `/*` in a string, up to the end of the next comment) C70_join_fails (A comment as the only separation of two words joins them) C70_last_fails (A last line that is a comment without an end of line is read as code: a package in it rejects the program) C70_dollar_fails (A dollar sign, which Java allows in names, ends the name: a class `A$B` is written to `A.java`, which the compiler then refuses, and a class `$` is not found) C70_nested_fails (A public class inside another class counts as well, even before the main class). The other theorems say what holds."
  },
  {
   "property": "C71",
   "status": "partial",
   "theorems": [
    "Verif.Launch.C71_sees",
    "Verif.Launch.C71_no_leak",
    "Verif.Launch.C71_names",
    "Verif.Launch.C71_starts",
    "Verif.Launch.C71_stdout",
    "Verif.Launch.C71_stderr",
    "Verif.Launch.C71_garbage",
    "Verif.Launch.C71_empty",
    "Verif.Launch.C71_huge",
    "Verif.Launch.C71_config_fails",
    "Verif.Launch.C71_negative_fails"
   ],
   "note": "The code does not have the full property; counterexamples: C71_config_fails (The hypothesis of `C71_stdout` about the configuration is needed: it comes last, so that a problem that asks for unbuffered output does not get it if the configuration gives the variable a value; and with a null for the library the stream is not looked at at all) C71_negative_fails (The bound of `Asked` is needed: a negative size is not refused, it asks for a buffer of almost 2\u2076\u2074 bytes). The other theorems say what holds."
  },
  {
   "property": "C72",
   "status": "partial",
   "theorems": [
    "Verif.Helpers.C72_lookup",
    "Verif.Helpers.C72_grader",
    "Verif.Helpers.C72_grader_list",
    "Verif.Helpers.C72_dynamic_fails",
    "Verif.Helpers.C72_checker_default",
    "Verif.Helpers.C72_checker_string",
    "Verif.Helpers.C72_checker_args",
    "Verif.Helpers.C72_checker_dict",
    "Verif.Helpers.C72_checker_error",
    "Verif.Helpers.C72_checker_args_fails",
    "Verif.Helpers.C72_checker_name_fails",
    "Verif.Helpers.C72_gen_plain",
    "Verif.Helpers.C72_gen_limits",
    "Verif.Helpers.C72_gen_dict",
    "Verif.Helpers.C72_flags_dict",
    "Verif.Helpers.C72_flags_string_fails",
    "Verif.Helpers.C72_gen_invalid",
    "Verif.Helpers.C72_gen_source_fails",
    "Verif.Helpers.C72_cached_fails"
   ],
   "note": "The code does not have the full property; counterexamples: C72_dynamic_fails (A `custom_judge` given by a dynamic key is overlooked, although looking it up gives a value: `in` goes through the keys as they are written) C72_checker_args_fails (A checker given as a dictionary takes `args` from the case or the problem around it if it has none of its own) C72_checker_name_fails (A checker given as a dictionary without a name is not reported as an error of the configuration) C72_flags_string_fails (Flags that are one string are taken apart into its characters: `flags: -O2` gives the three flags `-`, `O` and `2`) C72_gen_source_fails (A generator without `source`, or with a number, is not: there the judge fails with an internal error of another kind (`unwrap` of what is no node)) C72_cached_fails (No declaration turns the caching of a generator off: `cached: false` counts as nothing (`get` gives the default for values that count as false)). The other theorems say what holds."
  },
  {
   "property": "C73",
   "status": "partial",
   "theorems": [
    "Verif.Helpers.C73_lang",
    "Verif.Helpers.C73_sources_partial",
    "Verif.Helpers.C73_single",
    "Verif.Helpers.C73_multi",
    "Verif.Helpers.C73_sources_fails",
    "Verif.Helpers.C73_flags",
    "Verif.Helpers.C73_kept",
    "Verif.Helpers.C73_interactor_limit_fails",
    "Verif.Helpers.C73_signature_lang",
    "Verif.Helpers.C73_signature_partial",
    "Verif.Helpers.C73_signature_dot_fails",
    "Verif.Helpers.C73_signature_header_fails"
   ],
   "note": "The code does not have the full property; counterexamples: C73_sources_fails (The condition of `C73_sources_partial` is needed: of two files of the same name in different directories, the first is silently dropped) C73_interactor_limit_fails (An interactor without a `compiler_time_limit` of its own is compiled without any limit, although its executor has one) C73_signature_dot_fails (The submission really is in the second file: a problem with a dot in its name has its submission and entry point in files without an extension the compiler knows) C73_signature_header_fails (A header called like the file of the submission replaces it: the submission is not compiled at all). The other theorems say what holds."
  },
  {
   "property": "C74",
   "status": "partial",
   "theorems": [
    "Verif.Props.C74_available",
    "Verif.Props.C74_offered",
    "Verif.Props.C74_selftest",
    "Verif.Props.C74_starts",
    "Verif.Props.C74_version",
    "Verif.Props.C74_version_none",
    "Verif.Props.C74_reports",
    "Verif.Props.C74_handshake",
    "Verif.Props.C74_color",
    "Verif.Props.C74_crash_fails",
    "Verif.Props.C74_broken_fails",
    "Verif.Props.C74_connect_fails",
    "Verif.Props.C74_null_fails",
    "Verif.Props.C74_blank_fails"
   ],
   "note": "The code does not have the full property; counterexamples: C74_crash_fails (A test program that prints the message and then crashes passes the self-test) C74_broken_fails (A compiler of C or C++ that cannot be executed only keeps its own executor from being offered, unless self-tests are skipped: then the judge does not start) C74_connect_fails (With other such programs and self-tests skipped the judge starts, but it cannot connect to any site) C74_null_fails (The key `mono` without a value in the configuration keeps the judge from starting) C74_blank_fails (With a blank after the comma the second executor of `-e` is not loaded, and nothing is said about it). The other theorems say what holds."
  },
  {
   "property": "C75",
   "status": "partial",
   "theorems": [
    "Verif.Arch.C75_abi",
    "Verif.Arch.C75_args_partial",
    "Verif.Arch.C75_arg5_fails",
    "Verif.Arch.C75_number",
    "Verif.Arch.C75_refused_partial",
    "Verif.Arch.C75_refused_arm64_fails",
    "Verif.Arch.C75_replaced_partial",
    "Verif.Arch.C75_replaced_arm64_fails",
    "Verif.Arch.C75_execve_seccomp",
    "Verif.Arch.C75_execve_ptrace",
    "Verif.Arch.C75_execve_arm",
    "Verif.Arch.C75_supports"
   ],
   "note": "The code does not have the full property; counterexamples: C75_arg5_fails (On a 32-bit x86 machine the sixth argument is taken to be zero, whatever it is) C75_refused_arm64_fails (On ARM64 the error is written into the register with the number. The call is skipped, but what the program finds as its result is its own first argument: refusing `kill(pid, sig)` looks like a success) C75_replaced_arm64_fails (On ARM64 the program finds the result of the harmless call: its own process number, which looks like a success). The other theorems say what holds."
  },
  {
   "property": "C76",
   "status": "partial",
   "theorems": [
    "Verif.Props.C76_starts",
    "Verif.Props.C76_identity_partial",
    "Verif.Props.C76_identity_fails",
    "Verif.Props.C76_roots",
    "Verif.Props.C76_docker_roots_fails",
    "Verif.Props.C76_testsuite_fails",
    "Verif.Props.C76_watched",
    "Verif.Props.C76_api"
   ],
   "note": "The code does not have the full property; counterexamples: C76_identity_fails (In docker the configuration file may be missing, but then the name and the key of the command line are not used) C76_docker_roots_fails (In docker a configuration file that does not name problem roots keeps the judge from starting, though without the file it would use /problems) C76_testsuite_fails (So it does with the test suite, though the code means to allow it: the test suite does not use those roots). The other theorems say what holds."
  },
  {
   "property": "C77",
   "status": "partial",
   "theorems": [
    "Verif.Props.C77_online",
    "Verif.Props.C77_secret",
    "Verif.Props.C77_dials",
    "Verif.Props.C77_ends",
    "Verif.Props.C77_repeats",
    "Verif.Props.C77_listing_fails",
    "Verif.Props.C77_nameless_fails",
    "Verif.Props.C77_clear_fails"
   ],
   "note": "The code does not have the full property; counterexamples: C77_listing_fails (An `OSError` while listing the problems (C67: one missing root is enough) is taken for a failure of the network: no connection is made, and the judge sleeps in place of reporting the error) C77_nameless_fails (An answer without a name ends the judge) C77_clear_fails (Trusted certificates given without asking for TLS are ignored, even if they cannot be loaded: the key goes out in the clear, to anyone who answers). The other theorems say what holds."
  },
  {
   "property": "C78",
   "status": "partial",
   "theorems": [
    "Verif.Props.C78_output",
    "Verif.Props.C78_faithful",
    "Verif.Props.C78_damage",
    "Verif.Props.C78_length",
    "Verif.Props.C78_negative_fails",
    "Verif.Props.C78_log",
    "Verif.Props.C78_message",
    "Verif.Props.C78_nothing_said"
   ],
   "note": "The code does not have the full property; counterexamples: C78_negative_fails (With a negative `output_prefix_length` the end of the output is cut off twice). The other theorems say what holds."
  },
  {
   "property": "C79",
   "status": "partial",
   "theorems": [
    "Verif.Props.C79_thread_partial",
    "Verif.Props.C79_noAnsi",
    "Verif.Props.C79_thread_fails",
    "Verif.Props.C79_look",
    "Verif.Props.C79_shown"
   ],
   "note": "The code does not have the full property; counterexamples: C79_thread_fails (A Java program that writes a line like that of the sandbox agent chooses its feedback (C69); with a bracket and a name of a colour that does not exist in it, the result of the program is replaced by an internal error). The other theorems say what holds."
  },
  {
   "property": "C80",
   "status": "partial",
   "theorems": [
    "Verif.Props.C80_strip_partial",
    "Verif.Props.C80_text",
    "Verif.Props.C80_clean",
    "Verif.Props.C80_removed",
    "Verif.Props.C80_erase_fails",
    "Verif.Props.C80_colour_fails"
   ],
   "note": "The code does not have the full property; counterexamples: C80_erase_fails (The first letter of a name is lost after an erase: GCC's `main`, or a name with a capital) C80_colour_fails (Part of a colour is left when it has three short parameters or a long second one). The other theorems say what holds."
  },
  {
   "property": "C81",
   "status": "partial",
   "theorems": [
    "Verif.Props.C81_reads",
    "Verif.Props.C81_peak_partial",
    "Verif.Props.C81_threads_fails",
    "Verif.Props.C81_fault",
    "Verif.Props.C81_fault_exit",
    "Verif.Props.C81_others_exit",
    "Verif.Props.C81_asked",
    "Verif.Props.C81_overrun",
    "Verif.Props.C81_innocent"
   ],
   "note": "The code does not have the full property; counterexamples: C81_threads_fails (Memory used by other threads after the main thread has left is not counted: a program with a peak far above its limit is reported below it). The other theorems say what holds."
  },
  {
   "property": "C82",
   "status": "proved",
   "theorems": [
    "Verif.Props.C82_reports",
    "Verif.Props.C82_now",
    "Verif.Props.C82_stream",
    "Verif.Props.C82_complete",
    "Verif.Props.C82_once"
   ],
   "note": ""
  },
  {
   "property": "C83",
   "status": "partial",
   "theorems": [
    "Verif.Main.C83_sane",
    "Verif.Main.C83_warns",
    "Verif.Main.C83_log",
    "Verif.Main.C83_log_width",
    "Verif.Main.C83_log_cut",
    "Verif.Main.C83_log_quoted",
    "Verif.Main.C83_log_kind",
    "Verif.Main.C83_log_percent",
    "Verif.Main.C83_log_fails",
    "Verif.Main.C83_control",
    "Verif.Main.C83_refresh_once",
    "Verif.Main.C83_refresh_stops",
    "Verif.Main.C83_refresh",
    "Verif.Main.C83_event",
    "Verif.Main.C83_ping_fails",
    "Verif.Main.C83_ends_partial",
    "Verif.Main.C83_clean_partial",
    "Verif.Main.C83_disconnect_fails",
    "Verif.Main.C83_monitor_fails",
    "Verif.Main.C83_twice_fails",
    "Verif.Main.C83_update_fails"
   ],
   "note": "The code does not have the full property; counterexamples: C83_log_fails (fails for other names with a `%`: the judge does not start) C83_ping_fails (but fails for servers on the web: the request is never made, as its empty body is a string) C83_disconnect_fails (fails when the site asks to disconnect while a submission is graded: the connection is closed first, so saying that it was aborted ends the process with code 1, and it ends in no other way) C83_monitor_fails (fails when the directories of problems could not be watched: the thread that was not started cannot be waited for, and the code is 1) C83_twice_fails (fails when the judge is interrupted again while it waits for the worker: neither of the other threads is told, and the process never ends) C83_update_fails (fails when the list of problems is being sent at the time, even if nothing is graded). The other theorems say what holds."
  },
  {
   "property": "C84",
   "status": "partial",
   "theorems": [
    "Verif.Props.C84_go_partial",
    "Verif.Props.C84_go_comment_fails",
    "Verif.Props.C84_go_clause_fails",
    "Verif.Props.C84_go_name_fails",
    "Verif.Props.C84_libc_partial",
    "Verif.Props.C84_no_libc",
    "Verif.Props.C84_nasm",
    "Verif.Props.C84_libc_label_fails",
    "Verif.Props.C84_written",
    "Verif.Props.C84_line_ends_unique",
    "Verif.Props.C84_gcc_files",
    "Verif.Props.C84_gcc_dot_fails",
    "Verif.Props.C84_gcc_names_fails",
    "Verif.Props.C84_bom_fails"
   ],
   "note": "The code does not have the full property; counterexamples: C84_go_comment_fails (A comment in Go that shows the beginning of another hides the package clause: a correct program is refused, and one of another package is taken) C84_go_clause_fails (A package clause over two lines is refused though Go allows it, and so is one with a comment in place of the space) C84_go_name_fails (A name that continues outside of ASCII is taken for `main` (here `main\u00e9`, in UTF-8)) C84_libc_label_fails (The list does not end with its line: a label `libc` on the next line asks for the C library) C84_gcc_dot_fails (If the name of the problem has a dot, the file of a C or C++ program has not the extension of the language) C84_gcc_names_fails (And two files given along may get the same name, so that one of them is lost) C84_bom_fails (A Python program with a byte order mark of its own gets a second one, which is part of the text and no valid Python). The other theorems say what holds."
  },
  {
   "property": "C85",
   "status": "partial",
   "theorems": [
    "Verif.Props.C85_executable",
    "Verif.Props.C85_script",
    "Verif.Props.C85_reads",
    "Verif.Props.C85_output_partial",
    "Verif.Props.C85_memory",
    "Verif.Props.C85_asm",
    "Verif.Props.C85_lisp",
    "Verif.Props.C85_turing",
    "Verif.Props.C85_turing_run",
    "Verif.Props.C85_python",
    "Verif.Props.C85_agent",
    "Verif.Props.C85_args",
    "Verif.Props.C85_text",
    "Verif.Props.C85_crash_log_partial",
    "Verif.Props.C85_crash_log_fails",
    "Verif.Props.C85_mono_signal_fails",
    "Verif.Props.C85_configured"
   ],
   "note": "The code does not have the full property; counterexamples: C85_crash_log_fails (That of a Kotlin, Groovy or Scala program is not: the option is cut off along with the class, so no crash is noticed) C85_mono_signal_fails (The executors of .NET ask for a way of starting programs that takes no notice of SIGXCPU, which the machine uses for itself, but are not heard: the signal makes the result \"time limit exceeded\"). The other theorems say what holds."
  },
  {
   "property": "C86",
   "status": "partial",
   "theorems": [
    "Verif.Props.C86_failed",
    "Verif.Props.C86_java",
    "Verif.Props.C86_limits",
    "Verif.Props.C86_warning",
    "Verif.Props.C86_pascal",
    "Verif.Props.C86_cobol",
    "Verif.Props.C86_assembly_partial",
    "Verif.Props.C86_assembly_fails",
    "Verif.Props.C86_silent_fails"
   ],
   "note": "The code does not have the full property; counterexamples: C86_assembly_fails (If either said something that is not text, as an assembler does that quotes the line of a program, compiling is an internal error, though it succeeded) C86_silent_fails (A compiler that says nothing is quoted all the same: with the exception of assembly programs, an empty message is sent). The other theorems say what holds."
  },
  {
   "property": "C87",
   "status": "partial",
   "theorems": [
    "Verif.Props.C87_cut",
    "Verif.Props.C87_session",
    "Verif.Props.C87_lost_fails"
   ],
   "note": "The code does not have the full property; counterexamples: C87_lost_fails (Losing the connection should never end the judge, which could connect again; but it does if the site closes it within the header of a packet, and if it is reset or times out within the content). The other theorems say what holds."
  },
  {
   "property": "C88",
   "status": "partial",
   "theorems": [
    "Verif.Props.C88_found",
    "Verif.Props.C88_assembler",
    "Verif.Props.C88_used",
    "Verif.Props.C88_gcc",
    "Verif.Props.C88_java",
    "Verif.Props.C88_kotlin",
    "Verif.Props.C88_groovy",
    "Verif.Props.C88_scala",
    "Verif.Props.C88_script_fails",
    "Verif.Props.C88_tested",
    "Verif.Props.C88_entries",
    "Verif.Props.C88_whole_partial",
    "Verif.Props.C88_whole_fails",
    "Verif.Props.C88_ruby_fails",
    "Verif.Props.C88_ruby_partial",
    "Verif.Props.C88_objc_fails",
    "Verif.Props.C88_output_partial",
    "Verif.Props.C88_output_fails"
   ],
   "note": "The code does not have the full property; counterexamples: C88_script_fails (fails for a `java` that is a script to start the real one, which should have been looked for: the script itself is configured) C88_whole_fails (fails in general: C is tested for the machine it runs on, and C++ can only be compiled for none in particular, which the configuration then says of both) C88_ruby_fails (fails for Ruby unless `-V` is given: it is never configured, whatever is installed) C88_objc_fails (fails for Objective-C: an entry without which it is not offered is never printed) C88_output_fails (fails otherwise: the line is before the configuration, in what is kept as a file to be read). The other theorems say what holds."
  },
  {
   "property": "C89",
   "status": "partial",
   "theorems": [
    "Verif.Confined.C89_opens_partial",
    "Verif.Confined.C89_hidden_partial",
    "Verif.Confined.C89_process_partial",
    "Verif.Confined.C89_paths_partial",
    "Verif.Confined.C89_int80_fails"
   ],
   "note": "Holds for every open and path call that the filter lets through, except: int 0x80 from 64-bit code and the x32 ABI (C89_int80_fails: the kernel opens /etc/shadow under the policy of every executor), statfs, the calls some executors leave unchecked, and memory changed by another thread between check and execution (Faithful)."
  },
  {
   "property": "C90",
   "status": "partial",
   "theorems": [
    "Verif.Cli.C90_quoting",
    "Verif.Cli.C90_blanks",
    "Verif.Cli.C90_typed",
    "Verif.Cli.C90_unknown",
    "Verif.Cli.C90_submit_status",
    "Verif.Cli.C90_alone",
    "Verif.Cli.C90_list_status",
    "Verif.Cli.C90_ends",
    "Verif.Cli.C90_passed",
    "Verif.Cli.C90_recorded",
    "Verif.Cli.C90_history",
    "Verif.Cli.C90_prompt",
    "Verif.Cli.C90_usage",
    "Verif.Cli.C90_rejected",
    "Verif.Cli.C90_shown",
    "Verif.Cli.C90_quote_fails",
    "Verif.Cli.C90_blank_fails",
    "Verif.Cli.C90_colour_fails",
    "Verif.Cli.C90_interrupt_fails",
    "Verif.Cli.C90_filter_fails",
    "Verif.Cli.C90_resubmit"
   ],
   "note": "The code does not have the full property; counterexamples: C90_quote_fails (fails: an apostrophe typed without a backslash ends the session, and with it the history) C90_blank_fails (fails: a blank quoted by a backslash at the end of a line follows the quoting rules, but is cut off first, which ends the session) C90_colour_fails (fails: a command, or the name of a problem, that looks like the end of a coloured text is not refused: it cannot be complained about, which ends the session; on the command line, the status of such an unknown command is not 127) C90_interrupt_fails (fails: Control-C while `submit` is graded only stops the grading; while `rejudge` is, it ends the session) C90_filter_fails (fails: a filter that is no regular expression is not refused: it ends the session). The other theorems say what holds."
  },
  {
   "property": "C91",
   "status": "partial",
   "theorems": [
    "Verif.Args.C91_words",
    "Verif.Args.C91_checker",
    "Verif.Args.C91_interactor",
    "Verif.Args.C91_custom",
    "Verif.Args.C91_kind",
    "Verif.Args.C91_accepted",
    "Verif.Args.C91_limits",
    "Verif.Args.C91_quoted_fails"
   ],
   "note": "The code does not have the full property; counterexamples: C91_quoted_fails (where it fails. Between quotes of the format string's own a placeholder does not stand for the name: here the program is given a name with quotes around it, which is no file's). The other theorems say what holds."
  },
  {
   "property": "C92",
   "status": "partial",
   "theorems": [
    "Verif.Request.C92_answers",
    "Verif.Request.C92_request",
    "Verif.Request.C92_only",
    "Verif.Request.C92_ends",
    "Verif.Request.C92_history",
    "Verif.Request.C92_stops",
    "Verif.Request.C92_ack_fails",
    "Verif.Request.C92_terminate_fails",
    "Verif.Request.C92_limits_fails",
    "Verif.Request.C92_problem_fails",
    "Verif.Request.C92_id_fails"
   ],
   "note": "The code does not have the full property; counterexamples: C92_ack_fails (where it fails. An acknowledged submission need not be graded or reported: the acknowledgement goes out before the rest of the packet is looked at, and the judge ends) C92_terminate_fails (where it fails. A termination names the submission it is for, but aborts whichever is being graded when it arrives) C92_limits_fails (where it fails. Limits are not looked at: no number at all is a time limit, and so is a negative one) C92_problem_fails (where it fails. A request for a problem whose name looks like the end of a coloured text ends the judge, before it finds that it has no such problem) C92_id_fails (where it fails. So does one whose id is a text: it is acknowledged, and then the name of the worker process cannot be made). The other theorems say what holds."
  },
  {
   "property": "C93",
   "status": "partial",
   "theorems": [
    "Verif.Props.C93_answer",
    "Verif.Props.C93_case",
    "Verif.Props.C93_each",
    "Verif.Props.C93_only",
    "Verif.Props.C93_run",
    "Verif.Props.C93_result",
    "Verif.Props.C93_full",
    "Verif.Props.C93_full_iff",
    "Verif.Props.C93_bounds",
    "Verif.Props.C93_plain",
    "Verif.Props.C93_short",
    "Verif.Props.C93_better_partial",
    "Verif.Props.C93_better_fails"
   ],
   "note": "The code does not have the full property; counterexamples: C93_better_fails (A free case in a batch: a program that is wrong on the first case and on the free one gets 10 points. The same program corrected on the first case gets 5: now the free case is run, and its failure ends the grading). The other theorems say what holds."
  },
  {
   "property": "C94",
   "status": "partial",
   "theorems": [
    "Verif.Props.C94_reads",
    "Verif.Props.C94_bytes",
    "Verif.Props.C94_one",
    "Verif.Props.C94_round",
    "Verif.Props.C94_rfc",
    "Verif.Props.C94_ascii",
    "Verif.Props.C94_says",
    "Verif.Props.C94_apart",
    "Verif.Props.C94_wire",
    "Verif.Props.C94_nan_fails"
   ],
   "note": "The code does not have the full property; counterexamples: C94_nan_fails (Not so in general: a checker that gives NaN as points makes a packet that is no JSON text (RFC 8259), though Python reads it). The other theorems say what holds."
  },
  {
   "property": "C95",
   "status": "partial",
   "theorems": [
    "Verif.Props.C95_case",
    "Verif.Props.C95_one",
    "Verif.Props.C95_each",
    "Verif.Props.C95_run",
    "Verif.Props.C95_result",
    "Verif.Props.C95_award",
    "Verif.Props.C95_broken",
    "Verif.Props.C95_ends",
    "Verif.Props.C95_bounds",
    "Verif.Props.C95_checker_text_fails",
    "Verif.Props.C95_interactor_text_fails"
   ],
   "note": "The code does not have the full property; counterexamples: C95_checker_text_fails (A checker program that accepts, but whose output is not UTF-8: the answer counts as wrong, even if the output is not to be shown) C95_interactor_text_fails (An interactor that accepts, but whose text to be shown is not UTF-8: the grading ends with an internal error). The other theorems say what holds."
  },
  {
   "property": "C96",
   "status": "proved",
   "theorems": [
    "Verif.Props.C96_told",
    "Verif.Props.C96_each",
    "Verif.Props.C96_bounds",
    "Verif.Props.C96_sound",
    "Verif.Props.C96_complete",
    "Verif.Props.C96_now",
    "Verif.Props.C96_rest",
    "Verif.Props.C96_points",
    "Verif.Props.C96_over"
   ],
   "note": ""
  },
  {
   "property": "C97",
   "status": "partial",
   "theorems": [
    "Verif.Props.Start.C97_confined",
    "Verif.Props.Start.C97_connected",
    "Verif.Props.Start.C97_directory_partial",
    "Verif.Props.Start.C97_stack_partial",
    "Verif.Props.Start.C97_judged",
    "Verif.Props.Start.C97_policies",
    "Verif.Props.Start.C97_unseen",
    "Verif.Props.Start.C97_wait",
    "Verif.Props.Start.C97_code",
    "Verif.Props.Start.C97_reported_partial",
    "Verif.Props.Start.C97_missing_fails",
    "Verif.Props.Start.C97_exit",
    "Verif.Props.Start.C97_arguments_partial",
    "Verif.Props.Start.C97_arguments_fails",
    "Verif.Props.Start.C97_directory_fails",
    "Verif.Props.Start.C97_stack_fails"
   ],
   "note": "The code does not have the full property; counterexamples: C97_missing_fails (fails when the program file cannot be executed and the filter is used: the tracer takes the attempt for the start. The judge is told that the program ran and exited with code 205, which is graded as an invalid return of the submission instead of an error of the judge) C97_arguments_fails (an argument with a zero byte is cut off there) C97_directory_fails (fails when the change of directory fails: the program runs in the directory of the judge) C97_stack_fails (fails when the judge's own stack limit is lower: the stack of the program stays limited). The other theorems say what holds."
  },
  {
   "property": "C98",
   "status": "proved",
   "theorems": [
    "Verif.Props.C98_one",
    "Verif.Props.C98_heard",
    "Verif.Props.C98_points"
   ],
   "note": ""
  },
  {
   "property": "C99",
   "status": "partial",
   "theorems": [
    "Verif.Props.C99_patience",
    "Verif.Props.C99_heard",
    "Verif.Props.C99_never_stuck",
    "Verif.Props.C99_silence",
    "Verif.Props.C99_hung",
    "Verif.Props.C99_limits",
    "Verif.Props.C99_usual",
    "Verif.Props.C99_slow_fails"
   ],
   "note": "The code does not have the full property; counterexamples: C99_slow_fails (Where the usual limits go wrong: for every time limit over twenty seconds there is a right program, within its time limit and its wall clock limit and ended by itself, that is never judged. The judge kills its worker and reports an internal error). The other theorems say what holds."
  },
  {
   "property": "C100",
   "status": "partial",
   "theorems": [
    "Verif.Props.C100_refines",
    "Verif.Props.C100_only_asked",
    "Verif.Props.C100_one_more",
    "Verif.Props.C100_told",
    "Verif.Props.C100_killed_partial",
    "Verif.Props.C100_no_verdict",
    "Verif.Props.C100_hangup",
    "Verif.Props.C100_window_fails",
    "Verif.Props.C100_compile_fails",
    "Verif.Props.C100_lost_fails",
    "Verif.Props.C100_error_fails"
   ],
   "note": "The code does not have the full property; counterexamples: C100_window_fails (A request between the start of a program and the assignment of `_current_proc` (or any time between the end of the program of the case before and that) does not reach the program: it lives on, and nothing is told, until it ends by itself or for its limits) C100_compile_fails (A request while the submission is compiled reaches nothing either: after all of it is dealt with, the first program is started all the same) C100_lost_fails (A request after the last case that is graded is lost: the grading is told to have ended, although cases were left) C100_error_fails (An abort can be reported as an internal error: if grading the case of a killed program fails, that is what is told). The other theorems say what holds."
  },
  {
   "property": "C101",
   "status": "partial",
   "theorems": [
    "Verif.Files.C101_opens_partial",
    "Verif.Files.C101_beside",
    "Verif.Files.C101_below_partial",
    "Verif.Files.C101_dotdot_fails",
    "Verif.Files.C101_race_fails"
   ],
   "note": "The code does not have the full property; counterexamples: C101_dotdot_fails (fails for links: `/usr/lib/jvm/conf/../passwd` is `/usr/lib/jvm/passwd` by name, which is readable; where `conf` is a link to `/etc/java`, the kernel opens `/etc/passwd`, which is not. One thread is enough, and nothing is written) C101_race_fails (fails for programs with more than one thread, in a tree without links: another thread changes one byte of the path between the look of the tracer and that of the kernel, and `/opt/.x/../etc/passwd` becomes `/opt/../../etc/passwd`). The other theorems say what holds."
  },
  {
   "property": "C102",
   "status": "partial",
   "theorems": [
    "Verif.Names.C102_numbers_unique",
    "Verif.Names.C102_taken",
    "Verif.Names.C102_numbers",
    "Verif.Names.C102_accepted",
    "Verif.Names.C102_pairs",
    "Verif.Names.C102_none_lost",
    "Verif.Names.C102_apart_partial",
    "Verif.Names.C102_scheme",
    "Verif.Names.C102_scheme_plain",
    "Verif.Names.C102_both_fails",
    "Verif.Names.C102_folders_fails"
   ],
   "note": "The code does not have the full property; counterexamples: C102_both_fails (fails for problems whose name begins with `in`: of `intervals.1.in` and `intervals.1.out` both count as input, the later one is taken, and submissions are given the expected output to read) C102_folders_fails (fails for batches in directories whose names end in a number after a letter: both files of the first directory are dropped without a complaint, and its batch is not tested). The other theorems say what holds."
  },
  {
   "property": "C103",
   "status": "partial",
   "theorems": [
    "Verif.Load.C103_settings",
    "Verif.Load.C103_given",
    "Verif.Load.C103_guessed",
    "Verif.Load.C103_formats",
    "Verif.Load.C103_refused",
    "Verif.Load.C103_raises_partial",
    "Verif.Load.C103_hyphen",
    "Verif.Load.C103_empty_fails",
    "Verif.Load.C103_raises_fails",
    "Verif.Load.C103_pairs_fails",
    "Verif.Load.C103_list",
    "Verif.Load.C103_list_refused",
    "Verif.Load.C103_scalar",
    "Verif.Load.C103_no_archive",
    "Verif.Load.C103_format_fails",
    "Verif.Load.C103_archive_fails",
    "Verif.Load.C103_points"
   ],
   "note": "The code does not have the full property; counterexamples: C103_empty_fails (fails: an empty list of test cases is taken for none at all, and cases are looked for in the archive) C103_raises_fails (fails: other errors for a problem that does not exist, a document that is no dictionary, YAML with an unknown tag or alias, test cases that are a text, a format that is no pattern, fewer points than cases, and an archive that is a directory) C103_pairs_fails (fails: a document that is a list of pairs is taken for a dictionary, and its settings hold; but for it a `signature_grader` is not seen: the first 64 bytes of the output are shown although it is graded by signature) C103_format_fails ((fails): a format that is no pattern, and one that is not even a text, are errors of the configuration, but none is reported as such: the exceptions are those of the library of patterns) C103_archive_fails ((fails): an archive that is not a text is an error of the configuration, too, and not reported as such). The other theorems say what holds."
  },
  {
   "property": "C104",
   "status": "partial",
   "theorems": [
    "Verif.Bridge.C104_ends",
    "Verif.Bridge.C104_waits",
    "Verif.Bridge.C104_over",
    "Verif.Bridge.C104_bytes",
    "Verif.Bridge.C104_proceeds",
    "Verif.Bridge.C104_result",
    "Verif.Bridge.C104_errors_partial",
    "Verif.Bridge.C104_errors_fails",
    "Verif.Bridge.C104_left_fails"
   ],
   "note": "The code does not have the full property; counterexamples: C104_errors_fails (fails: a submission that has written as much to its errors as a pipe holds, and wants to write one byte more, waits for ever: whatever the interactor does, the judge waits for the submission and does not read. Only being killed ends this) C104_left_fails (fails: if the interactor cannot be started (no expected output, a bad format of arguments), the submission is left waiting for input that never comes: the judge does not close its end. Only being killed ends this). The other theorems say what holds."
  },
  {
   "property": "C105",
   "status": "partial",
   "theorems": [
    "Verif.Props.C105_signal",
    "Verif.Props.C105_unsignalled",
    "Verif.Props.C105_killed_partial",
    "Verif.Props.C105_end",
    "Verif.Props.C105_quiet",
    "Verif.Props.C105_disallowed",
    "Verif.Props.C105_unknown",
    "Verif.Props.C105_window_fails",
    "Verif.Props.C105_kill_fails",
    "Verif.Props.C105_thread_fails",
    "Verif.Props.C105_trap_fails",
    "Verif.Props.C105_number_fails"
   ],
   "note": "The code does not have the full property; counterexamples: C105_window_fails (fails: the judge itself sends signal 28 (`SIGWINCH`) each second to a running program (tracer.py:332-351); one that runs longer and then ends by itself with code 1 is said to have ended by that signal (\"window changed\")) C105_kill_fails (fails: `SIGKILL` stops no thread: a program killed by it, for example for want of memory, after a second has signal 28 told instead) C105_thread_fails (fails: a program killed by signal 11 sent to a thread other than the main one has nothing told) C105_trap_fails (fails: one killed by `SIGTRAP`, of which the tracer thinks it is its own, has nothing told) C105_number_fails (fails: call number \u22121, which a program can make, is told as a failure of `ptrace`). The other theorems say what holds."
  },
  {
   "property": "C106",
   "status": "partial",
   "theorems": [
    "Verif.Settings.C106_imports",
    "Verif.Settings.C106_settings_partial",
    "Verif.Settings.C106_late",
    "Verif.Settings.C106_tls",
    "Verif.Settings.C106_options",
    "Verif.Settings.C106_submission",
    "Verif.Settings.C106_generator",
    "Verif.Settings.C106_generator_empty",
    "Verif.Settings.C106_interactor",
    "Verif.Settings.C106_interactor_time",
    "Verif.Settings.C106_interactor_compile_fails",
    "Verif.Settings.C106_checker_fails",
    "Verif.Settings.C106_checker_partial"
   ],
   "note": "The code does not have the full property; counterexamples: C106_interactor_compile_fails (An interactor for which the problem gives no time to compile within is compiled without any limit, whatever is configured) C106_checker_fails (A bridged checker for which the problem gives no limits runs within 20 seconds and 512 megabytes and is compiled without any limit of time: whatever is configured, in whichever program). The other theorems say what holds."
  },
  {
   "property": "C107",
   "status": "partial",
   "theorems": [
    "Verif.CompilerStart.C107_term",
    "Verif.CompilerStart.C107_go",
    "Verif.CompilerStart.C107_gcc",
    "Verif.CompilerStart.C107_environ",
    "Verif.CompilerStart.C107_secret_fails",
    "Verif.CompilerStart.C107_heard",
    "Verif.CompilerStart.C107_plain",
    "Verif.CompilerStart.C107_lines_fails",
    "Verif.CompilerStart.C107_quiet_fails",
    "Verif.CompilerStart.C107_size",
    "Verif.CompilerStart.C107_group",
    "Verif.CompilerStart.C107_root_fails",
    "Verif.CompilerStart.C107_start_fails"
   ],
   "note": "The code does not have the full property; counterexamples: C107_secret_fails (So whatever the judge was given in its environment (a password, say) the compilers of all languages but Go can read) C107_lines_fails (But the text has them: a message of two lines) C107_quiet_fails (What the compiler of Haskell writes to standard output is not heard, even if it is all it has to say) C107_root_fails (Run by a privileged judge the compiler can raise its limit) C107_start_fails (With a configured size above the limit the judge itself has no unprivileged judge can start any compiler). The other theorems say what holds."
  },
  {
   "property": "C108",
   "status": "partial",
   "theorems": [
    "Verif.Citest.C108_executors",
    "Verif.Citest.C108_languages",
    "Verif.Citest.C108_works",
    "Verif.Citest.C108_green",
    "Verif.Citest.C108_excused",
    "Verif.Citest.C108_docker",
    "Verif.Citest.C108_entries",
    "Verif.Citest.C108_named",
    "Verif.Citest.C108_java_fails",
    "Verif.Citest.C108_unnamed_fails",
    "Verif.Citest.C108_nothing_fails"
   ],
   "note": "The code does not have the full property; counterexamples: C108_java_fails (A Java executor that fails its test with every virtual machine installed is no reason for a red run, whatever may fail: it is taken for one that is not installed) C108_unnamed_fails (A module without an executor makes the run red even if it may fail, and is not named) C108_nothing_fails (If no executor passes, and all may, the run is green and no source is graded, whatever grading would say). The other theorems say what holds."
  },
  {
   "property": "C109",
   "status": "partial",
   "theorems": [
    "Verif.HelperFs.C109_reads",
    "Verif.HelperFs.C109_opens",
    "Verif.HelperFs.C109_writes",
    "Verif.HelperFs.C109_submission",
    "Verif.HelperFs.C109_apart",
    "Verif.HelperFs.C109_where",
    "Verif.HelperFs.C109_slash",
    "Verif.HelperFs.C109_left",
    "Verif.HelperFs.C109_submissions_fails",
    "Verif.HelperFs.C109_answers_fails",
    "Verif.HelperFs.C109_prefix_fails",
    "Verif.HelperFs.C109_plus_fails",
    "Verif.HelperFs.C109_brace_fails"
   ],
   "note": "The code does not have the full property; counterexamples: C109_submissions_fails (where it fails: submissions. Without a configured `tempdir` a helper program reads whatever is in the directory of any submission being judged, not only the output it is given) C109_answers_fails (where it fails: other cases. Nor are the files of other cases, judged by another judge on the machine, closed to it: their answers are readable) C109_prefix_fails (where it fails: names that begin alike. The directory is not closed by a slash) C109_plus_fails (where it fails: a name with a meaning. Under `/tmp/a+b` a helper program cannot open the files it is given: the name is taken for a pattern) C109_brace_fails (where it fails: braces. Under a directory with a single brace in its name every file a helper program opens is an error of the judge). The other theorems say what holds."
  },
  {
   "property": "C110",
   "status": "partial",
   "theorems": [
    "Verif.Asm.C110_offered",
    "Verif.Asm.C110_machines",
    "Verif.Asm.C110_settings",
    "Verif.Asm.C110_defaults",
    "Verif.Asm.C110_runs_partial",
    "Verif.Asm.C110_files",
    "Verif.Asm.C110_missing_fails",
    "Verif.Asm.C110_libc_fails",
    "Verif.Asm.C110_search_fails"
   ],
   "note": "The code does not have the full property; counterexamples: C110_missing_fails (where it fails: a missing emulator. With self-tests skipped a language is offered whose programs the machine can neither run nor trace, if an emulator is configured that is not there: its programs are executed as they are) C110_libc_fails (where it fails: the C library. A language is not offered where the start files of the C library are missing, though programs that do not ask for it would be assembled, linked and run without them) C110_search_fails (where it fails: finding it. The search for installed runtimes never configures a language that needs the emulator, on any machine, though it would be offered if it were configured). The other theorems say what holds."
  },
  {
   "property": "C111",
   "status": "partial",
   "theorems": [
    "Verif.Exchange.C111_ends",
    "Verif.Exchange.C111_input",
    "Verif.Exchange.C111_eof",
    "Verif.Exchange.C111_written",
    "Verif.Exchange.C111_result",
    "Verif.Exchange.C111_exceeded",
    "Verif.Exchange.C111_other",
    "Verif.Exchange.C111_lively_partial",
    "Verif.Exchange.C111_waits",
    "Verif.Exchange.C111_bounded",
    "Verif.Exchange.C111_finishes",
    "Verif.Exchange.C111_unstarted",
    "Verif.Exchange.C111_stderr_fails"
   ],
   "note": "The code does not have the full property; counterexamples: C111_stderr_fails (fails for a program that closes its output and writes more than is allowed to its errors: the judge gives up reading but does not kill it. The judge then waits for the end of the program, and the program waits for the judge to read: neither can do anything before the time limit). The other theorems say what holds."
  },
  {
   "property": "C112",
   "status": "partial",
   "theorems": [
    "Verif.ScriptFs.C112_reads",
    "Verif.ScriptFs.C112_scripts",
    "Verif.ScriptFs.C112_shell",
    "Verif.ScriptFs.C112_source",
    "Verif.ScriptFs.C112_dot_fails",
    "Verif.ScriptFs.C112_home_fails",
    "Verif.ScriptFs.C112_bracket_fails",
    "Verif.ScriptFs.C112_double_fails",
    "Verif.ScriptFs.C112_turing",
    "Verif.ScriptFs.C112_java",
    "Verif.ScriptFs.C112_crash",
    "Verif.ScriptFs.C112_crash_fails"
   ],
   "note": "The code does not have the full property; counterexamples: C112_dot_fails (But a dot in the name of the directory, as in `/srv/dmoj.d`, stands for any character: the program also reads a file of the same name in another directory) C112_home_fails (The home directory of an interpreter is not closed by a slash: everything whose path begins so is readable) C112_bracket_fails (A problem with a bracket in its name that is not closed: no run of a program in an interpreted language (without a home directory) gets as far as the first file, for the pattern is none) C112_double_fails (With two slashes in a row the directories above Ruby's home directory are forgotten) C112_crash_fails (So not only its log: a Java program may write files it has no need to). The other theorems say what holds."
  },
  {
   "property": "C113",
   "status": "partial",
   "theorems": [
    "Verif.Family.C113_group",
    "Verif.Family.C113_killed",
    "Verif.Family.C113_checked",
    "Verif.Family.C113_over_partial",
    "Verif.Family.C113_single",
    "Verif.Family.C113_languages",
    "Verif.Family.C113_survivor_fails",
    "Verif.Family.C113_privileged_fails",
    "Verif.Family.C113_escape_fails",
    "Verif.Family.C113_early_fails",
    "Verif.Family.C113_late_fails",
    "Verif.Family.C113_stale_fails"
   ],
   "note": "The code does not have the full property; counterexamples: C113_survivor_fails (In every language without a limit on processes a program can leave one behind that lives on when the judge has done with it: no policy looks at the flags of `clone`) C113_privileged_fails (With the privileges of an administrator so it is in every language: the limit on processes does not hold then (a judge does not start as such, C83)) C113_escape_fails (Without the in-kernel filter, in every such language: it executes calls that no policy permits and cannot be killed with the group) C113_early_fails (A program killed before its first act is not killed: it is still in the judge's group. It then runs, in any language) C113_late_fails (\"Children are not permitted to outlive parent\" (ptproc.cpp:352) is not what that loop achieves: a process made by `clone` with another signal than `SIGCHLD` is not in its list, and lives on until the tracing thread ends) C113_stale_fails (What is seen out of order leaves a number in that list for good: when the program ends, a process that has nothing to do with it may be killed). The other theorems say what holds."
  },
  {
   "property": "C114",
   "status": "partial",
   "theorems": [
    "Verif.Vigil.C114_returns_partial",
    "Verif.Vigil.C114_killed_partial",
    "Verif.Vigil.C114_limit_partial",
    "Verif.Vigil.C114_final",
    "Verif.Vigil.C114_complete",
    "Verif.Vigil.C114_hang_fails",
    "Verif.Vigil.C114_window_fails"
   ],
   "note": "The code does not have the full property; counterexamples: C114_hang_fails (In every language without a limit on processes a submission can keep the judge waiting for ever: a process that nobody traces holds the output and writes nothing; the program ends; the tracing thread has ended, and all later kills, of the watchdog (which has ended, too) or of an abort, do nothing, since there is a return code. It ends only when the process itself does (or closes its output, or writes too much)) C114_window_fails (The judge may return while a process of the submission is alive, if the process has closed the pipes: `_died` is set before the tracing thread ends (tracer.py:328-330)). The other theorems say what holds."
  },
  {
   "property": "C115",
   "status": "partial",
   "theorems": [
    "Verif.Limits.C115_starts",
    "Verif.Limits.C115_held",
    "Verif.Limits.C115_exact",
    "Verif.Limits.C115_unasked",
    "Verif.Limits.C115_cpu_partial",
    "Verif.Limits.C115_cpu_fails",
    "Verif.Limits.C115_negative_fails",
    "Verif.Limits.C115_languages"
   ],
   "note": "The code does not have the full property; counterexamples: C115_cpu_fails (fails: with a time limit of 2^32 - 6 seconds the hard limit, an `unsigned int`, wraps to zero, the kernel refuses the pair, and the program runs without a limit on processor time) C115_negative_fails (fails: a time limit of -5 seconds or less is taken for none, if it is accepted). The other theorems say what holds."
  },
  {
   "property": "C116",
   "status": "partial",
   "theorems": [
    "Verif.Ipc.C116_stream",
    "Verif.Ipc.C116_farewell",
    "Verif.Ipc.C116_delivered",
    "Verif.Ipc.C116_attributes",
    "Verif.Ipc.C116_small",
    "Verif.Ipc.C116_standard",
    "Verif.Ipc.C116_points_fails",
    "Verif.Ipc.C116_protocol",
    "Verif.Ipc.C116_read"
   ],
   "note": "The code does not have the full property; counterexamples: C116_points_fails (With points given as a list or a dictionary no result of a case can be sent, not even that of a case that was skipped: the submission ends with an internal error after the first case). The other theorems say what holds."
  },
  {
   "property": "C117",
   "status": "partial",
   "theorems": [
    "Verif.Workers.C117_foreign",
    "Verif.Workers.C117_left_partial",
    "Verif.Workers.C117_clean",
    "Verif.Workers.C117_idle",
    "Verif.Workers.C117_reuse_fails",
    "Verif.Workers.C117_grows_fails",
    "Verif.Workers.C117_stays",
    "Verif.Workers.C117_killed_fails"
   ],
   "note": "The code does not have the full property; counterexamples: C117_reuse_fails (Desired: a helper program that was compiled for one submission is not compiled again for the next. It is, every time: whatever earlier workers have compiled, the first use of a program in a worker makes a new directory) C117_grows_fails (Desired: the directories on disk stay few. They do not: a worker's directories are never removed by anyone once it is gone, even if it ends in order. So the same checker, used by every submission, leaves a directory each time) C117_killed_fails (A worker that is killed leaves the directory of the submission, too; it stays for ever). The other theorems say what holds."
  },
  {
   "property": "C118",
   "status": "partial",
   "theorems": [
    "Verif.Props.C118_bounded",
    "Verif.Props.C118_order",
    "Verif.Props.C118_stops",
    "Verif.Props.C118_running",
    "Verif.Props.C118_told_partial",
    "Verif.Props.C118_compiling_fails",
    "Verif.Props.C118_early_fails",
    "Verif.Props.C118_over"
   ],
   "note": "The code does not have the full property; counterexamples: C118_compiling_fails (A request that comes while something is compiled that needs more than five seconds more ends in an internal error: nothing is interrupted) C118_early_fails (A request that comes before the program of a case has been started (here, of the first) does not keep it from being started, nor kill it: if it does not end by itself in time, an internal error is what the site is told). The other theorems say what holds."
  },
  {
   "property": "C119",
   "status": "partial",
   "theorems": [
    "Verif.Props.C119_harmless",
    "Verif.Props.C119_kept",
    "Verif.Props.C119_program_partial",
    "Verif.Props.C119_stray_fails",
    "Verif.Props.C119_killed_fails",
    "Verif.Props.C119_first_fails"
   ],
   "note": "The code does not have the full property; counterexamples: C119_stray_fails (fails: a wait that fails directly after the stop of a `fork` can make the judge kill, when the program ends, whatever process the indeterminate number names, or with -1 all processes it may) C119_killed_fails (fails: the same without any failing wait, if a program is killed while it makes a process) C119_first_fails (fails: if the first wait fails, either the end of the program is reported although it has not ended, or it is never looked at again). The other theorems say what holds."
  },
  {
   "property": "C120",
   "status": "partial",
   "theorems": [
    "Verif.Props.C120_end",
    "Verif.Props.C120_seconds_first",
    "Verif.Props.C120_nanoseconds_first",
    "Verif.Props.C120_wall",
    "Verif.Props.C120_kills_partial",
    "Verif.Props.C120_noticed",
    "Verif.Props.C120_early_fails",
    "Verif.Props.C120_second_fails",
    "Verif.Props.C120_overlooked_fails",
    "Verif.Props.C120_wall_fails"
   ],
   "note": "The code does not have the full property; counterexamples: C120_early_fails (fails: for every limit of a second or more there is a moment at which a program that has used no more than the limit is killed for it) C120_second_fails (fails: if the nanoseconds are read first, and updates come between the reads, even a program that is a second below the limit may be killed) C120_overlooked_fails (fails: if the seconds are read first, a program above its limit is overlooked when an update comes between the reads) C120_wall_fails (fails: if the nanoseconds of `start_time` are written first, a program that has just been started is killed if the machine has been up for longer than the limit). The other theorems say what holds."
  },
  {
   "property": "C121",
   "status": "partial",
   "theorems": [
    "Verif.Props.C121_stuck_fails",
    "Verif.Props.C121_two_fails",
    "Verif.Props.C121_returns_partial",
    "Verif.Props.C121_served_partial",
    "Verif.Props.C121_requested",
    "Verif.Props.C121_fair_partial",
    "Verif.Props.C121_ends_partial"
   ],
   "note": "The code does not have the full property; counterexamples: C121_stuck_fails (fails: if `SIGUSR2` arrives while the main thread is within `set`, it never gets back to its work, no list of problems is sent any more, and the other threads that ask for one (the server of the API, the observer) are stuck as well) C121_two_fails (fails: whenever the main thread does its work and the lock is free, two signals may do that, or one that arrives while the judge is stopped). The other theorems say what holds."
  },
  {
   "property": "C122",
   "status": "partial",
   "theorems": [
    "Verif.Props.C122_answers",
    "Verif.Props.C122_kept",
    "Verif.Props.C122_served_partial",
    "Verif.Props.C122_turn_partial",
    "Verif.Props.C122_stops_partial",
    "Verif.Props.C122_after",
    "Verif.Props.C122_stuck_fails",
    "Verif.Props.C122_hang_fails"
   ],
   "note": "The code does not have the full property; counterexamples: C122_stuck_fails (Desired: a request is answered whatever other clients do. Fails: as long as a client that was accepted says nothing, no one else is answered, and no update is begun by this way, whatever else happens) C122_hang_fails (Desired: a judge that stops, ends. Fails: one client that has connected and says nothing keeps it in `shutdown` for ever, until it is interrupted again). The other theorems say what holds."
  },
  {
   "property": "C123",
   "status": "partial",
   "theorems": [
    "Verif.Props.C123_server",
    "Verif.Props.C123_form",
    "Verif.Props.C123_title_partial",
    "Verif.Props.C123_title_fails"
   ],
   "note": "The code does not have the full property; counterexamples: C123_title_fails ((fails): with spaces in what is given for the host, two judges may look alike). The other theorems say what holds."
  }
 ]
}