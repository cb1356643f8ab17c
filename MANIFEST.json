{"claims": [
{"property": "C01", "status": "proved", "theorems": ["Judger.C01_root_required"]},
{"property": "C02", "status": "proved", "theorems": ["Judger.C02_validation_exact"]},
{"property": "C03", "status": "proved", "theorems": ["Judger.C03_error_excludes_verdict", "Judger.C03_error_code"]},
{"property": "C04", "status": "proved", "theorems": ["Judger.C04_verdict"]},
{"property": "C05", "status": "proved", "theorems": ["Judger.C05_accepted_iff"]},
{"property": "C06", "status": "proved", "theorems": ["Judger.C06_signaled_not_accepted"]},
{"property": "C07", "status": "proved", "theorems": ["Judger.C07_signal_exit_code"]},
{"property": "C08", "status": "proved", "theorems": ["Judger.C08_measurements"]},
{"property": "C09", "status": "proved", "theorems": ["Judger.C09_prior_irrelevant"]},
{"property": "C10", "status": "proved", "theorems": ["Judger.C10_monotone"]},
{"property": "C11", "status": "partial", "theorems": ["Judger.C11_false", "Judger.C11_witness", "Judger.C11_child_ended_partial", "Judger.C11_outcome_happened"], "note": "False of the code: wait4 is called with WSTOPPED, so a stopped child produces a verdict. Full statement C11_full; negation proved with witness; the partial theorem covers children that have ended."},
{"property": "C12", "status": "proved", "theorems": ["Judger.C12_no_survivor"]},
{"property": "C13", "status": "proved", "theorems": ["Judger.C13_log_handle"]},
{"property": "C14", "status": "proved", "theorems": ["Judger.C14_limits"]},
{"property": "C15", "status": "partial", "theorems": ["Judger.C15_false", "Judger.C15_exact", "Judger.C15_cpu_seconds_partial", "Judger.C15_top"], "note": "False at the top of the int range (max_cpu_time + 1000 overflows; C15_top: for every such value); holds below it."},
{"property": "C16", "status": "proved", "theorems": ["Judger.C16_address_space"]},
{"property": "C17", "status": "proved", "theorems": ["Judger.C17_fail_closed", "Judger.C17_starts"]},
{"property": "C18", "status": "proved", "theorems": ["Judger.C18_privileges_dropped", "Judger.C18_each_id"]},
{"property": "C19", "status": "proved", "theorems": ["Judger.C19_not_root", "Judger.C19_default_ids"], "note": "Texts are read with the looser integer grammar of C47."},
{"property": "C20", "status": "proved", "theorems": ["Judger.C20_streams"]},
{"property": "C21", "status": "proved", "theorems": ["Judger.C21_no_double_close"]},
{"property": "C22", "status": "partial", "theorems": ["Judger.C22_false", "Judger.C22_exact", "Judger.C22_log_always", "Judger.C22_witness", "Judger.C22_inherited_partial"], "note": "False of the code: the log descriptor is inherited by the judged program, and a second descriptor on each configured file. C22_exact says when it holds for a caller with open standard streams: no stream configured and no log open above 2."},
{"property": "C23", "status": "proved", "theorems": ["Judger.C23_profile_enforced", "Judger.C23_unknown_name"]},
{"property": "C24", "status": "partial", "theorems": ["Judger.C24_false", "Judger.C24_witness_exec", "Judger.C24_witness_log", "Judger.C24_witness_blocked", "Judger.C24_witness_hung", "Judger.C24_system_error_partial", "Judger.C24_exec_lost", "Judger.C24_exec_sigsys", "Judger.C24_exact", "Judger.C24_muted"], "note": "False of the code in four ways (see witnesses). C24_exec_lost and C24_exec_sigsys show that the first way is not an accident of the witness: under both C/C++ rule sets a failed execve is never reported as SYSTEM_ERROR. C24_exact: for a root caller without filters in quiet surroundings SYSTEM_ERROR is reported exactly if the first failure is not an execve under one of those rule sets. C24_muted: with SIGUSR1 ignored or blocked no failure is ever reported so."},
{"property": "C25", "status": "proved", "theorems": ["Judger.C25_never_returns"]},
{"property": "C26", "status": "proved", "theorems": ["Judger.C26_own_exec"]},
{"property": "C27", "status": "proved", "theorems": ["Judger.C27_no_new_process"]},
{"property": "C28", "status": "proved", "theorems": ["Judger.C28_no_write_open"]},
{"property": "C29", "status": "partial", "theorems": ["Judger.C29_false", "Judger.C29_loopholes_open", "Judger.C29_creation_only_by_open_partial"], "note": "False of the code: O_RDONLY|O_CREAT|O_TRUNC passes the filter."},
{"property": "C30", "status": "proved", "theorems": ["Judger.C30_file_io_difference"]},
{"property": "C31", "status": "partial", "theorems": ["Judger.C31_false", "Judger.C31_witness_signal", "Judger.C31_only_clone3_partial", "Judger.C31_signals_partial", "Judger.C31_C32_loopholes_open"], "note": "False of the code: clone3, tkill, tgkill, rt_sigqueueinfo are not on the blacklist."},
{"property": "C32", "status": "partial", "theorems": ["Judger.C32_false", "Judger.C32_witness_golang", "Judger.C32_open_read_only_partial", "Judger.C32_loopholes_partial", "Judger.C31_C32_loopholes_open"], "note": "False of the code: creat and openat2 are not on the blacklists."},
{"property": "C33", "status": "proved", "theorems": ["Judger.C33_blacklists_exact", "Judger.C33_whitelists_exact", "Judger.C33_by_name", "Judger.C33_unnamed"], "note": "by number and, through the kernel's table of call names, by name"},
{"property": "C34", "status": "partial", "theorems": ["Judger.C34_false", "Judger.C34_any_file", "Judger.C34_pointer_partial"], "note": "False of the code: the filter compares the address of the path, not the path."},
{"property": "C35", "status": "proved", "theorems": ["Judger.C35_foreign_abi"]},
{"property": "C36", "status": "proved", "theorems": ["Judger.C36_not_weakened"]},
{"property": "C37", "status": "partial", "theorems": ["Judger.C37_false", "Judger.C37_exact", "Judger.C37_never_early_partial"], "note": "False of the code only through the late read of killer_args (C40); holds for every schedule in which they are read in time."},
{"property": "C38", "status": "partial", "theorems": ["Judger.C38_false", "Judger.C38_every_request", "Judger.C38_timer_verdict_partial"], "note": "False of the code only through the late read of killer_args (C40) and runs over 2^31 ms."},
{"property": "C39", "status": "partial", "theorems": ["Judger.C39_false", "Judger.C39_exact", "Judger.C39_in_time_exact", "Judger.C39_witness_garbage", "Judger.C39_cancelled_in_time_partial"], "note": "False of the code: SIGKILL can be sent to a pid that has been reaped. Settled: for every limit some schedule breaks it; with the arguments read in time, for every limit up to INT_MAX - 1000."},
{"property": "C40", "status": "partial", "theorems": ["Judger.C40_false", "Judger.C40_exact", "Judger.C40_read_in_time_partial"], "note": "False of the code: killer_args is a local of a block that may end before the thread reads it. Settled: possible for every limit."},
{"property": "C41", "status": "partial", "theorems": ["Judger.C41_false", "Judger.C41_exact", "Judger.C41_cancel_in_time_partial"], "note": "False of the code: pthread_cancel on a detached thread that has ended. Settled for every limit."},
{"property": "C42", "status": "partial", "theorems": ["Judger.C42_false", "Judger.C42_exact", "Judger.C42_seconds_partial"], "note": "False of the code for the last 1000 values (signed overflow); exact below."},
{"property": "C43", "status": "partial", "theorems": ["Judger.C43_false", "Judger.C43_every_limit", "Judger.C43_run_ends_partial", "Judger.C43_stays_ended"], "note": "False of the code only through C40 and C42; otherwise every fair schedule ends."},
{"property": "C44", "status": "partial", "theorems": ["Judger.C44_false", "Judger.C44_entry_exact_partial", "Judger.C44_long_entry", "Judger.C44_own_messages"], "note": "False of the code for entries over 8191 characters (over-read of the buffer); exact for shorter ones, which covers every message Judger logs."},
{"property": "C45", "status": "partial", "theorems": ["Judger.C45_false", "Judger.C45_exact", "Judger.C45_whole_entries_partial", "Judger.C45_short_write"], "note": "False of the code: parent and child share one open file description, so flock does not exclude them."},
{"property": "C46", "status": "partial", "theorems": ["Judger.C46_false", "Judger.C46_unlocked_partial", "Judger.C46_free_after_close", "Judger.C46_blocks_others", "Judger.C46_held_only_inside_partial"], "note": "False of the code: a failed write returns without unlocking."},
{"property": "C47", "status": "partial", "theorems": ["Judger.C47_false", "Judger.C47_witness", "Judger.C47_exact_value_partial", "Judger.C47_documented_form", "Judger.C47_out_of_range"], "note": "False of the code: --max_memory=0x-5 is accepted. The value is exact for every text of the documented form, and always that of a looser grammar."},
{"property": "C48", "status": "proved", "theorems": ["Judger.C48_every_int", "Judger.C48_every_id"]},
{"property": "C49", "status": "proved", "theorems": ["Judger.C49_defaults"]},
{"property": "C50", "status": "partial", "theorems": ["Judger.C50_false", "Judger.C50_arguments_partial", "Judger.C50_full_list", "Judger.C50_exact"], "note": "False of the code with 255 --args and an --env: the list is not terminated before the environment. Exact otherwise."},
{"property": "C51", "status": "proved", "theorems": ["Judger.C51_environment"]},
{"property": "C52", "status": "proved", "theorems": ["Judger.C52_abbreviation", "Judger.C52_unknown_name"]},
{"property": "C53", "status": "partial", "theorems": ["Judger.C53_false", "Judger.C53_error_exit_partial", "Judger.C53_nothing_run", "Judger.C53_no_words", "Judger.C53_exact"], "note": "Nothing is run is unconditional. The exit status is not reached on a word -abc-, on which parsing loops. C53_exact says which command lines end in errors and which are run."},
{"property": "C54", "status": "proved", "theorems": ["Judger.C54_verbatim", "Judger.C54_every_text"]},
{"property": "C55", "status": "partial", "theorems": ["Judger.C55_false", "Judger.C55_terminates_iff", "Judger.C55_terminates_partial"], "note": "False of the code: a word -abc- makes the parser loop. Terminates on all command lines without such a word."},
{"property": "C56", "status": "proved", "theorems": ["Judger.C56_error_table", "Judger.C56_always_bounded"]},
{"property": "C57", "status": "partial", "theorems": ["Judger.C57_false", "Judger.C57_help_first_partial", "Judger.C57_exit_status", "Judger.C57_exact"], "note": "False of the code only through C55; C57_exact says which command lines show help and which the version."},
{"property": "C58", "status": "proved", "theorems": ["Judger.C58_json", "Judger.C58_only"]},
{"property": "C59", "status": "partial", "theorems": ["Judger.C59_configuration_partial", "Judger.C59_exact", "Judger.C59_false"], "note": "False with 255 args and an environment (the C50 overflow); C59_exact says what happens for every acceptable request. Strings are taken as the bytes passed to the process."},
{"property": "C60", "status": "proved", "theorems": ["Judger.C60_wrong_type", "Judger.C60_only_wrong_type", "Judger.C60_message"], "note": "Exactly the ill-typed calls (and calls with a NUL byte, which Popen refuses) raise before any process is started."},
{"property": "C61", "status": "proved", "theorems": ["Judger.C61_returns_result", "Judger.C61_stderr_raises", "Judger.C61_no_text_raises", "Judger.C61_whole_call"], "note": "json.loads is the JSON reader of Spec/Json."},
{"property": "C62", "status": "partial", "theorems": ["Judger.C62_result_found_partial", "Judger.C62_nul_partial", "Judger.C62_nul_lost", "Judger.C62_nul_exact", "Judger.C62_false", "Judger.C62_witness", "Judger.C62_too_long"], "note": "False when the program's output contains a NUL byte in the piece (line, or 254 characters of one) that the JSON begins in, or from 2 GiB on; proved for all other output, and with NUL bytes elsewhere only the printed text loses something.  Exact for output without '{'."},
{"property": "C63", "status": "partial", "theorems": ["Judger.C63_plain_partial", "Judger.C63_quoted_partial", "Judger.C63_false", "Judger.C63_witness_blank", "Judger.C63_witness_injection", "Judger.C63_overflow"], "note": "False: arguments go through a shell unquoted and through a 255-byte buffer. Proved for texts of letters, digits, bytes beyond ASCII and _-./=:,+@%^]! below 255 bytes; and for any text that the caller puts in single quotes, if it is below 255 bytes with them."},
{"property": "C64", "status": "partial", "theorems": ["Judger.C64_environment_partial", "Judger.C64_exact", "Judger.C64_false", "Judger.C64_witness_refused", "Judger.C64_witness_number"], "note": "False: the code tests args instead of env. Settled for requests of the right types: accepted exactly if there is no environment or there are arguments."},
{"property": "C65", "status": "partial", "theorems": ["Judger.C65_false", "Judger.C65_always_rejected"], "note": "False: max_stack is never set, so every Lua call is rejected by run(); the negation is proved for every table and every system behaviour."},
{"property": "C66", "status": "partial", "theorems": ["Judger.C66_limits_partial", "Judger.C66_long_fields", "Judger.C66_exact", "Judger.C66_false"], "note": "False for max_memory and max_output_size outside 0..2^32-1, in particular -1."},
{"property": "C67", "status": "proved", "theorems": ["Judger.C67_inside", "Judger.C67_accepted", "Judger.C67_too_long", "Judger.C67_only_strings"]},
{"property": "C68", "status": "proved", "theorems": ["Judger.C68_constants", "Judger.C68_unambiguous"]},
{"property": "C69", "status": "partial", "theorems": ["Judger.C69_false", "Judger.C69_loopholes_open", "Judger.C69_only_prlimit_partial"], "note": "False of the code: prlimit64 is allowed for any pid."},
{"property": "C70", "status": "partial", "theorems": ["Judger.C70_false", "Judger.C70_no_overflow_partial", "Judger.C70_exact"], "note": "False of the code: -0x-8000000000000000 multiplies LONG_MIN by -1. C70_exact determines the texts that overflow."},
{"property": "C71", "status": "proved", "theorems": ["Judger.C71_parsing_stays_inside_argv", "Judger.C71_blocks_exchanged"], "note": "permute_args is modelled cycle by cycle with division by zero and out-of-range access as faults; the invariant holds after every number of getopt calls."},
{"property": "C72", "status": "proved", "theorems": ["Judger.C72_accepted", "Judger.C72_error_names", "Judger.C72_strings_reach"]},
{"property": "C73", "status": "partial", "theorems": ["Judger.C73_call_partial", "Judger.C73_false", "Judger.C73_exact", "Judger.C73_extra_argument_aborts", "Judger.C73_returns_rejection"], "note": "False for calls with more than one argument: assert(lua_gettop(L) == 2) aborts the host after the run. Proved for calls with one argument."},
{"property": "C74", "status": "partial", "theorems": ["Judger.C74_cpu_kill_partial", "Judger.C74_exact", "Judger.C74_false"], "note": "False: the kernel counts user and system time, the verdict only user time (C74_exact: precisely when the verdict is right). Proved when the system time is at most the slack between max_cpu_time and the next whole second."},
{"property": "C75", "status": "partial", "theorems": ["Judger.C75_result_zero_partial", "Judger.C75_false", "Judger.C75_exact", "Judger.C75_every_error_has_result_zero"], "note": "False: every error comes with result 0. Proved for error 0."},
{"property": "C76", "status": "partial", "theorems": ["Judger.C76_real_time_partial", "Judger.C76_error_is_the_step", "Judger.C76_false", "Judger.C76_exact", "Judger.C76_verdict_follows_the_clock"], "note": "False: gettimeofday is used, so the reported time is off by the step of the clock. Proved for an undisturbed clock."},
{"property": "C77", "status": "partial", "theorems": ["Judger.C77_delivered_partial", "Judger.C77_exact", "Judger.C77_false"], "note": "False only for 255 --args together with --env (the environment is appended to the arguments, as in C50). Proved for all other command lines."},
{"property": "C78", "status": "proved", "theorems": ["Judger.C78_report_safe"]},
{"property": "C79", "status": "partial", "theorems": ["Judger.C79_report_partial", "Judger.C79_exact", "Judger.C79_told", "Judger.C79_false"], "note": "False for unknown letters that are control characters 1 to 5: optopt is used as an error number, so they get the text of another error. Proved for all other command lines; C79_exact determines the command lines whose report is wrong."},
{"property": "C80", "status": "proved", "theorems": ["Judger.C80_help", "Judger.C80_every_option", "Judger.C80_version"]},
{"property": "C81", "status": "proved", "theorems": ["Judger.C81_ends", "Judger.C81_dict", "Judger.C81_reaches_run", "Judger.C81_program"], "note": "Popen itself failing (missing program, argument list too long) is not modelled."},
{"property": "C82", "status": "partial", "theorems": ["Judger.C82_nothing_run_partial", "Judger.C82_exact", "Judger.C82_text", "Judger.C82_text_whole", "Judger.C82_false"], "note": "False: if the log cannot be opened run() still judges the program, but the warning on stderr makes the call raise. Proved for calls in which the log works and the program writes nothing but white space to the judger's own standard output."},
{"property": "C83", "status": "partial", "theorems": ["Judger.C83_returns_partial", "Judger.C83_refused", "Judger.C83_program", "Judger.C83_false"], "note": "False: a request the judger refuses (for example max_memory of 4 GiB) makes the binding read before its buffer, since the error report contains no '{'. Proved for acceptable requests. popen() failing is not modelled."},
{"property": "C84", "status": "partial", "theorems": ["Judger.C84_refused_partial", "Judger.C84_message", "Judger.C84_witness", "Judger.C84_false", "Judger.C84_vanish", "Judger.C84_items_exact"], "note": "False: null and nested lists among args vanish silently; a wrong number is not named. Proved for numbers, texts and an args that is no list; and exactly which items of args are refused, which vanish."},
{"property": "C85", "status": "partial", "theorems": ["Judger.C85_stream_partial", "Judger.C85_nothing_late", "Judger.C85_opened", "Judger.C85_file", "Judger.C85_appended", "Judger.C85_forged", "Judger.C85_false", "Judger.C85_stopped_false"], "note": "False if standard output is a regular file: /dev/stdout is opened anew and truncated, so earlier contents are lost and the result overwrites the beginning of the program's output; the program can choose how the file ends. Also false, even for pipes, if the program stops itself: run() returns and the program may write after the result. Proved for pipes and terminals, in every interleaving, when run() did not return because the program was stopped."},
{"property": "C86", "status": "partial", "theorems": ["Judger.C86_confined_partial", "Judger.C86_open", "Judger.C86_root", "Judger.C86_false", "Judger.C86_exact"], "note": "False without a seccomp rule name: no_new_privs is then not set, so executing a set-user-ID root file gives root. Proved with any of the five rule names."},
{"property": "C87", "status": "partial", "theorems": ["Judger.C87_output_size_partial", "Judger.C87_false", "Judger.C87_exact"], "note": "False without a rule name, as C86. Proved with any rule name. Pipes and terminals have no size. C87_exact says for every configuration where it holds."},
{"property": "C88", "status": "partial", "theorems": ["Judger.C88_accounted_partial", "Judger.C88_left_behind", "Judger.C88_false", "Judger.C88_exact"], "note": "False without a rule set and under general, golang and node (clone3 gets through): only the process itself is waited for or killed. Proved for c_cpp and c_cpp_file_io. C88_exact says for every configuration where it holds."},
{"property": "C89", "status": "partial", "theorems": ["Judger.C89_silent", "Judger.C89_never_wrong", "Judger.C89_named_partial", "Judger.C89_exact", "Judger.C89_false"], "note": "False when execve fails under c_cpp or c_cpp_file_io: flock on the log is not allowed there, the child dies of SIGSYS with nothing logged. Proved in all other cases in which no thread of the caller was in localtime at the fork (C130); a message that is written is never wrong. C89_exact: with a usable log in quiet surroundings the message is there exactly if the first failure is not an execve under one of the two C/C++ rule sets."},
{"property": "C90", "status": "proved", "theorems": ["Judger.C90_error_told", "Judger.C90_log_write"]},
{"property": "C91", "status": "partial", "theorems": ["Judger.C91_false", "Judger.C91_exact", "Judger.C91_witness", "Judger.C91_streams_partial", "Judger.C91_input_lost"], "note": "False of the code when one file has several names among the paths: each is opened by itself, so standard error overwrites standard output, and an input file that is also the output file is emptied. Holds for all reads and writes otherwise."},
{"property": "C92", "status": "partial", "theorems": ["Judger.C92_false", "Judger.C92_witness_memory", "Judger.C92_witness_system", "Judger.C92_own_use_partial", "Judger.C92_at_most_a_second_partial"], "note": "False of the code: system time is not counted, and the memory of the caller is, because ru_maxrss survives execve. Bounds in both directions are proved."},
{"property": "C93", "status": "partial", "theorems": ["Judger.C93_false", "Judger.C93_exact", "Judger.C93_open", "Judger.C93_root", "Judger.C93_process_number_partial"], "note": "False of the code without a rule set (set-user-ID root files are honoured and root is exempt); proved with one. C93_exact says for every configuration where it holds."},
{"property": "C94", "status": "partial", "theorems": ["Judger.C94_false", "Judger.C94_share_partial", "Judger.C94_one_at_a_time", "Judger.C94_unlimited"], "note": "False of the code: RLIMIT_NPROC counts all processes of the uid. The exact share is proved."},
{"property": "C95", "status": "partial", "theorems": ["Judger.C95_false", "Judger.C95_refused_exact", "Judger.C95_witness_short", "Judger.C95_witness_caller", "Judger.C95_witness_general", "Judger.C95_signals_inherited", "Judger.C95_refused_partial"], "note": "False of the code: a write that is only cut short raises no signal, SIGXFSZ ignored by the caller stays ignored in the program, and only the C/C++ rule sets keep a program from ignoring it. Proved for refused writes under those, with SIGXFSZ deadly in the caller. C95_refused_exact says for every configuration where it holds."},
{"property": "C96", "status": "partial", "theorems": ["Judger.C96_false", "Judger.C96_exact", "Judger.C96_verdict_partial", "Judger.C96_judger_partial", "Judger.C96_otherwise", "Judger.C96_ignored_wait_failed", "Judger.C96_witness_ignored", "Judger.C96_witness_interrupted", "Judger.C96_witness_reaped", "Judger.C96_witness_race", "Judger.C96_witness_thread"], "note": "False of the code: wait4 is called once and any failure is final. It fails if SIGCHLD is ignored, if a handler without SA_RESTART runs (the program, still running, is then killed), and if a handler or another thread of the caller has waited for the child first; in each case WAIT_FAILED is reported. Proved, for all signals at all times, for callers that do none of this; for the judger as a program of its own whenever SIGCHLD is not ignored."},
{"property": "C97", "status": "proved", "theorems": ["Judger.C97_accepted_was_started"], "note": "For max_cpu_time up to 2147482647; above that the addition in child.c overflows (C15)."},
{"property": "C98", "status": "proved", "theorems": ["Judger.C98_printed_accepted", "Judger.C98_accepted_printed"], "note": "Composes C47, C05, C58, C77 and C97. The argument vector is included unless there are 255 --args together with --env (C50)."},
{"property": "C99", "status": "proved", "theorems": ["Judger.C99_dict_accepted"], "note": "Composes C05, C14, C59, C81 and C97. The argument vector is included unless there are 255 args together with env (C59)."},
{"property": "C100", "status": "partial", "theorems": ["Judger.C100_early", "Judger.C100_unforgeable_partial", "Judger.C100_witness", "Judger.C100_false", "Judger.C100_exact"], "note": "False of the code without a rule set: a process the program leaves behind prints a second result after the real one, and the binding returns that. Output before the result can never forge (C100_early, the whole JSON grammar); proved for c_cpp and c_cpp_file_io. C100_exact says for every configuration where it holds."},
{"property": "C101", "status": "proved", "theorems": ["Judger.C101_object_accepted"], "note": "Composes C05, C14, C62 (any output), C63, C83 and C97. Only output before the result is considered; for later output see C100."},
{"property": "C102", "status": "partial", "theorems": ["Judger.C102_early", "Judger.C102_late", "Judger.C102_unforgeable_partial", "Judger.C102_witness", "Judger.C102_false", "Judger.C102_exact"], "note": "False of the code without a rule set: the program prints the beginning of an object and a process it leaves behind prints the end, with its own error and result. Proved (whole JSON grammar) for c_cpp and c_cpp_file_io, for all output before the result, and for all output after it when only white space came before. C102_exact says for every configuration where it holds."},
{"property": "C103", "status": "partial", "theorems": ["Judger.C103_only_sigusr1", "Judger.C103_not_the_program_partial", "Judger.C103_self_raised", "Judger.C103_false", "Judger.C103_exact"], "note": "False of the code without a rule set and under general, golang and node: the program sends itself SIGUSR1 (tgkill is allowed). Proved for c_cpp and c_cpp_file_io; for all, SYSTEM_ERROR comes only from a death by SIGUSR1, with error 0. C103_exact says for every configuration where it holds."},
{"property": "C104", "status": "partial", "theorems": ["Judger.C104_child", "Judger.C104_thread_gone_partial", "Judger.C104_witness_zombie", "Judger.C104_witness_thread", "Judger.C104_false"], "note": "False of the code: a killed child is not waited for after PTHREAD_FAILED and WAIT_FAILED, and the watchdog is not cancelled after WAIT_FAILED. C104_child says exactly when no child is left; the thread is gone in every fair schedule without the late read (C40) and the overflow (C42)."},
{"property": "C105", "status": "partial", "theorems": ["Judger.C105_not_accepted_partial", "Judger.C105_witness", "Judger.C105_false", "Judger.C105_exact"], "note": "False of the code under general, golang and node: a thread made with clone3 calls fork and is killed alone, the program exits with 0 and is accepted. Proved for c_cpp and c_cpp_file_io, and for any rule set if nothing is started; there the verdict names SIGSYS. C105_exact says for every configuration where it holds."},
{"property": "C106", "status": "partial", "theorems": ["Judger.C106_returns_in_time_partial", "Judger.C106_real_time_partial", "Judger.C106_sharp", "Judger.C106_witness_late_read", "Judger.C106_false"], "note": "False of the code after a late read of killer_args (C40): the run has no bound at all. Proved for all other schedules and limits up to INT_MAX - 1000; C106_sharp shows that the extra second can be needed without any delay of the machine."},
{"property": "C107", "status": "proved", "theorems": ["Judger.C107_items", "Judger.C107_order", "Judger.C107_arguments_keep_order"], "note": "Lines with a word like -abc- never end (C55) and are no command line here."},
{"property": "C108", "status": "partial", "theorems": ["Judger.C108_other_files_partial", "Judger.C108_c_cpp_partial", "Judger.C108_python_partial", "Judger.C108_node_partial", "Judger.C108_stopped_waits", "Judger.C108_left_behind_waits", "Judger.C108_python_false", "Judger.C108_node_false"], "note": "False of the code when output_path or error_path leads to the judger's own standard output (the default of the Node binding): a stopped program, or a process left behind, keeps it open and the call does not end. Proved for all other paths under every rule set, and for c_cpp and c_cpp_file_io whenever the program ended."},
{"property": "C109", "status": "partial", "theorems": ["Judger.C109_each_partial", "Judger.C109_together_partial", "Judger.C109_sharp", "Judger.C109_check_only", "Judger.C109_false", "Judger.C109_exact"], "note": "False of the code without a rule name: a set-user-ID root file is honoured and root raises the limit (C86). Proved for every rule set; C109_sharp shows that twice max_memory can be reached, C109_check_only that nothing is limited with memory_limit_check_only. C109_exact says for every configuration where it holds."},
{"property": "C110", "status": "partial", "theorems": ["Judger.C110_together_partial", "Judger.C110_never_more", "Judger.C110_witness", "Judger.C110_false", "Judger.C110_exact"], "note": "False of the code without a rule set and under general, golang and node: ru_maxrss is the highest peak of a single process, so two processes of 40 MB at the same time are accepted under 64 MiB. Proved for c_cpp and c_cpp_file_io; that memory is never overstated is proved for all. C110_exact says for every configuration where it holds."},
{"property": "C111", "status": "partial", "theorems": ["Judger.C111_no_socket_partial", "Judger.C111_witness_ring", "Judger.C111_witness_copy", "Judger.C111_false", "Judger.C111_exact"], "note": "False of the code under general, golang and node: io_uring_setup and pidfd_getfd are not on the blacklists. Proved for c_cpp and c_cpp_file_io, and for all five where these two ways are closed otherwise."},
{"property": "C112", "status": "partial", "theorems": ["Judger.C112_python_partial", "Judger.C112_node_partial", "Judger.C112_witness", "Judger.C112_witness_nul", "Judger.C112_false"], "note": "False of the code when the program's standard output is the judger's and nothing of the result arrives: the bindings do not look at how the judger ended, and return what the program wrote. Proved if anything of the result arrives (Node: and the program wrote no NUL byte), and for Python whenever only blanks came before it."},
{"property": "C113", "status": "partial", "theorems": ["Judger.C113_not_held_partial", "Judger.C113_kept_partial", "Judger.C113_witness_added", "Judger.C113_witness_erased", "Judger.C113_false", "Judger.C113_exact"], "note": "False of the code: the program inherits the log's descriptor (C22), so under every rule set it can add to the log, and under general, golang, node and without a rule set empty it. Proved under c_cpp and c_cpp_file_io that nothing written before or meanwhile is lost, and for every rule set that the log is untouched where the program does not have it open."},
{"property": "C114", "status": "partial", "theorems": ["Judger.C114_judger_partial", "Judger.C114_c_cpp_partial", "Judger.C114_witness_neighbour", "Judger.C114_witness_judger", "Judger.C114_false", "Judger.C114_exact"], "note": "False of the code under general, golang, node and without a rule set: programs judged at the same time under one uid can signal each other; without a rule set also the judger, through a set-user-ID file. Proved under c_cpp and c_cpp_file_io for all targets, and under every rule set for the judger and every process of another user."},
{"property": "C115", "status": "partial", "theorems": ["Judger.C115_same_partial", "Judger.C115_each", "Judger.C115_witness_root", "Judger.C115_witness_stack", "Judger.C115_false", "Judger.C115_exact"], "note": "False of the code for the value -1: Python takes -1 for the default of max_stack, memory_limit_check_only, uid and gid, Node passes it on, so with uid -1 the program runs as nobody in one and as root in the other. Proved for all other requests."},
{"property": "C116", "status": "partial", "theorems": ["Judger.C116_c_cpp_partial", "Judger.C116_no_descriptor_partial", "Judger.C116_waits", "Judger.C116_witness", "Judger.C116_false", "Judger.C116_exact"], "note": "False of the code under general, golang, node and without a rule set: the program inherits a descriptor of the log, can lock it and leave a process behind that keeps the lock, so other judgers wait. Proved under c_cpp and c_cpp_file_io, and for every rule set where the program has no descriptor of the log."},
{"property": "C117", "status": "partial", "theorems": ["Judger.C117_together_partial", "Judger.C117_each_partial", "Judger.C117_witness", "Judger.C117_false", "Judger.C117_exact"], "note": "False of the code under general, golang, node and without a rule set: one process after the other, each with a fresh allowance. Proved for all processes together under c_cpp and c_cpp_file_io, and for each process under every rule set. C117_exact says for every configuration where it holds."},
{"property": "C118", "status": "partial", "theorems": ["Judger.C118_c_cpp_partial", "Judger.C118_each_partial", "Judger.C118_witness_log", "Judger.C118_witness_core", "Judger.C118_witness_files", "Judger.C118_false", "Judger.C118_exact"], "note": "False of the code: the log can be filled as well (C22), a crash leaves a core file (RLIMIT_CORE is not set), and outside c_cpp any number of files can be written. Proved under c_cpp: three times max_output_size and one core file. C118_exact says for every configuration where it holds."},
{"property": "C119", "status": "proved", "theorems": ["Judger.C119_same", "Judger.C119_started", "Judger.C119_both", "Judger.C119_exact"], "note": "For every set of outer filters that allows the 17 calls of the list; C119_exact shows that the list is the least one. Memory the libraries allocate for themselves (brk, mmap) is not modelled."},
{"property": "C120", "status": "proved", "theorems": ["Judger.C120_named", "Judger.C120_writes", "Judger.C120_limits_first", "Judger.C120_input_first", "Judger.C120_output_first"], "note": "For every configuration, every combination of failing calls and every initial state. The log, which the parent opens, is the subject of C13."},
{"property": "C121", "status": "proved", "theorems": ["Judger.C121_sound", "Judger.C121_freed"], "note": "For every command line and every number of steps. The blocks argtable3 allocates for the table and while parsing; the array args of main.c, which is on the stack, is the subject of C50, and the reordering of argvcopy of C71."},
{"property": "C122", "status": "partial", "theorems": ["Judger.C122_false", "Judger.C122_exact", "Judger.C122_c_cpp_partial", "Judger.C122_overwrites_partial", "Judger.C122_witness"], "note": "False of the code under general, golang, node and without a rule set: a symbolic link left under the name of the next output makes the next judging overwrite the file it leads to, as root. Proved under c_cpp and c_cpp_file_io, for all names and everything the program does; together with C120 this bounds what a later judging overwrites. C122_exact says for every configuration where it holds."},
{"property": "C123", "status": "partial", "theorems": ["Judger.C123_false", "Judger.C123_one_at_a_time_partial", "Judger.C123_inside_partial", "Judger.C123_witness"], "note": "False of the code: the texts are put together in static buffers, so that a thread waiting for the lock writes what another has formatted meanwhile, cut to its own length. Proved for threads that enter log_write one at a time; and for all orders that nothing beyond the buffer is read and nothing unknown is written."},
{"property": "C124", "status": "partial", "theorems": ["Judger.C124_false", "Judger.C124_end_exact", "Judger.C124_once_partial", "Judger.C124_witness"], "note": "False of the code when SIGUSR1 does not end the child (ignored or blocked in the caller): CHILD_ERROR_EXIT then calls exit. Proved for every configuration and failure when SIGUSR1 is deadly and no filter of the caller's answers tgkill with an error."},
{"property": "C125", "status": "partial", "theorems": ["Judger.C125_false", "Judger.C125_alike_partial", "Judger.C125_shows_partial", "Judger.C125_witness_signals", "Judger.C125_witness_files"], "note": "False of the code: signals the caller ignores or blocks, its open descriptors and every limit or id the request does not give reach the program. Proved: callers that differ only in what the request settles cannot be told apart, however their tables are laid out; and conversely every difference in an unset limit, id or signal setting shows."},
{"property": "C126", "status": "partial", "theorems": ["Judger.C126_false", "Judger.C126_object_partial", "Judger.C126_undefined", "Judger.C126_witness"], "note": "False of the code: both exceptions are thrown without a return, so that the binding goes on with an empty handle, or reads from a NULL stream. Proved: with an object the call is decided by its properties alone, and exactly which calls are undefined."},
{"property": "C127", "status": "partial", "theorems": ["Judger.C127_false", "Judger.C127_exact", "Judger.C127_c_cpp_partial", "Judger.C127_witness_typed", "Judger.C127_witness_taken"], "note": "False of the code: the child stays in the session of the judger (no setsid). Under general, golang, node and without a rule set the program can type any text to the shell that started the judger; under c_cpp it can still take what is typed. Proved: under c_cpp and c_cpp_file_io nothing is typed, whatever the program does."},
{"property": "C128", "status": "partial", "theorems": ["Judger.C128_false", "Judger.C128_exact", "Judger.C128_others_partial", "Judger.C128_c_cpp_partial", "Judger.C128_witness"], "note": "False of the code: the C/C++ whitelists lack mremap (realloc of a large block), sysinfo (qsort before glibc 2.37) and ioctl (streams on a character device such as /dev/null). Proved: under the other rule sets nothing of an ordinary program is stopped, and under the two whitelists exactly these three deeds are. C128_exact says for every configuration where it holds."},
{"property": "C129", "status": "partial", "theorems": ["Judger.C129_false", "Judger.C129_settled_partial", "Judger.C129_exact", "Judger.C129_witness"], "note": "False of the code: the watchdog is a thread of the judger and dies with it, and the child asks for no signal at its parent's death; a sleeping program stays for ever. Proved: exactly the programs alive at that moment may run on, and none is when the judger had not forked, knew the end of the child or had killed it."},
{"property": "C130", "status": "partial", "theorems": ["Judger.C130_false", "Judger.C130_ends_partial", "Judger.C130_exact", "Judger.C130_verdict", "Judger.C130_witness"], "note": "False of the code: log_write calls localtime in the forked child, and if another thread of the caller was in localtime at the fork, its lock stays taken there. Proved: the child ends if there is no log or no such thread; otherwise (no filter of the caller's own) it waits for ever exactly when it does not start the program, and the verdict after the watchdog's kill is never SYSTEM_ERROR."},
{"property": "C131", "status": "partial", "theorems": ["Judger.C131_false", "Judger.C131_room_partial", "Judger.C131_default_partial", "Judger.C131_refused", "Judger.C131_witness"], "note": "False of the code: the child sets RLIMIT_STACK to max_stack before execve, and a quarter of it bounds the strings; with a small max_stack arguments of 140000 bytes reach the judger and not the program. Proved: the program's strings take no more room than the judger's command line and its path once more, so it fits whenever there is that room, and always with the default stack limit under the usual 8 MiB; and what does not fit is not started."},
{"property": "C132", "status": "partial", "theorems": ["Judger.C132_false", "Judger.C132_exact", "Judger.C132_small_partial", "Judger.C132_python_partial", "Judger.C132_python_only", "Judger.C132_node_only", "Judger.C132_node_partial", "Judger.C132_witness"], "note": "False of the code: the options for memory, stack and output size are read as int, the configuration holds long; 4 GiB of memory cannot be asked for. Proved: exactly which configurations some command line leads to; every one with these three limits below 2 GiB is among them; Python reaches the same ones except the values -1 it takes for not given, and no others; Node the same ones as far as their texts are short, and no others."},
{"property": "C133", "status": "partial", "theorems": ["Judger.Lua.C133_false", "Judger.Lua.C133_exact", "Judger.Lua.C133_sound", "Judger.Lua.C133_freed_partial", "Judger.Lua.C133_same_end", "Judger.Lua.C133_witness"], "note": "False of the code: when an __index metamethod raises an error, the texts copied so far are never freed. Proved: memory is used soundly by every call, and a call that is over has freed all of it exactly if reading the table raised no error after a text was copied."},
{"property": "C134", "status": "proved", "theorems": ["Judger.Report.C134_freed", "Judger.Report.C134_report", "Judger.Report.C134_help"], "note": "The events of the dynamic strings, byte by byte, for any sequence of appends whose text can be put together (C78, C80 give this for every report and for the help). A failing malloc ends the process and is left out."},
{"property": "C135", "status": "partial", "theorems": ["Judger.C135_false", "Judger.C135_shortened_partial", "Judger.C135_integers_partial", "Judger.C135_never_more", "Judger.C135_beyond", "Judger.C135_witness_root", "Judger.C135_witness_unlimited"], "note": "False of the code: the fraction is dropped and NaN becomes 0, so uid NaN runs the program as root and a limit of -1.5 is none. Proved for all numbers: exactly the number without its fraction arrives; integers arrive unchanged; accepted limits are never more than the number given, except for numbers above -2 up to -1; numbers beyond a C int run nothing."},
{"property": "C136", "status": "proved", "theorems": ["Judger.C136_rights", "Judger.C136_output", "Judger.C136_input", "Judger.C136_keeps"], "note": "For every configuration, failure and initial state. The permission rules are those of owner, group and mode; C136_keeps shows that the program owns the files when no uid is given."},
{"property": "C137", "status": "partial", "theorems": ["Judger.C137_false", "Judger.C137_read_exact", "Judger.C137_change_exact", "Judger.C137_others_partial", "Judger.C137_apart_partial", "Judger.C137_c_cpp_partial", "Judger.C137_witness_read", "Judger.C137_witness_change", "Judger.C137_witness_judger"], "note": "False of the code where programs are judged at once under one uid and gid: under every rule set /proc/<pid>/mem of the neighbour can be opened for reading, and under all but c_cpp changed. Proved for judgings under different ids, for the judger with any rule set, and for changes under c_cpp."},
{"property": "C138", "status": "partial", "theorems": ["Judger.C138_false", "Judger.C138_exact", "Judger.C138_used_partial", "Judger.C138_room", "Judger.C138_witness"], "note": "False of the code: the address space is limited and the memory in use is compared, so a program refused a large block it has not used ends as RUNTIME_ERROR, or accepted. Settled for every history: MEMORY_LIMIT_EXCEEDED exactly if more than max_memory was in memory at some time; so it is when all of the address space was in use at the refusal and no more than max_memory was asked for. Nothing is refused within twice max_memory."},
{"property": "C139", "status": "partial", "theorems": ["Judger.C139_false", "Judger.C139_end_exact", "Judger.C139_room_partial", "Judger.C139_end_partial", "Judger.C139_witness_room", "Judger.C139_witness_caught"], "note": "False of the code: the limit on the address space can stop the stack first, and under all rule sets but the two of C/C++ a program can catch SIGSEGV on an alternate stack and be accepted. Proved: growth within max_stack is refused only for the address space; under c_cpp and c_cpp_file_io an overflow ends the program at once, reported with signal 11 as RUNTIME_ERROR or, if it used more than max_memory, MEMORY_LIMIT_EXCEEDED. C139_end_exact says for every configuration where it holds."},
{"property": "C140", "status": "partial", "theorems": ["Judger.C140_false", "Judger.C140_exact", "Judger.C140_c_cpp_partial", "Judger.C140_witness"], "note": "False of the code: under general, golang and node shmget, semget, msgget and mq_open pass the filter, run() removes nothing, and what they make outlives the program. Proved: under c_cpp and c_cpp_file_io no such object exists at any time."},
{"property": "C141", "status": "partial", "theorems": ["Judger.C141_false", "Judger.C141_exact", "Judger.C141_closed_partial", "Judger.C141_witness_open", "Judger.C141_witness_root"], "note": "False of the code: every rule set lets files be opened for reading, so whatever everybody may read the program reads too; without a rule set a set-user-ID root file opens all the rest. Settled with a rule set: a file of another user can come to be read exactly if its mode lets the user and the group of the request read it."},
{"property": "C142", "status": "partial", "theorems": ["Judger.C142_false", "Judger.C142_alter_exact", "Judger.C142_closed_partial", "Judger.C142_c_cpp_partial", "Judger.C142_witness_alter", "Judger.C142_witness_remove"], "note": "False of the code: O_TRUNC passes every filter, and unlink and rename all but the two of C/C++, so what everybody may write to can be emptied or removed. Settled with a rule set: a file of another user can be changed exactly if its mode lets the user and the group of the request write to it; it is not removed where the directory and its sticky bit do not allow it, and never under c_cpp and c_cpp_file_io."}
]}
