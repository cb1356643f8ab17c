{"id": "C01", "title": "Only root may judge", "statement": "If the calling process is not root, run() starts nothing: no process is forked, the error field is ROOT_REQUIRED (-5), and every other result field is 0, whatever the configuration.", "quantifier": "every configuration, every caller uid other than 0, every behaviour of the OS calls", "why_tests_cant": "tests run as root with a few configurations", "anchors": ["src/runner.c:run", "src/runner.h:ERROR_EXIT"]}
{"id": "C02", "title": "Configuration validation is exact", "statement": "For a root caller, run() reports INVALID_CONFIG (-1) exactly when the stack limit is below 1 or one of the cpu/real/memory/process/output limits is neither UNLIMITED (-1) nor at least 1; in that case nothing is forked. Every configuration outside that set gets past validation.", "quantifier": "every configuration", "why_tests_cant": "six integer fields, each over its whole machine range", "anchors": ["src/runner.c:run"]}
{"id": "C03", "title": "Error and verdict are never mixed", "statement": "Whenever error is non-zero, result and all measurements are zero, and error is one of -1..-5; the child-side codes -6..-11 never appear in error.", "quantifier": "every configuration and every combination of OS call outcomes", "why_tests_cant": "needs every failure combination of fork/thread/wait", "anchors": ["src/runner.c:run", "src/runner.h"]}
{"id": "C04", "title": "The verdict is the documented function of the outcome", "statement": "For a run whose child terminated, result is determined by the documented rules: SIGUSR1 means SYSTEM_ERROR; SIGSEGV means MEMORY_LIMIT_EXCEEDED if memory exceeds the limit and RUNTIME_ERROR otherwise; otherwise the first that applies of CPU time, real time, memory, (signal or non-zero exit), else SUCCESS.", "quantifier": "every configuration, every wait status, every resource usage and every start/end time", "why_tests_cant": "the decision depends on seven unbounded inputs and its branches overlap", "anchors": ["src/runner.c:run"]}
{"id": "C05", "title": "Accepted is sound and complete", "statement": "result is SUCCESS with error 0 exactly when the program exited by itself with code 0 and used no more memory, real time and user CPU time than the limits that are set.", "quantifier": "every configuration and outcome", "why_tests_cant": "a single wrongly accepted combination is enough to break a contest", "anchors": ["src/runner.c:run"]}
{"id": "C06", "title": "A program killed by a signal is never accepted", "statement": "If the child was terminated by any signal, result is not SUCCESS.", "quantifier": "every configuration, signal, usage", "why_tests_cant": "64 signals times all usages", "anchors": ["src/runner.c:run"]}
{"id": "C07", "title": "Reported signal and exit code are exact", "statement": "exit_code equals the program's exit code (0..255) and signal is 0 for a normal exit; for a death by signal other than SIGUSR1, signal equals the signal number and exit_code is 0.", "quantifier": "every exit code, every signal, core flag on or off", "why_tests_cant": "bit-level decoding of all statuses", "anchors": ["src/runner.c:run"]}
{"id": "C08", "title": "Measured time and memory are exact", "statement": "real_time is within one millisecond of the elapsed wall-clock time between start and end, cpu_time is the child's user CPU time in whole milliseconds rounded down, memory is the peak resident set in bytes, as long as they fit the machine types.", "quantifier": "every pair of timestamps, every rusage", "why_tests_cant": "rounding and carry across the second boundary for all values", "anchors": ["src/runner.c:run"]}
{"id": "C09", "title": "The result never depends on what the result structure held before", "statement": "Two calls with the same configuration and OS behaviour fill the result structure identically, whatever it contained before.", "quantifier": "every prior content of the result structure", "why_tests_cant": "prior contents are unbounded", "anchors": ["src/runner.c:init_result", "src/runner.c:run"]}
{"id": "C10", "title": "Raising limits never turns an accepted run into a rejected one", "statement": "If a program's outcome is accepted under some limits, the same outcome is accepted under any limits that are at least as large (or unlimited).", "quantifier": "every pair of ordered configurations, every outcome", "why_tests_cant": "relates two executions", "anchors": ["src/runner.c:run"]}
{"id": "C11", "title": "When run() returns normally the judged process has ended", "statement": "If run() returns with error 0, the judged process has terminated and been reaped.", "quantifier": "every child behaviour, including stopping itself", "why_tests_cant": "depends on what the untrusted program does; the wait option decides", "anchors": ["src/runner.c:run (wait4 WSTOPPED)"]}
{"id": "C12", "title": "No judged process outlives a failed run", "statement": "Whenever run() returns with PTHREAD_FAILED or WAIT_FAILED, SIGKILL has been sent to exactly the forked child before returning; when it returns with ROOT_REQUIRED, INVALID_CONFIG or FORK_FAILED no child exists.", "quantifier": "every OS call outcome", "why_tests_cant": "failure injection in all combinations", "anchors": ["src/runner.c:run", "src/killer.c:kill_pid"]}
{"id": "C13", "title": "The log handle is opened once and closed exactly once", "statement": "On every path through run() in the calling process the log is opened first, exactly once, and if it was opened it is closed exactly once, after the last log write, before returning.", "quantifier": "every configuration and OS outcome", "why_tests_cant": "needs every path", "anchors": ["src/runner.c:run", "src/runner.h:ERROR_EXIT", "src/logger.c"]}
{"id": "C14", "title": "Requested limits are in force when the program starts", "statement": "If the judged program is started, its stack, address space, CPU, process-count and file-size limits (soft and hard) are exactly the values derived from the configuration, and limits that are UNLIMITED are left as inherited.", "quantifier": "every valid configuration, every OS outcome, every inherited limit", "why_tests_cant": "a large configuration space; an untaken setrlimit is invisible to most tests", "anchors": ["src/child.c:child_process"]}
{"id": "C15", "title": "The CPU limit never cuts a program short", "statement": "For every valid max_cpu_time the kernel limit in whole seconds is the smallest one strictly above max_cpu_time, so a program that stays within max_cpu_time milliseconds is never killed by it and one it kills has exceeded max_cpu_time.", "quantifier": "every max_cpu_time from 1 to INT_MAX", "why_tests_cant": "all values, and the overflow at the top of the range", "anchors": ["src/child.c:child_process"]}
{"id": "C16", "title": "The address-space limit is twice the memory limit without overflow", "statement": "Unless memory_limit_check_only is set, the address-space limit is exactly 2*max_memory for every max_memory a long can hold, and never the unlimited value.", "quantifier": "every max_memory of type long", "why_tests_cant": "overflow at the top of the range", "anchors": ["src/child.c:child_process"]}
{"id": "C17", "title": "Fail closed", "statement": "The judged program is started only if every requested setup step (limits, redirections, group, user, filter) succeeded.", "quantifier": "every combination of failures of the setup calls", "why_tests_cant": "exponentially many failure combinations", "anchors": ["src/child.c:child_process"]}
{"id": "C18", "title": "Privileges are dropped before the program starts", "statement": "If the program is started with uid and gid other than -1, then its real/effective/saved uid is the requested uid, its gid is the requested gid, and its supplementary group list is exactly that gid.", "quantifier": "every configuration, every initial credential set, every OS outcome", "why_tests_cant": "order of calls matters and failures must be covered", "anchors": ["src/child.c:child_process"]}
{"id": "C19", "title": "The judged program is not root unless the caller asked for it", "statement": "Through the command line, the judged program runs as root only if uid 0 or uid -1 was requested; by default it runs as 65534.", "quantifier": "every command line", "why_tests_cant": "all integer spellings of the option", "anchors": ["src/child.c:child_process", "src/main.c:main"]}
{"id": "C20", "title": "Standard streams are redirected as configured", "statement": "When the program starts, stdin is the input file opened for reading, stdout the output file opened for writing and emptied, stderr the error file; stdout and stderr share one open file (one offset) exactly when the two paths are equal strings; paths not given leave the stream as inherited.", "quantifier": "every configuration, every inherited descriptor table with 0,1,2 open", "why_tests_cant": "descriptor numbers depend on the inherited table", "anchors": ["src/child.c:child_process"]}
{"id": "C21", "title": "No stream is closed twice in the failing child", "statement": "On every failure path of child setup each FILE opened by it is closed exactly once and nothing else is closed, also when output and error share a FILE.", "quantifier": "every failure point", "why_tests_cant": "a double fclose is only reached on rare failures", "anchors": ["src/child.h:CHILD_ERROR_EXIT", "src/child.c:close_file", "src/child.c:child_process"]}
{"id": "C22", "title": "The judged program inherits only its three standard streams", "statement": "When the judged program starts, the only descriptors opened by the judger that it inherits are 0, 1 and 2.", "quantifier": "every configuration", "why_tests_cant": "the leak is not observable in ordinary tests", "anchors": ["src/child.c:child_process", "src/logger.c:log_open"]}
{"id": "C23", "title": "A named syscall profile is always enforced", "statement": "If a rule name is given, the program starts only under the filter with that name; an unknown name never starts the program; with no name no filter is installed.", "quantifier": "every rule-name string, every failure of the seccomp calls", "why_tests_cant": "arbitrary strings and failure points", "anchors": ["src/child.c:child_process", "src/rules"]}
{"id": "C24", "title": "A setup failure is reported as SYSTEM_ERROR", "statement": "If any setup step or the exec itself fails in the child, the caller sees result SYSTEM_ERROR.", "quantifier": "every failure point, every configuration, every log file size", "why_tests_cant": "failure at each point combined with the limits and filter already in force at that point", "anchors": ["src/child.h:CHILD_ERROR_EXIT", "src/child.c:child_process", "src/runner.c:run"]}
{"id": "C25", "title": "Child setup never returns into the caller's code", "statement": "The forked child either becomes the judged program or dies; it never returns from child setup to run a second copy of the caller.", "quantifier": "every OS outcome", "why_tests_cant": "needs every path", "anchors": ["src/child.c:child_process"]}
{"id": "C26", "title": "Every profile lets the judger start the program", "statement": "Under each of the five profiles the judger's own execve of the configured path is permitted.", "quantifier": "every profile, every path address", "why_tests_cant": "all addresses", "anchors": ["src/rules"]}
{"id": "C27", "title": "c_cpp: no new process, thread or other program", "statement": "Under c_cpp or c_cpp_file_io no sequence of system calls creates a process or thread, and no exec succeeds unless its path pointer is the judger's own.", "quantifier": "every sequence of system calls with arbitrary arguments", "why_tests_cant": "unbounded traces of an adversary", "anchors": ["src/rules/c_cpp.c"]}
{"id": "C28", "title": "c_cpp: no file is opened for writing", "statement": "Under c_cpp, no sequence of system calls gives the program a writable descriptor other than duplicates of those it started with.", "quantifier": "every sequence of system calls with arbitrary 64-bit arguments", "why_tests_cant": "2^64 flag values, unbounded traces", "anchors": ["src/rules/c_cpp.c"]}
{"id": "C29", "title": "c_cpp: no file is created or emptied", "statement": "Under c_cpp, no system call creates a new file or truncates an existing one.", "quantifier": "every system call with arbitrary arguments", "why_tests_cant": "flag combinations", "anchors": ["src/rules/c_cpp.c"]}
{"id": "C30", "title": "c_cpp_file_io differs from c_cpp exactly by unrestricted open/openat and dup", "statement": "The two C/C++ profiles agree on every system call except open, openat, dup, dup2 and dup3, which c_cpp_file_io allows unconditionally.", "quantifier": "every system call request", "why_tests_cant": "all requests", "anchors": ["src/rules/c_cpp.c", "src/rules/c_cpp_file_io.c"]}
{"id": "C31", "title": "general: no new process and no signal to others", "statement": "Under general no sequence of system calls creates a process or sends a signal to another process.", "quantifier": "every sequence of system calls", "why_tests_cant": "adversarial traces", "anchors": ["src/rules/general.c"]}
{"id": "C32", "title": "general and golang: no file is opened for writing", "statement": "Under general and golang no sequence of system calls opens a file for writing.", "quantifier": "every sequence of system calls", "why_tests_cant": "adversarial traces", "anchors": ["src/rules/general.c", "src/rules/golang.c"]}
{"id": "C33", "title": "Each blacklist profile blocks exactly its list", "statement": "For general, golang and node, a system call is killed, refused with EACCES or allowed exactly as the profile's list says, for all arguments.", "quantifier": "every system call request", "why_tests_cant": "all requests, 2^64 flag values", "anchors": ["src/rules"]}
{"id": "C34", "title": "Only the judged executable can be executed", "statement": "Under c_cpp, c_cpp_file_io and general the only program file that can ever be executed is exe_path.", "quantifier": "every sequence of system calls and memory contents", "why_tests_cant": "depends on memory contents chosen by the adversary", "anchors": ["src/rules/c_cpp.c", "src/rules/general.c"]}
{"id": "C35", "title": "Foreign-ABI system calls are killed under every profile", "statement": "A system call made through another ABI (for example 32-bit) is killed under every profile.", "quantifier": "every request through a non-native ABI", "why_tests_cant": "all numbers", "anchors": ["src/rules"]}
{"id": "C36", "title": "A filter cannot be weakened later", "statement": "Whatever filters the program adds later, a system call killed by the judger's filter stays killed.", "quantifier": "every sequence of further filters", "why_tests_cant": "adversarial traces", "anchors": ["src/rules"]}
{"id": "C37", "title": "The timer never kills early", "statement": "The real-time watchdog never sends SIGKILL before more than max_real_time milliseconds have passed since the start was recorded.", "quantifier": "every schedule of the caller, the watchdog thread and the child; every max_real_time", "why_tests_cant": "thread schedules", "anchors": ["src/killer.c:timeout_killer", "src/runner.c:run"]}
{"id": "C38", "title": "A timer kill is always reported as a time limit verdict", "statement": "If the child was killed by the watchdog and the clock does not step back, the verdict is REAL_TIME_LIMIT_EXCEEDED or CPU_TIME_LIMIT_EXCEEDED, never SUCCESS, RUNTIME_ERROR or MEMORY_LIMIT_EXCEEDED.", "quantifier": "every schedule, every usage", "why_tests_cant": "rounding of sleep versus rounding of the measurement", "anchors": ["src/killer.c:timeout_killer", "src/runner.c:run"]}
{"id": "C39", "title": "The watchdog only ever signals the judged process", "statement": "No schedule makes the watchdog send a signal after the judged process was reaped (when its pid may belong to somebody else).", "quantifier": "every schedule", "why_tests_cant": "a race window", "anchors": ["src/killer.c:timeout_killer", "src/runner.c:run"]}
{"id": "C40", "title": "The watchdog reads its arguments while they are alive", "statement": "In every schedule the watchdog thread reads pid and timeout before the block holding them has ended.", "quantifier": "every schedule", "why_tests_cant": "a data race on stack memory", "anchors": ["src/runner.c:run (killer_args)", "src/killer.c:timeout_killer"]}
{"id": "C41", "title": "The watchdog is cancelled only while it exists", "statement": "In every schedule pthread_cancel is called only while the (detached) watchdog thread has not terminated.", "quantifier": "every schedule", "why_tests_cant": "use of a dead thread id depends on the schedule", "anchors": ["src/killer.c:timeout_killer", "src/runner.c:run"]}
{"id": "C42", "title": "Watchdog timeouts do not overflow", "statement": "For every valid max_real_time the computed sleep is the smallest number of whole seconds above it.", "quantifier": "every max_real_time from 1 to INT_MAX", "why_tests_cant": "top of the range", "anchors": ["src/killer.c:timeout_killer"]}
{"id": "C43", "title": "A run with a real-time limit ends", "statement": "In every schedule in which the watchdog is not cancelled and its sleep expires, the child receives SIGKILL unless it has already ended, and run() then returns.", "quantifier": "every schedule", "why_tests_cant": "liveness over schedules", "anchors": ["src/killer.c:timeout_killer", "src/runner.c:run"]}
{"id": "C44", "title": "A log entry is written whole and exactly", "statement": "Each log_write appends exactly one line '<LEVEL> [<date>] [<file>:<line>]<message>' and reads no memory outside its buffer.", "quantifier": "every message, file name, level, line", "why_tests_cant": "message lengths around and beyond the buffer size", "anchors": ["src/logger.c:log_write"]}
{"id": "C45", "title": "Concurrent log entries do not interleave", "statement": "With any number of judger processes logging to one file, the file is always a concatenation of whole entries.", "quantifier": "every number of processes, every schedule", "why_tests_cant": "schedules", "anchors": ["src/logger.c:log_write"]}
{"id": "C46", "title": "The log lock is released", "statement": "After log_write returns the caller does not hold the log lock.", "quantifier": "every outcome of flock and write", "why_tests_cant": "failure paths", "anchors": ["src/logger.c:log_write"]}
{"id": "C47", "title": "An accepted integer option has exactly its mathematical value", "statement": "If the command line accepts a value for an integer option, the value used is exactly the integer denoted (decimal, 0x, 0o, 0b, with KB/MB/GB multipliers), never a truncated or wrapped one; values outside int are rejected.", "quantifier": "every string", "why_tests_cant": "all strings, overflow boundaries", "anchors": ["src/argtable3.c:arg_int_scanfn", "src/argtable3.c:strtol0X", "src/argtable3.c:detectsuffix"]}
{"id": "C48", "title": "Every int can be passed in decimal", "statement": "For every int n, the decimal text of n is accepted by an integer option and yields n.", "quantifier": "every n from INT_MIN to INT_MAX", "why_tests_cant": "2^32 values", "anchors": ["src/argtable3.c:arg_int_scanfn"]}
{"id": "C49", "title": "Omitted options take the documented defaults", "statement": "An option not given gets: limits UNLIMITED, stack 16 MiB, check-only off, /dev/stdin, /dev/stdout, /dev/stderr, judger.log, no filter, uid and gid 65534.", "quantifier": "every accepted command line", "why_tests_cant": "all subsets of options", "anchors": ["src/main.c:main"]}
{"id": "C50", "title": "The program receives exactly the requested arguments", "statement": "For every accepted command line the program's argv is exe_path followed by the --args values in order.", "quantifier": "every accepted command line, 0 to 255 --args", "why_tests_cant": "boundary at the array size", "anchors": ["src/main.c:main", "src/runner.h:ARGS_MAX_NUMBER"]}
{"id": "C51", "title": "The program receives exactly the requested environment", "statement": "For every accepted command line the program's environment is exactly the --env values in order.", "quantifier": "every accepted command line, 0 to 255 --env", "why_tests_cant": "boundary at the array size", "anchors": ["src/main.c:main", "src/runner.h:ENV_MAX_NUMBER"]}
{"id": "C52", "title": "Option names may be abbreviated only unambiguously", "statement": "A long option is accepted under its full name or under a prefix that only it has; every other name is rejected as an error.", "quantifier": "every option word", "why_tests_cant": "all strings", "anchors": ["src/argtable3.c:parse_long_options"]}
{"id": "C53", "title": "A bad command line starts nothing", "statement": "If the command line has an unknown option, a positional argument, a missing or empty value, a bad integer, too many occurrences or no exe_path, nothing is run, the exit status is 1, unless --help or --version was given.", "quantifier": "every command line", "why_tests_cant": "all command lines", "anchors": ["src/main.c:main", "src/argtable3.c:arg_parse"]}
{"id": "C54", "title": "Values of string options are passed verbatim", "statement": "A non-empty value of a string option reaches the configuration byte for byte, including '=', spaces and dashes.", "quantifier": "every non-empty string", "why_tests_cant": "all strings", "anchors": ["src/argtable3.c:arg_str_scanfn", "src/argtable3.c:parse_long_options", "src/main.c:main"]}
{"id": "C55", "title": "Command-line parsing always terminates", "statement": "libjudger.so finishes parsing every command line.", "quantifier": "every argv", "why_tests_cant": "non-termination cannot be observed by a test", "anchors": ["src/argtable3.c:getopt_internal", "src/argtable3.c:arg_parse_tagged"]}
{"id": "C56", "title": "The error table never overflows", "statement": "However many mistakes a command line has, at most 10 errors are recorded, within the table's bounds, and at least one is recorded if there is any mistake.", "quantifier": "every command line", "why_tests_cant": "unbounded number of errors", "anchors": ["src/argtable3.c:arg_register_error", "src/argtable3.c:arg_end"]}
{"id": "C57", "title": "Help and version take precedence", "statement": "If --help (or else --version) is given, nothing is run and the exit status is 0, whatever else is on the command line.", "quantifier": "every command line containing them", "why_tests_cant": "all contexts", "anchors": ["src/main.c:main"]}
{"id": "C58", "title": "The printed result is JSON that reads back as the result", "statement": "The text printed after a run is a JSON object whose seven members read back as exactly the result structure.", "quantifier": "every result structure", "why_tests_cant": "2^32/2^64 values per field", "anchors": ["src/main.c:main"]}
{"id": "C59", "title": "The Python binding builds the intended configuration", "statement": "For every well-typed call whose ints fit in int and whose strings are non-empty, the configuration run() receives is exactly the one requested (with -1 meaning the option's default).", "quantifier": "every well-typed call", "why_tests_cant": "all values and strings through formatting, getopt and strtol", "anchors": ["bindings/Python/_judger/__init__.py:run", "src/argtable3.c:arg_parse", "src/main.c:main"]}
{"id": "C60", "title": "The Python binding rejects ill-typed arguments before starting anything", "statement": "If args/env is not a list of strings, a numeric parameter not an int, or a path not a string, ValueError is raised and no process is started.", "quantifier": "every combination of Python values", "why_tests_cant": "all values", "anchors": ["bindings/Python/_judger/__init__.py:run"]}
{"id": "C61", "title": "The Python binding returns the result", "statement": "When the judger prints its JSON on stdout and nothing on stderr, the returned dict has exactly the seven fields with run()'s values; any stderr output raises ValueError.", "quantifier": "every result", "why_tests_cant": "all values", "anchors": ["bindings/Python/_judger/__init__.py:run"]}
{"id": "C62", "title": "The Node binding finds the result after any program output", "statement": "When the judged program's output precedes the JSON on stdout, the Node binding still returns exactly the result and prints exactly the program's output.", "quantifier": "every program output", "why_tests_cant": "arbitrary bytes and chunk boundaries of the reader", "anchors": ["bindings/NodeJS/judger.cc:Method"]}
{"id": "C63", "title": "The Node binding passes arguments unaltered", "statement": "Every argument string passed through the Node binding reaches the judger unaltered.", "quantifier": "every string", "why_tests_cant": "shell metacharacters, 255-byte buffer", "anchors": ["bindings/NodeJS/judger.cc:Method", "bindings/NodeJS/judger.cc:ToCStr"]}
{"id": "C64", "title": "The Node binding accepts any valid list of environment strings", "statement": "A call with env a list of strings is accepted whether or not args is given; env that is not a list is rejected with an exception.", "quantifier": "every pair of args/env values", "why_tests_cant": "combinations", "anchors": ["bindings/NodeJS/judger.cc:Method"]}
{"id": "C65", "title": "The Lua binding can run a program", "statement": "There is a Lua call that gets past configuration validation.", "quantifier": "every Lua argument table", "why_tests_cant": "needs all tables to refute", "anchors": ["bindings/Lua/judger.c:global_judge", "src/runner.c:run"]}
{"id": "C66", "title": "The Lua binding passes limits unaltered", "statement": "Each numeric field of the Lua table reaches the configuration with its value, in particular -1 (UNLIMITED).", "quantifier": "every value", "why_tests_cant": "width of the store", "anchors": ["bindings/Lua/judger.c:global_judge"]}
{"id": "C67", "title": "Lua string lists are bounded and terminated", "statement": "Every accepted args/env table fits its array including the terminating NULL; larger ones are rejected.", "quantifier": "every table", "why_tests_cant": "boundary", "anchors": ["bindings/Lua/judger.c:lua_checkstringtable"]}
{"id": "C68", "title": "All bindings agree on the numeric codes", "statement": "The constants exported by the Python, Node and Lua bindings equal those in runner.h.", "quantifier": "the whole constant table", "why_tests_cant": "drift between files is not tested", "anchors": ["src/runner.h", "bindings"]}
{"id": "C69", "title": "C/C++ profiles isolate other processes", "statement": "A program running under c_cpp or c_cpp_file_io cannot send a signal to, or change the resource limits of, any other process.", "quantifier": "every sequence of system calls and computations", "why_tests_cant": "adversarial programs; the rule set is a whitelist whose effect is a statement about all call sequences", "anchors": ["src/rules/c_cpp.c:_c_cpp_seccomp_rules"]}
{"id": "C70", "title": "Reading an integer option is free of signed overflow", "statement": "Whatever text is given for an integer option, reading it performs no signed multiplication whose result does not fit its type.", "quantifier": "every string", "why_tests_cant": "the overflow shows only for texts with two signs around a base prefix and 63-bit magnitudes, and is silent when it happens", "anchors": ["src/argtable3.c:strtol0X", "src/argtable3.c:arg_int_scanfn"]}
{"id": "C71", "title": "Reordering the argument vector is safe", "statement": "While the command line is read, moving positional words behind the options never divides by zero and never reads or writes outside the argument vector; the vector holds the given words at every moment, each as often as given, and a finished exchange keeps the order inside both groups.", "quantifier": "every argument vector, every option table, with and without POSIXLY_CORRECT, after every number of calls of getopt, including command lines that are never read to the end", "why_tests_cant": "the rotation runs over gcd-many cycles whose shape depends on both block lengths; a zero-length block would divide by zero only in some state of the parser", "anchors": ["src/argtable3.c:permute_args", "src/argtable3.c:gcd", "src/argtable3.c:getopt_internal"]}
{"id": "C72", "title": "Lua tables: type checking and strings", "statement": "judger.run in Lua accepts a table exactly if each of its fifteen fields has a value of the documented type (seccomp_rule_name may be nil); otherwise the error names a field whose value is wrong. Accepted strings and lists of strings reach the configuration unchanged.", "quantifier": "every Lua table, with every value under every key", "why_tests_cant": "the set of tables is unbounded and each field can hold any Lua value", "anchors": ["bindings/Lua/judger.c:global_judge", "bindings/Lua/judger.c:lua_checkstringtable"]}
{"id": "C73", "title": "A Lua call errs or returns the result", "statement": "Every call of judger.run in Lua either raises a Lua error or returns a table showing all seven fields of the result of run(); it never ends the host process.", "quantifier": "every list of arguments and every system behaviour", "why_tests_cant": "the failing calls are those with a surplus argument, which scripts written for the documented signature do not contain; the assertion fails only after the program has been judged", "anchors": ["bindings/Lua/judger.c:global_judge"]}
{"id": "C74", "title": "A program killed for its CPU limit is reported as CPU_TIME_LIMIT_EXCEEDED", "statement": "If the kernel kills the judged program because it has used up the CPU limit it was started with, the result is CPU_TIME_LIMIT_EXCEEDED.", "quantifier": "every configuration with a CPU limit and every split of the used time into user and system time", "why_tests_cant": "test programs burn user time; the wrong verdict appears for programs whose time is mostly system time, at splits that a test cannot choose", "anchors": ["src/runner.c:run", "src/child.c:child_process"]}
{"id": "C75", "title": "Result 0 means accepted", "statement": "A result field of 0 means that the program was run and ended by itself with exit code 0.", "quantifier": "every configuration and every system behaviour", "why_tests_cant": "the counterexamples are all runs in which some system call of the judger fails", "anchors": ["src/runner.c:run", "src/runner.h:ERROR_EXIT"]}
{"id": "C76", "title": "Reported real time does not depend on the system clock being set", "statement": "The reported real_time is within a millisecond of the time that elapsed between start and end of the run, whatever is done to the system clock meanwhile.", "quantifier": "every run and every step of the clock in either direction", "why_tests_cant": "needs the clock to be set during a run; a test machine's clock is not", "anchors": ["src/runner.c:run"]}
{"id": "C77", "title": "What the command line asks for is what the judged program gets", "statement": "When the executable is started from the command line, the program that is executed, its arguments, its environment, its resource limits, its standard streams, its user, group and supplementary groups and its system-call filter are those the words of the command line ask for; whatever the line does not mention has the documented default or is as inherited.", "quantifier": "every command line that leads to a started program, every initial process state with effective uid 0, every behaviour of the system calls", "why_tests_cant": "composes parsing, run(), fork and all steps of the child over every combination of options and failures", "anchors": ["src/main.c:main", "src/runner.c:run", "src/child.c:child_process"]}
{"id": "C78", "title": "The error report stays inside its buffers", "statement": "Whatever command line the executable is given, the report about its mistakes is put together without reading or writing outside the buffers involved (the growing report string and the 200-byte buffer an option is rendered in), and without an int overflow in their sizes.", "quantifier": "every command line of words the kernel can pass (no NUL, shorter than 128 KiB), any number of words and mistakes, with and without POSIXLY_CORRECT", "why_tests_cant": "buffer overruns depend on exact lengths of words in combination with the order of growth of the string; tests sample a few lengths", "anchors": ["src/argtable3.c:arg_print_errors", "src/argtable3.c:arg_dstr_catf", "src/argtable3.c:arg_dstr_cat", "src/argtable3.c:arg_cat_optionv", "src/argtable3.c:arg_cat"]}
{"id": "C79", "title": "The error report names every mistake of the command line", "statement": "A command line that is refused gets a report with one line per mistake, in the order of the words: unknown options and letters, options without a value, options given too often (with their value cut at 198 characters), values that are no integers or do not fit int, then unexpected words, or else the missing --exe_path. From the eleventh mistake on only nine are told, followed by 'too many errors to display'; a last line points to --help.", "quantifier": "every refused command line, with and without POSIXLY_CORRECT", "why_tests_cant": "quantifies over all combinations of mistakes and words", "anchors": ["src/main.c:main", "src/argtable3.c:arg_parse", "src/argtable3.c:arg_print_errors", "src/argtable3.c:arg_end_errorfn", "src/argtable3.c:arg_int_errorfn", "src/argtable3.c:arg_str_errorfn", "src/argtable3.c:arg_lit_errorfn"]}
{"id": "C80", "title": "Help tells every option; version tells the version", "statement": "--help prints a usage line and a list in which every option of the command appears with its placeholder and description, the required one without brackets and the repeatable ones with dots; --version prints 'Version: 2.1.1'.", "quantifier": "every option of the table", "why_tests_cant": "relates the printed text to the whole option table and to what the parser accepts, through the same bounded buffers as C78", "anchors": ["src/main.c:main", "src/argtable3.c:arg_print_syntax", "src/argtable3.c:arg_print_glossary", "src/argtable3.c:arg_cat_option"]}
{"id": "C81", "title": "Every Python call ends, with what run() stored or with an exception", "statement": "_judger.run with arguments of any type and value either raises ValueError before anything is started, or starts /usr/lib/judger/libjudger.so and, once that has ended and nobody else holds its standard output and error open (see C108), comes to an end itself. Exactly the acceptable requests (the documented types with ints and not bools for the numbers, numbers in int range, no zero bytes, no empty texts except the rule name, at most 255 args and 255 env) get as far as run(). If a dictionary is returned the request was acceptable and the dictionary is exactly the seven fields run() stored for it; in every other case ValueError is raised.", "quantifier": "every Python value for each of the seventeen parameters, every outcome of the OS calls, with and without POSIXLY_CORRECT", "why_tests_cant": "ranges over all argument values including texts that look like options, and over every way run() can end", "anchors": ["bindings/Python/_judger/__init__.py:run", "src/main.c:main", "src/runner.c:run"]}
{"id": "C82", "title": "A Python call that raises ValueError has run nothing", "statement": "If the call raises ValueError, run() was not reached, no process was forked and no program was executed, so the caller may correct the arguments and call again.", "quantifier": "every call and every outcome of the OS calls", "why_tests_cant": "any byte on standard error raises, and it may be written at any point of run() or of the child's setup", "anchors": ["bindings/Python/_judger/__init__.py:run", "src/logger.c:log_open", "src/runner.c:run"]}
{"id": "C83", "title": "A Node call returns an object or throws", "statement": "A call of the Node binding's run() with a well-typed argument (plain texts of at most 254 bytes, env only together with args) that comes to its end (see C108) ends by returning the seven fields run() stored, or by throwing a JavaScript exception; in particular a request the judger refuses, such as a number outside int or a missing exe_path, throws.", "quantifier": "every well-typed argument, every output of the judged program, every outcome of run()'s system calls", "why_tests_cant": "ranges over all requests, and what happens on refusal depends on which byte lies before a heap buffer", "anchors": ["bindings/NodeJS/judger.cc:Method", "src/main.c:main", "src/argtable3.c:arg_print_errors"]}
{"id": "C84", "title": "The Node binding refuses values of the wrong type by name", "statement": "If a property of the argument has the wrong type (a number, a text, or a list of texts is expected), run() throws an exception whose message names a wrongly typed property, and nothing is started; it throws for no other reason.", "quantifier": "every argument object", "why_tests_cant": "ranges over all combinations of JavaScript values including nested lists", "anchors": ["bindings/NodeJS/judger.cc:ToNumber", "bindings/NodeJS/judger.cc:ToCStr", "bindings/NodeJS/judger.cc:Method"]}
{"id": "C85", "title": "Standard output carries the program's output followed by the result", "statement": "If no --output_path is given, then at the end the judger's standard output holds what was there before, then what the judged program wrote, then the result object.", "quantifier": "every command line without --output_path that starts a program, every destination of standard output, every output of the program", "why_tests_cant": "tests capture standard output through a pipe; ranges over all outputs and destinations", "anchors": ["src/main.c:main", "src/child.c:child_process"]}
{"id": "C86", "title": "The judged program cannot raise its limits or change its identity", "statement": "With a uid other than 0 (and neither id -1), whatever the judged program and its descendants do, none of them ever has a limit above the one set, or a user id, group id or supplementary group other than those asked for.", "quantifier": "every configuration with a uid other than root, every sequence of actions of the program and of the processes it starts", "why_tests_cant": "ranges over all behaviours of an adversarial program", "anchors": ["src/child.c:child_process", "src/rules/c_cpp.c:_c_cpp_seccomp_rules"]}
{"id": "C87", "title": "No file grows beyond max_output_size", "statement": "With max_output_size given, no file that the judged program or a descendant writes grows beyond max_output_size bytes (or beyond the size it had); the output file, emptied at the start, never exceeds it.", "quantifier": "every configuration with a uid other than root and a max_output_size, every sequence of actions, every file", "why_tests_cant": "ranges over all behaviours of an adversarial program", "anchors": ["src/child.c:child_process"]}
{"id": "C88", "title": "When run() returns nothing is left running and all CPU time is reported", "statement": "When run() returns after the judged program ended, no process started by the program is still running, and cpu_time is the user time of the program and of all processes it started.", "quantifier": "every configuration, every way in which the program and its descendants fork, compute, wait and end", "why_tests_cant": "ranges over all families of processes and schedules", "anchors": ["src/runner.c:run", "src/rules/general.c:general_seccomp_rules", "src/rules/c_cpp.c:_c_cpp_seccomp_rules"]}
{"id": "C89", "title": "A child that cannot start the program says so in the log, and says why", "statement": "If the child cannot start the program, exactly one message is added to log_path: `Error: System errno: <text>; Internal errno: <NAME>`, where NAME is SETRLIMIT_FAILED, DUP2_FAILED, SETUID_FAILED, LOAD_SECCOMP_FAILED or EXECVE_FAILED according to the first set-up stage that failed; a child that starts the program adds none.", "quantifier": "every configuration, every set of system calls that fail, every state of the log", "why_tests_cant": "ranges over all combinations of failing calls and configurations; few of them can be provoked in a test", "anchors": ["src/child.h:CHILD_ERROR_EXIT", "src/child.c:child_process", "src/logger.c:log_write"]}
{"id": "C90", "title": "run() reports each of its own errors once, in the log or on stderr", "statement": "When run() returns with error not 0, it has written exactly one line to log_path, `Error: ` followed by the name of that error code; if the log cannot be opened, locked or written it has written one note to stderr saying which, and nothing to the log. When error is 0 it has written no line and no such note.", "quantifier": "every configuration, every outcome of every system call", "why_tests_cant": "the failure paths of flock, write, fork, pthread_create and wait4 in all combinations", "anchors": ["src/runner.h:ERROR_EXIT", "src/logger.c:log_write", "src/runner.c:run"]}
{"id": "C91", "title": "The files of the standard streams hold what the program wrote and give it what they held", "statement": "Whatever the judged program reads and writes through its standard streams, the file at output_path ends up with exactly what it wrote to standard output, the file at error_path with exactly what it wrote to standard error (one file with both in order when the two paths are equal), and what it reads is what the file at input_path held, from its beginning.", "quantifier": "every configuration, every inherited descriptor table, every way the paths name files, every sequence of reads and writes", "why_tests_cant": "ranges over all interleavings of reads and writes and over all ways in which two paths can name one file", "anchors": ["src/child.c:child_process"]}
{"id": "C92", "title": "What is judged is what the program itself used", "statement": "A program that exits with 0 in time is accepted exactly if the CPU time and the memory that it used itself are within max_cpu_time and max_memory; what the judger used before starting it, in the same process, does not count.", "quantifier": "every configuration and every split of the reported usage into set-up and program, user and system time", "why_tests_cant": "wait4 reports sums and maxima over set-up and program; a test sees only the total of one machine", "anchors": ["src/runner.c:run", "src/child.c:child_process"]}
{"id": "C93", "title": "The program never has more than max_process_number processes", "statement": "With max_process_number given and a uid other than root, the judged program and all its descendants together are never more than max_process_number processes at once.", "quantifier": "every configuration, everything the program, its descendants and other processes of the system do", "why_tests_cant": "ranges over all families of processes, changes of limits and identities, and activity of other users", "anchors": ["src/child.c:child_process"]}
{"id": "C94", "title": "Judgings at the same time do not disturb each other", "statement": "Whatever other judgings run at the same time, the program is started and may have as many processes as max_process_number says.", "quantifier": "every configuration and every number of other processes of the same user", "why_tests_cant": "depends on what else runs on the machine at that moment", "anchors": ["src/child.c:child_process"]}
{"id": "C95", "title": "A program whose output was cut off is not accepted", "statement": "If a write of the judged program to its output file was cut short or refused because of max_output_size, the result is not 0 (accepted).", "quantifier": "every configuration, every sequence of system calls of the program, every setting of signals in the caller", "why_tests_cant": "ranges over everything a program can do with its output, its limits and its signals, and over settings inherited from the caller", "anchors": ["src/child.c:child_process", "src/rules/c_cpp.c:_c_cpp_seccomp_rules", "src/runner.c:run"]}
{"id": "C96", "title": "A program that was started gets a verdict", "statement": "If fork, the timer and the program worked, run() reports no error and the verdict on what the program did, whatever signal settings the caller has and whatever signals reach it meanwhile.", "quantifier": "every configuration, every way a child can change state, every signal settings of the caller, every order of signals, handlers, changes of the child and the steps of wait4", "why_tests_cant": "depends on signal settings inherited from the caller, which tests do not vary, and on the moment at which a signal arrives", "anchors": ["src/runner.c:run"]}
{"id": "C97", "title": "What was not started is not accepted", "statement": "If run() reports error 0 and result 0, the child became the configured program with the configured arguments and environment, and every requested set-up step worked (max_cpu_time up to 2147482647).", "quantifier": "every configuration, every combination of failing set-up steps, signal settings, filters and log states", "why_tests_cant": "one forgotten failure path that ends with exit code 0 is enough; needs all of them", "anchors": ["src/child.c:child_process", "src/child.h:CHILD_ERROR_EXIT", "src/runner.c:run"]}
{"id": "C98", "title": "An accepted result on standard output means what the command line says", "statement": "If the judger prints an object with error 0 and result 0, the program named by --exe_path was started with the limits, streams, ids, filter and environment of the command line, exited with 0, and stayed within --max_cpu_time, --max_real_time and --max_memory; and conversely (max_cpu_time up to 2147482647).", "quantifier": "every command line, every outcome of the OS calls, every course of the child", "why_tests_cant": "end to end over all command lines and executions", "anchors": ["src/main.c:main", "src/runner.c:run", "src/child.c:child_process"]}
{"id": "C99", "title": "An accepted dict means what the Python call says", "statement": "If the Python function returns a dict with error 0 and result 0, the call was well typed, the program it names was started with its environment and limits, exited with 0, and stayed within max_cpu_time, max_real_time and max_memory of the call (max_cpu_time up to 2147482647).", "quantifier": "every call, every outcome of the OS calls, every course of the child", "why_tests_cant": "end to end over all calls and executions", "anchors": ["bindings/Python/_judger/__init__.py:run", "src/main.c:main", "src/runner.c:run", "src/child.c:child_process"]}
{"id": "C100", "title": "A judged program cannot forge the object a Node call returns", "statement": "The judged program writes to the same pipe as the judger. Whatever bytes it and its descendants write there, including NUL bytes, braces, text that looks like a result and any amount of it: if the Node binding returns a value, it is an object whose seven fields are what run() stored.", "quantifier": "every configuration, every execution of the program and its descendants, every byte sequence written before and after the result, every outcome of the OS calls", "why_tests_cant": "ranges over all byte strings an adversary can choose, against the whole JSON grammar and the 254-byte chunks of the reader, and over all orders of writing", "anchors": ["bindings/NodeJS/judger.cc:Method", "src/main.c:main", "src/rules/general.c:general_seccomp_rules"]}
{"id": "C101", "title": "An accepted object means what the Node call says", "statement": "If the Node binding returns an object with error 0 and result 0 for a request of plain texts (at most 254 bytes each, env only together with args, fewer than 255 args), then, whatever the program printed before, the request was acceptable, the program it names was started with its arguments, environment and limits, exited with 0, and stayed within max_cpu_time, max_real_time and max_memory (max_cpu_time up to 2147482647).", "quantifier": "every such request, every output before the result, every outcome of the OS calls, every course of the child", "why_tests_cant": "end to end over all requests, adversarial outputs and executions", "anchors": ["bindings/NodeJS/judger.cc:Method", "src/main.c:main", "src/runner.c:run", "src/child.c:child_process"]}
{"id": "C102", "title": "A judged program cannot forge the dict of a Python call", "statement": "If a Python call whose program shares the judger's standard output (output_path /dev/stdout) returns a dict, it is exactly the seven fields run() stored, whatever the program and its descendants wrote to that output. In particular, if anything but white space is written before the result and nothing after it, the call raises ValueError and returns nothing.", "quantifier": "every sequence of bytes written before and after the result, every judging and every family of processes", "why_tests_cant": "ranges over all byte sequences and all JSON texts that contain the result", "anchors": ["bindings/Python/_judger/__init__.py:run", "src/main.c:main", "src/runner.c:run"]}
{"id": "C103", "title": "SYSTEM_ERROR is never the program's doing", "statement": "If run() reports result SYSTEM_ERROR and no other process interferes, then error is 0, the child died of SIGUSR1 in its own setup, and the program was never started. So a judge may repeat the run without blaming the submission.", "quantifier": "every configuration, every outcome of the OS calls, every sequence of system calls of the judged program that its filters allow", "why_tests_cant": "ranges over everything a hostile program can do under each profile", "anchors": ["src/runner.c:run", "src/child.h:CHILD_ERROR_EXIT", "src/rules/c_cpp.c", "src/rules/general.c", "src/rules/golang.c", "src/rules/node.c"]}
{"id": "C104", "title": "run() leaves nothing behind in the calling process", "statement": "When run() returns, whatever it reports, the calling process has no child more than before, not even a zombie, and after some time no thread more than before. (For the log handle see C13.)", "quantifier": "every interleaving of caller, watchdog thread, child and clock; every fair schedule for the thread", "why_tests_cant": "ranges over all schedules and all failures of pthread_create and wait4", "anchors": ["src/runner.c:run", "src/killer.c:timeout_killer", "src/runner.h:ERROR_EXIT"]}
{"id": "C105", "title": "A program that breaks its rule set is not accepted", "statement": "If the program, or a thread or process it started, makes a system call that the configured rule set refuses by killing the caller, then run() does not report SUCCESS for it.", "quantifier": "every rule set, every history of threads, processes and system calls of the program, every measured usage", "why_tests_cant": "ranges over all programs with any number of threads and processes, and all interleavings of their calls", "anchors": ["src/runner.c:run", "src/rules/c_cpp.c", "src/rules/general.c", "src/rules/golang.c", "src/rules/node.c"]}
{"id": "C106", "title": "run() takes at most the real-time limit, one second and the machine's delays", "statement": "With max_real_time = L ms, on a machine on which nobody who can go on waits longer than d, run() returns no later than L ms + 1 s + 10 d after the start time it recorded, and the reported real_time exceeds L by at most 1 s + 9 d and the rounding to milliseconds.", "quantifier": "every limit, every d, every infinite schedule of caller, watchdog thread, child and clock with delays up to d, every behaviour of the child", "why_tests_cant": "a bound over all schedules; a test sees one, and never the slowest", "anchors": ["src/runner.c:run", "src/killer.c:timeout_killer"]}
{"id": "C107", "title": "The order of the options does not matter", "statement": "Two command lines with the same options and values, in any order and with any accepted spelling, lead to the same run of the judger (or both to help, version or an error report), provided that the values of --args are in the same order in both, and those of --env.", "quantifier": "all command lines that are read to the end, all permutations", "why_tests_cant": "ranges over all orders of all options with all values", "anchors": ["src/main.c:main", "src/argtable3.c:arg_parse"]}
{"id": "C108", "title": "A call of a binding ends when the judger has ended", "statement": "Once the judger has reported on the program, no process that the program left behind (or that was stopped and not ended) has the judger's standard output or error open for writing, so that communicate() in _judger.run and the reading loop of the Node binding come to their end when the judger exits.", "quantifier": "every acceptable request of either binding, every outcome of the program, everything the program and its descendants open, close, pass on, fork and leave behind", "why_tests_cant": "ranges over everything a program and its descendants can do with descriptors, over all paths and all rule sets", "anchors": ["bindings/Python/_judger/__init__.py:run", "bindings/NodeJS/judger.cc:Method", "src/child.c:child_process", "src/runner.c:run"]}
{"id": "C109", "title": "The program and its descendants have bounded memory", "statement": "With max_memory and max_process_number given, memory_limit_check_only off and a uid other than root, no process of the program ever has an address space of more than twice max_memory, and all of them together never more than max_process_number times that, whatever they do to their limits.", "quantifier": "every configuration, every sequence of mappings, limit changes, identity changes, forks and exits of the program and its descendants, every activity of other processes", "why_tests_cant": "a bound over all behaviours of a whole family of hostile processes", "anchors": ["src/child.c:child_process"]}
{"id": "C110", "title": "Memory is that of the program and its descendants together", "statement": "If run() reports SUCCESS, the memory of the program and its descendants together was at no time more than max_memory; and memory is never more than they (or the caller's copy before execve) had together.", "quantifier": "every configuration, every history of memory use, forks, exits and waits in the family", "why_tests_cant": "ranges over all histories of a family of processes", "anchors": ["src/runner.c:run"]}
{"id": "C111", "title": "A program under a rule set has no network", "statement": "Under each of the five rule sets, whatever the program and its descendants do, none of them gets a network socket.", "quantifier": "every rule set, every sequence of system calls through any ABI, every kernel with or without rings that open sockets", "why_tests_cant": "ranges over all system calls and all sequences of them, including ways a test author does not think of", "anchors": ["src/rules/c_cpp.c:_c_cpp_seccomp_rules", "src/rules/general.c:general_seccomp_rules", "src/rules/golang.c:golang_seccomp_rules", "src/rules/node.c:node_seccomp_rules"]}
{"id": "C112", "title": "A result of which only the beginning arrives is not taken for another", "statement": "If the judger is killed or crashes before all of its result has arrived, or its standard output takes no more, then no binding returns another result: the Python call returns a dict only if the whole result arrived, and the Node call an object only with the values of the result.", "quantifier": "every result, every number of characters that arrive, every output of the judged program before it", "why_tests_cant": "every point at which a text can be cut, after every possible output of the judged program", "anchors": ["src/main.c:main", "bindings/Python/_judger/__init__.py:run", "bindings/NodeJS/judger.cc:Method"]}
{"id": "C113", "title": "A judged program leaves the judger's log alone", "statement": "Whatever the judged program and its descendants do, if their user may not write the log file by name, the log holds what it held before followed by exactly what judgers wrote: nothing is removed, changed or added.", "quantifier": "every configuration and rule set, every sequence of system calls of the program and its descendants, interleaved in every way with the entries of any number of judgers", "why_tests_cant": "ranges over all system calls and all interleavings", "anchors": ["src/logger.c:log_open", "src/runner.c:run", "src/child.c:child_process", "src/rules/c_cpp.c:_c_cpp_seccomp_rules"]}
{"id": "C114", "title": "A judged program cannot signal the judger or another judging", "statement": "With a uid other than root, neither the judged program nor any of its descendants can ever send a signal to a process outside: not to the judger, and not to a program that is judged at the same time.", "quantifier": "every configuration and rule set, every sequence of changes of identity, executions, forks and filters, every signalling system call through any ABI", "why_tests_cant": "ranges over all histories of a family of processes and all ways to send a signal", "anchors": ["src/child.c:child_process", "src/rules/general.c:general_seccomp_rules", "src/rules/c_cpp.c:_c_cpp_seccomp_rules", "src/rules/golang.c:golang_seccomp_rules", "src/rules/node.c:node_seccomp_rules"]}
{"id": "C115", "title": "The same request means the same run in Python and in Node", "statement": "If the Python function and the Node function are called with the same values under the same names (texts of letters, digits and the like, at most 254 bytes; fewer than 255 args), both lead to run() with the same configuration.", "quantifier": "every acceptable request", "why_tests_cant": "equality of two programs on all inputs", "anchors": ["bindings/Python/_judger/__init__.py:run", "bindings/NodeJS/judger.cc:Method", "src/main.c:main"]}
{"id": "C116", "title": "A judged program does not hold up other judgings through the log", "statement": "Whatever the judged program and its descendants do, if their user may not open the log by name, another judger that has something to report gets the lock of the log and writes its entry; it is never kept waiting by a judged program, running or left behind.", "quantifier": "every configuration and rule set, every sequence of system calls of the program and its descendants, interleaved in every way with other judgers", "why_tests_cant": "ranges over all system calls and interleavings; a wait without end cannot be observed in a test", "anchors": ["src/logger.c:log_open", "src/logger.c:log_write", "src/child.c:child_process", "src/rules/c_cpp.c:_c_cpp_seccomp_rules"]}
{"id": "C117", "title": "The program and its descendants have bounded CPU time", "statement": "With max_cpu_time given and a uid other than root, the judged program and all its descendants together never use more CPU time (user and system) than max_cpu_time, one second and one tick of the kernel's clock.", "quantifier": "every configuration and rule set, every sequence of changes of limits and identity, executions, forks and computing", "why_tests_cant": "a bound on all programs", "anchors": ["src/child.c:child_process", "src/rules/c_cpp.c:_c_cpp_seccomp_rules"]}
{"id": "C118", "title": "A judged program stores a bounded amount on disc", "statement": "With all three streams configured, max_output_size given and a uid other than root, the judged program and its descendants together make files longer by at most twice max_output_size (output and error), and leave nothing else on disc.", "quantifier": "every configuration and rule set, every sequence of opening, writing, truncating, forking, changing limits and crashing, over all files", "why_tests_cant": "a bound on all programs and all files", "anchors": ["src/child.c:child_process", "src/logger.c:log_open", "src/rules/c_cpp.c:_c_cpp_seccomp_rules"]}
{"id": "C119", "title": "A confined judger works the same", "statement": "A judger that runs inside a container whose system call filters allow the calls it makes itself starts the same programs, with the same limits, identity and streams, and fails in the same way, as outside; a program may then call what its rule set and the container both allow. Of the calls on the list none can be spared.", "quantifier": "every set of outer filters, every configuration, every combination of failing calls, every state the child starts in", "why_tests_cant": "ranges over all filters; a test runs in the one container at hand", "anchors": ["src/child.c:child_process", "src/rules/c_cpp.c:_c_cpp_seccomp_rules", "src/logger.c:log_write"]}
{"id": "C120", "title": "A judging opens the files it is told to and no others", "statement": "However a judging ends, its child has opened the input for reading, then the output, then the errors for writing, stopping at the first that fails, and nothing else; only output and errors are ever emptied or created. If a limit cannot be set or the input cannot be opened, they are left as they were.", "quantifier": "every configuration, every combination of failing calls, every state the child starts in", "why_tests_cant": "ranges over all combinations of failures, most of which cannot be provoked", "anchors": ["src/child.c:child_process", "src/child.h:CHILD_ERROR_EXIT"]}
{"id": "C121", "title": "Parsing the command line uses its memory soundly", "statement": "Whatever words the judger is called with, the table of its options is used soundly: no access lies outside an allocated block or in one already freed, nothing is read that was not written, nothing is freed twice; and when the judger ends, every block has been freed.", "quantifier": "every command line of any length, with and without POSIXLY_CORRECT, every number of steps (also where parsing does not end)", "why_tests_cant": "ranges over all command lines; reading beyond a block or using a freed one often shows no effect in a test", "anchors": ["src/main.c:main", "src/argtable3.c:arg_parse", "src/argtable3.c:alloc_longoptions", "src/argtable3.c:arg_register_error", "src/argtable3.c:arg_freetable"]}
{"id": "C122", "title": "A judged program cannot redirect the files of other judgings", "statement": "Whatever a judged program and its descendants do, in whatever directories their user may write, a name leads afterwards to the file it led to before or to one that did not exist then; so a later judging, which opens output_path and error_path as root and empties them, overwrites no other file that existed.", "quantifier": "every configuration, every program and all its descendants, every set of writable directories, every arrangement of names and symbolic links, every later judging", "why_tests_cant": "ranges over everything a program can do to names; a test uses a fresh directory", "anchors": ["src/child.c:child_process", "src/rules/general.c:general_seccomp_rules", "src/rules/c_cpp.c:c_cpp_seccomp_rules"]}
{"id": "C123", "title": "Threads that judge at the same time write their own log entries", "statement": "If several threads of one process call run() at the same time, each error logged by one of them appears in the log whole and exactly as if it had been alone, and nothing else does.", "quantifier": "every number of threads, every order of their steps, all messages, source file names, line numbers and times", "why_tests_cant": "depends on the order in which threads take their steps inside log_write; a test sees a handful of orders", "anchors": ["src/logger.c:log_write", "src/runner.h:ERROR_EXIT"]}
{"id": "C124", "title": "Judging writes nothing of the caller's a second time", "statement": "Whatever happens in the forked child, what the caller of run() had printed but not yet written reaches its streams once, and none of the functions the caller registered to be called at exit is called in the child.", "quantifier": "every configuration, every failure, every state of the calling process, every text in hand", "why_tests_cant": "needs a failure at each setup step together with each signal setting of the caller and output still in its buffers", "anchors": ["src/child.h:CHILD_ERROR_EXIT", "src/child.c:child_process", "src/runner.c:run"]}
{"id": "C125", "title": "A program starts in surroundings that the request settles", "statement": "Two judgings with the same request start the program with the same resource limits, user, group and supplementary groups, open files, system call filters, and ignored and blocked signals, whatever process calls run().", "quantifier": "every configuration, any two states of the calling process", "why_tests_cant": "a test runs from one caller; limits, descriptors, signal settings and filters of all possible callers cannot be enumerated", "anchors": ["src/child.c:child_process", "src/runner.c:run"]}
{"id": "C126", "title": "A Node call that cannot be carried out throws", "statement": "A call of the Node binding's run() without an argument, with an argument that is not an object, or when no process can be created for the command, throws a JavaScript exception.", "quantifier": "every argument value, popen working or not", "why_tests_cant": "the values a caller may pass are unlimited, and failing popen needs a machine out of processes or memory", "anchors": ["bindings/NodeJS/judger.cc:Method", "bindings/NodeJS/judger.cc:ToNumber"]}
{"id": "C127", "title": "A judged program leaves the input of the caller's terminal alone", "statement": "Whatever the judged program and its descendants do, no character appears as typed on the terminal from which the judger was started, and none that somebody typed there is taken by the program.", "quantifier": "every configuration, rule set, and sequence of system calls of the program and its descendants", "why_tests_cant": "judged programs are arbitrary, and tests run without a terminal", "anchors": ["src/child.c:child_process", "src/rules/general.c:general_seccomp_rules", "src/rules/golang.c:golang_seccomp_rules", "src/rules/node.c:node_seccomp_rules", "src/rules/c_cpp.c:_c_cpp_seccomp_rules"]}
{"id": "C128", "title": "A rule set does not stop an ordinary program", "statement": "A program written in C or C++ that only computes, allocates memory, sorts, reads its standard input, writes its standard output and errors, and ends, makes no system call that its rule set answers with death.", "quantifier": "every rule set, configuration, start, and system call of such a program with any arguments", "why_tests_cant": "which calls the C library makes depends on sizes, on what the standard streams are, and on the version of the library; tests try a few small programs with files as streams", "anchors": ["src/rules/c_cpp.c:11-90", "src/rules/general.c:10-59", "src/rules/golang.c:10-51", "src/rules/node.c:10-36"]}
{"id": "C129", "title": "A judged program does not outlive a killed judger", "statement": "If the process that called run() is killed at any moment (by its own caller, for want of memory, by an interrupt), the judged program ends too, at the latest one second after its real-time limit.", "quantifier": "every moment of the judging, every schedule, every real-time limit, every behaviour of the program", "why_tests_cant": "the moment of death may be anywhere between two system calls, and that a program runs on for ever cannot be observed", "anchors": ["src/runner.c:56-98", "src/killer.c:14-33", "src/child.c:34-175"]}
{"id": "C130", "title": "A child that cannot start the program ends", "statement": "When a step of the setup fails (a file is missing, a limit or a user is refused, the rule set cannot be loaded, the program cannot be executed), the child process ends and run() returns; it does not wait for ever.", "quantifier": "every configuration, every failing call, every state of the other threads of the calling process at the fork", "why_tests_cant": "it depends on what another thread is doing in the instant of the fork, and an endless wait cannot be observed", "anchors": ["src/child.h:7-19", "src/logger.c:30-66", "src/child.c:34-175", "src/runner.c:62-64"]}
{"id": "C131", "title": "What can be passed to the judger can be passed on to the program", "statement": "If the operating system accepts the judger's command line, then the program's path, arguments and environment given in it are not too long for execve under the stack limit of the request: the program does not fail to start for the length of its arguments.", "quantifier": "every accepted command line, every stack limit of the caller and of the request, every length of arguments and environment", "why_tests_cant": "the sum of all lengths, against a bound that moves with max_stack; tests pass a few short arguments", "anchors": ["src/child.c:36-46", "src/child.c:173", "src/main.c:111-144", "src/argtable3.c:4555-4575", "src/argtable3.c:5165-5260"]}
{"id": "C132", "title": "Every configuration can be asked for", "statement": "For every configuration that run() accepts and whose texts can be words of a command line, there is a command line of the executable (and a call of the Python binding, which uses it) that asks for exactly this configuration.", "quantifier": "every configuration: all limits within their C types, all texts, all lists up to the documented length", "why_tests_cant": "it speaks about the existence or absence of any command line for a given configuration", "anchors": ["src/main.c:15-144", "src/runner.h:42-60", "src/argtable3.c:arg_int_scanfn", "bindings/Python/_judger/__init__.py:17-80"]}
{"id": "C133", "title": "A Lua call gives back its memory", "statement": "Whatever judger.run is given in Lua, the texts it copies are used soundly (none is used after it was freed, or freed twice), and when the call is over, with a result or with a Lua error, every one of them has been freed.", "quantifier": "every number and kind of arguments, every table (also those whose fields cannot be read without an error), every outcome of run()", "why_tests_cant": "leaks and uses of freed memory mostly show no effect, and the tables are unbounded", "anchors": ["bindings/Lua/judger.c:85-106", "bindings/Lua/judger.c:108-201"]}
{"id": "C134", "title": "Printing errors and help gives back its memory", "statement": "Whatever mistakes a command line has, the report about it is put together and printed without any access outside allocated memory, without reading memory not written before and without using or freeing memory twice, and afterwards everything is freed; the same for the help.", "quantifier": "every command line that is reported as wrong; more generally every sequence of texts of any length appended to any number of strings", "why_tests_cant": "the buffers grow with the words of the command line; leaks and reads past the end mostly show no effect", "anchors": ["src/argtable3.c:923-1210", "src/argtable3.c:2736-2820", "src/argtable3.c:5570-5789", "src/main.c:47-63"]}
{"id": "C135", "title": "A number given to the Node binding is the number the judger gets", "statement": "Where a Node call leads to a run, every limit, the uid and the gid of the configuration are exactly the JavaScript numbers given under their names.", "quantifier": "every JavaScript number (NaN, infinities, fractions, any size) for every numeric option, every other option, both ways V8 converts numbers beyond 64 bits", "why_tests_cant": "there are 2^64 numbers for each option; a wrong conversion shows only as a different limit or identity of the judged program", "anchors": ["bindings/NodeJS/judger.cc:34-41", "bindings/NodeJS/judger.cc:125-131", "src/main.c:69-168"]}
{"id": "C136", "title": "Files are opened with the rights of the judger and belong to it", "statement": "Every input, output and error file of a judging is opened with the effective user and group of the process that called run, whatever uid and gid the request names. So a file closed to everybody but root can be given as input although the program itself may not open it, and the files the judging makes belong to root: a program judged under another uid can neither open them anew to write nor change their mode, where the umask keeps others from writing.", "quantifier": "every configuration, every combination of failing system calls, every initial state of the process, every umask that takes the write bits of group and others away, every mode and owner of an existing file", "why_tests_cant": "an open moved behind the change of identity works in every test run as root on files open to all; it shows only for the permissions nobody tried", "anchors": ["src/child.c:83-137", "src/runner.c:62-64"]}
{"id": "C137", "title": "A judged program cannot look into another judging or change it", "statement": "With a uid other than root, neither the judged program nor any of its descendants can ever read or change the memory of a process outside: not of the judger, and not of a program that is judged at the same time.", "quantifier": "every configuration and rule set, every sequence of changes of identity, executions, forks and filters, every system call through any ABI that reads or changes the memory of another process", "why_tests_cant": "ranges over all histories of a family of processes, all pairs of judgings and all ways into another process", "anchors": ["src/child.c:129-171", "src/rules/c_cpp.c:11-91", "src/rules/general.c:11-59", "src/rules/golang.c:11-51", "src/rules/node.c:11-36"]}
{"id": "C138", "title": "A program that is refused memory is reported as MEMORY_LIMIT_EXCEEDED", "statement": "With a memory limit in force, a program that was refused memory because of it is reported as MEMORY_LIMIT_EXCEEDED, whatever it does after the refusal; and nothing is refused to a program whose address space stays within twice max_memory.", "quantifier": "every configuration with a memory limit, every history of mapping, using and giving back memory, every refusal, every way the program ends within the limits on time", "why_tests_cant": "tests allocate one block and touch all of it; whether a refusal shows in the verdict depends on how much of the address space was ever in memory, for every possible history", "anchors": ["src/child.c:43-55", "src/runner.c:109-138"]}
{"id": "C139", "title": "A program has the stack it was promised, and overflowing it is fatal", "statement": "The stack of the judged program can grow up to max_stack, whatever else the program has mapped; and a program whose stack would grow further dies of SIGSEGV and is not accepted.", "quantifier": "every valid configuration, every starting state, every history of growth of the stack, mappings, handlers and alternate stacks that the rule set lets through", "why_tests_cant": "whether the stack can grow depends on all that was mapped before, and whether an overflow is fatal on every call the filter lets through; a test shows one recursion", "anchors": ["src/child.c:37-55", "src/rules/c_cpp.c:11-91", "src/rules/general.c:11-59", "src/runner.c:117-125"]}
{"id": "C140", "title": "A judged program leaves nothing behind in the kernel", "statement": "When the judged program and all processes it started have ended, none of the shared memory segments, semaphores and message queues they made is left on the machine.", "quantifier": "every configuration, every starting state, every sequence of calls, forks, filters and ends of the program and its descendants", "why_tests_cant": "it is about every call the filter lets through, in any order and by any descendant; a test sees the leavings of one program, and only if it looks for them", "anchors": ["src/rules/c_cpp.c:11-91", "src/rules/general.c:11-59", "src/rules/golang.c:11-51", "src/rules/node.c:11-36", "src/child.c:140-171"]}
{"id": "C141", "title": "A judged program reads no files of other users", "statement": "A file that does not belong to the user the program runs as, such as the answers of the problem, cannot be opened for reading by the judged program or any process it starts, whatever they do before.", "quantifier": "every valid configuration with a uid and a gid, every file with any owner, group and mode, every sequence of changes of identity, executions, forks, chmod and chown", "why_tests_cant": "it depends on every way to another identity or another mode, in any order and by any descendant; a test tries one file in one way", "anchors": ["src/child.c:128-137", "src/child.c:140-171", "src/rules/c_cpp.c:11-91", "src/rules/general.c:38-52"]}
{"id": "C142", "title": "A judged program changes and removes no files of other users", "statement": "A file that does not belong to the user the program runs as is never changed by the judged program or any process it starts, and never removed from a directory that does not belong to that user, whatever they do before.", "quantifier": "every valid configuration with a uid and a gid, every file and directory with any owner, group and mode, every sequence of changes of identity, executions, forks, chmod and chown", "why_tests_cant": "it depends on every call that can write, empty, rename or unlink and on every way to another identity; a test tries a few", "anchors": ["src/child.c:128-137", "src/child.c:140-171", "src/rules/c_cpp.c:11-91", "src/rules/general.c:11-59", "src/rules/golang.c:11-51", "src/rules/node.c:11-36"]}
