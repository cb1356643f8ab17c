# A Lean 4 model of QingdaoU/Judger

The model follows the C, Python and C++ sources in `/repo` function by function. Every definition in `lean/Verif/Model` cites the
file and lines it stands for. Properties are in `properties.jsonl`, their status and theorem names in `MANIFEST.json`.

## Layout

| module | content |
|---|---|
| `Verif/Base/C` | C strings (`List Char`), C integer conversions, undefined behaviour (`CRes.ub`), decimal printing |
| `Verif/Model/Config` | `runner.h`: constants, `struct config`, `struct result` |
| `Verif/Model/Runner` | `runner.c` in the calling process |
| `Verif/Model/Kernel` | the process state that the child's system calls act on; the failure oracle |
| `Verif/Model/Seccomp` | filters as data, libseccomp's and the kernel's decision, the five rule sets of `rules/*.c` |
| `Verif/Model/Child` | `child.c`, `child.h` |
| `Verif/Model/Killer` | `killer.c` and the interleavings of caller, watchdog thread and child |
| `Verif/Model/Logger` | `logger.c`: one entry at byte level; several writers as a transition system |
| `Verif/Model/LogThreads` | `logger.c` with its static buffers in several threads |
| `Verif/Model/Permute`, `Getopt`, `ArgTable`, `Report`, `Storage`, `Main` | the parts of `argtable3.c` that `main.c` uses, with the memory they use; `main.c` |
| `Verif/Model/Python`, `Node`, `Lua` | `bindings/Python/_judger/__init__.py`, `bindings/NodeJS/judger.cc`, `bindings/Lua/judger.c` |
| `Verif/Spec/*` | what the properties say: verdict rules, sandbox, watchdog, log, command-line language, JSON, shell, binding requests |
| `Verif/Lemmas/*` | proofs about the model |
| `Verif/Props/*` | the property theorems, named `Cnn_...`, with `example`s showing that the hypotheses can be met |

Names: `Cnn_full` is the whole claim as a definition where it is false of the code; `Cnn_false : ¬Cnn_full` its negation;
`Cnn_witness...` the concrete run; `..._partial` what does hold, with a comment saying what is missing.

## How each property is modelled and proved

`run()` (C01-C13). A function from the configuration, the previous contents of the result and the outcome of every OS call (getuid,
fork, pthread_create, wait4 and its status and rusage, both timestamps, opening of the log) to the result and the list of
visible effects in order. The specification (`Spec/Verdict`) is the documented verdict table and does not mention `run`. All theorems quantify
over all configurations, prior results and OS outcomes. C11 is false (`wait4` with `WSTOPPED`).

The child (C14-C18, C20-C25). `child_process` is a program in a state monad over limits, credentials, descriptor table, open files
and installed filters; each system call first passes the filters installed so far, and an arbitrary oracle decides which calls
fail. Theorems quantify over all oracles and initial states. C15 (`max_cpu_time + 1000`), C22 (log descriptor inherited) and C24 (a failure
is not always visible as SYSTEM_ERROR) are false. `Props/ExecLost` shows for every configuration that a failed `execve` under the two C/C++
rule sets ends in SIGSYS and is never reported as SYSTEM_ERROR. `Props/Muted`: with SIGUSR1 ignored or blocked no failure at all is. `Props/ToldExact` settles C24 and C89: in quiet surroundings that failure, with nothing failing before it, is the only
one that is not reported and not logged.

Seccomp (C26-C36, C69). Filters are lists of rules; `decide` answers a request (architecture, number, six 64-bit arguments). The
adversary is any list of requests acting on a small kernel (`Spec/Sandbox`). `Spec/Syscalls` has the kernel's table of names and numbers and says what each rule set
promises for each named call; `C33_by_name` compares. C29, C31, C32, C34, C69 are false. `Props/Loopholes` lists
every documented call that breaks C31 (signals) and C32, and shows that each is let through. The calls that break C29 and C69 all are, too. C34 fails for every request: any file can be executed (`C34_any_file`).

Watchdog (C37-C43). A labelled transition system; a step is one system call or one access to shared memory of any actor, or the
passing of time. Safety by invariants over all reachable states, C43 by ranks that grow along every fair schedule. The block-scoped `killer_args`
is memory whose value becomes arbitrary when the block ends. C37-C43 are false in the ways MANIFEST.json notes.

Logger (C44-C46). One `log_write` gives the bytes handed to `write`; for several writers a transition system over open file descriptions, so
that `flock` behaves as flock(2) says. All three are false in some case.

Command line (C19, C47-C57, C70, C71). Characters of the argument vector are processed as `getopt_internal`, `parse_long_options`,
`permute_args`, the argtable scan and check functions, `strtol0X`, `detectsuffix` and `main` process them. Non-termination is visible: the
loop takes fuel, and `MainDoes` says that some amount of fuel suffices. The specification (`Spec/Cli`) is a grammar of
command lines (`Scan`), of integers (`IntText`) and their meaning (`Means`). C47, C50, C53, C55, C57, C70 are false; `Props/Outcome` settles which
lines end in which way. `permute_args` is modelled by its
cycles of swaps; C71 is an invariant over all calls of getopt.

Result text (C58). Decimal printing; the grammar of RFC 8259 (`Spec/JsonText`: which values a text denotes, numbers and strings kept as written),
and a reader for flat objects of integers. A text denotes at most one value (`Lemmas/JsonUnique`). `JSON::Parse` and `json.loads` are that grammar, the latter with the three words Python adds.

Python (C59-C61). A call is an arbitrary value per parameter. Composed with the command line: the configuration `run()` receives is compared
with the one described by the call. C59 is false through C50 only.

How a Python call ends (C81, C82, `Props/PythonCall`). The words of the call, `main`, `run()`, the bytes written to standard output and standard
error, and `json.loads` composed. `early` is what the program writes to the judger's standard output. That `communicate()` comes to its end is C108. C82 is false when the log cannot be opened; `C82_exact` determines the calls that raise after `run()` has returned.

Node (C62-C64). The command string, a description of the shell's word splitting for plain characters, blanks, semicolons, single quotes and
backslashes (`Spec/Shell`), and the reading loop with its 254-byte chunks. All three are false; C62 is exact for output without '{' (`Props/NodeNul`): the result is lost if and only if there is a NUL in the piece it begins in; `C63_quoted_partial` shows that a caller who quotes every text gets any text through, up to the buffer.

Items of the arguments (C84, `Props/NodeLists`). Null, undefined, lists, and objects without a property `args` vanish (`C84_vanish`); an object with a text in that property stands for the text; every other item that is no string is refused (`C84_items_exact`).

How a Node call ends (C83, C84, `Props/NodeCall`). The command string, the shell's words, `main`, `run()` or the error report, and the reading loop composed.
Both are false.

Forged results (C100-C102, `Props/Forged`). The judged program shares the pipe with the judger. Whatever bytes come before the result, the text the
binding hands to the parser ends with the seven lines of the result; a lemma about the grammar (no token straddles the first of these lines, and a value
that ends with a number is that number) shows that a value such a text denotes is an object whose last members are the result's. C100 is false where a
process can be left behind that writes later. `json.loads` reads the whole text: with the result at its end (or only blanks before it) nothing but
blanks can stand around the result (brackets are counted); C102 is false where one process writes before and another after it.

Lua (C65-C67, C72, C73) and constants (C68). A table is a list of key-value pairs in the order of `lua_next`; a call is a list of argument
values, composed with `run()`. C65, C66 and C73 are false.

Limits and clocks (C74-C76, `Props/Clock`). Compositions of the child's limits with the verdict of `run()`: the kernel kills when user and
system time together reach the limit (`Spec/Clock`). All three are false of the code; `C75_exact` and `C76_exact` say for which runs and which steps of the clock.

From words to program (C77, `Props/Delivery`). `main`, `run()`, the fork and `child_process` composed: limits, streams, identity, groups, filter,
arguments and environment of the started program are compared with the words of the command line. False through C50 only.

Printed texts (C78-C80, `Model/Report`). The growing string of argtable (its 200-byte start, growth, `refreshUsed`), the 200-byte buffer in which an
option is rendered, and the error functions write into blocks of cells; a write or read outside a block gives no result, so "there is a
result" is memory safety. `Spec/Report` lists the mistakes of a command line from its words and gives the text for each. For `--opt ""` the
quoted word is the empty value, not the option; the specification says the same. C79 is false for control characters used as letters. Where a partial claim can be settled completely, a theorem `Cnn_exact` (or `C15_top`) says for which inputs it holds and for which not: C70, C74, C79, C82 among others.

Standard output of the judger (C85, `Props/Console`). C77 composed with what opening `/dev/stdout` means for a pipe and for a regular file
(`Spec/Console`) and with the schedules of `Model/Killer`, which say when the program can still write. False for regular files, and for a
program that stops itself.

While the program runs (C86-C88, `Props/Life`, `Props/Family`). The state in which the child leaves the program (C14, C18, C23) is continued by a
description of what the kernel lets processes do to limits, ids and file sizes (`Spec/Life`) and of processes, waiting and reported times
(`Spec/Family`). All three are false without a rule set.

Errors of `run()` itself (C90, `Props/Errors`). Opening, locking and writing the log are outcomes in `RunEnv`; `run()` writes to the log at
most once, so one outcome each is enough.

Failures of the child in the log (C89, `Props/Told`). The process state carries the messages written to the log (`Proc.notes`, without the
date and level that C44 is about); the text of `strerror(errno)` is an arbitrary text of the environment. `Spec/Told` sorts the
requested calls into five stages and asks for the name of the first that fails. False when `execve` fails under a C/C++ profile.

Contents of the stream files (C91, `Props/Streams`). C20 continued by a description of files, positions and truncation (`Spec/Streams`); a file
may have several names. False when it has.

What counts (C92, `Props/Own`). The usage that `wait4` reports is split into set-up and program (`Spec/Own`: execve does not reset it). False in
both directions: system time is not counted, the memory of the calling process is.

Numbers of processes (C93, C94, `Props/Crowd`). RLIMIT_NPROC as the kernel counts it, per real user (`Spec/Crowd`), on top of `Spec/Life`. C93 is false
without a rule set, C94 because other judgings under the same uid count.

Signal settings of the caller (C95, C96, `Props/Signals`). Ignored and blocked signals are part of the process state and survive fork and execve.
`Spec/Signals` describes writes at RLIMIT_FSIZE and what a program can do to its signals and limits; C95 is an invariant over all its calls.
`Spec/Wait` is wait4 in a process with handlers, blocked and ignored signals and other threads, as a transition system in which signals arrive at any time; a child that has changed
state is found before a signal interrupts. C96 is an invariant of it; `C96_exact` says for which callers. Both are false: for writes cut short, for callers that ignore SIGXFSZ or SIGCHLD, and for callers with handlers that
interrupt or reap.

What "accepted" rests on (C97-C99, `Props/Accepted`). `Spec/Accepted` says how the forked child can come to the state change that `wait4` reports:
as the program, by a failure path, by interruption from outside, or through undefined behaviour. Composition of the theorems about `run`,
`child_process`, `main` and the Python function.

Blame (C103, `Props/Blame`). `Spec/Blame` says what a program that nobody touches can die of: it exits, the kernel kills it, or a signal was sent by a
call its filters allow (`Spec/Sandbox`). C69 excludes such calls under the C/C++ profiles; elsewhere `tgkill` makes C103 false.

Remains (C104, `Props/Remains`). Invariants over all schedules of `Model/Killer` for the child; fairness for the thread. The failure of `wait4` in that
model leaves the child where it is; the case of an ignored SIGCHLD, where the kernel has removed it, is C96. False after PTHREAD_FAILED, after
WAIT_FAILED and for stopped children.

Refused calls (C105, `Props/Violation`). `Spec/Threads` has the threads and processes of a program, each with its filters; a refused call ends its thread,
and the process with SIGSYS only if it was the last one. Invariant over all histories where nothing is started, which C/C++ profiles enforce; false
under the other profiles, where clone3 is allowed.

How long a run takes (C106, `Props/Prompt`). `Spec/Prompt`: whoever can go on does so within `d` microseconds, and `sleep` is at most `d` late. By
induction over the schedule everybody's last move is dated; the bound of limit, one second and 10 `d` follows, and `C106_sharp` shows that the second
is really taken. False after a late read (C40).

Order of options (C107, `Props/Order`). The meaning of a line (C47-C57) depends on its items only through the values of each option, and these are
the same for permuted items.

Who keeps the pipes open (C108, `Spec/Pipes`, `Props/Pipes`). A reader sees the end of a pipe when no process has it open for writing. The
processes of a program open, close, pass on, fork and end as they like; that the first one starts without the judger's pipes is proved from `child_process`.
False when `output_path` or `error_path` leads back to the judger's output, as the default of the Node binding does.

Memory of a family (C109, C110, `Spec/Space`, `Spec/Peaks`, `Props/Space`, `Props/Peaks`). C109 adds the address space to the crowd of C93 and uses C86 and C93; false
without a rule name, as these. C110 says what `ru_maxrss` is: the peak of one process, not of several together; so false where the program can start processes.

Network (C111, `Spec/Network`, `Props/Network`). The ways to a socket that the kernel offers. `socket` is refused by all five rule sets; false because the three
blacklists let `io_uring_setup` and `pidfd_getfd` pass.

A result cut off (C112, `Props/Cut`). The text of the result up to any character, after any output of the program; the bindings are those of C58, C100 and C102. A
beginning of the result leaves a brace open, so no JSON text ends with it. False when nothing at all arrives and the program wrote a result of its own.

The log in the hands of the program (C113, `Spec/Ledger`, `Props/Ledger`). What one can do through an inherited description open for appending, call by call; a call that is
not known to be tame may do anything. False because the description is inherited.

Signals to others (C114, `Spec/Kills`, `Props/Kills`). kill(2)'s rule on top of the histories of C86. False where programs of one uid are judged at once without a C/C++ rule set.

Python and Node side by side (C115, `Spec/Alike`, `Props/Alike`). The keyword arguments of a Python call as a JavaScript object; C59 and C63 give the two configurations. False for -1.

The lock of the log (C116, `Spec/Lock`, `Props/Lock`). flock(2) belongs to the description, which the program inherits. False where flock gets through the rule set.

CPU time of all processes (C117, `Spec/Toil`, `Props/Toil`). The histories of C86 with the CPU time of each process; the kernel compares it with the limit at every tick. False where
processes can be started, because each starts at zero.

Space on disc (C118, `Spec/Disc`, `Props/Disc`). The histories of C86 with the files each process has open for writing and the sizes of all files; core files are counted apart.
False because of the inherited log, core files, and the rule sets that let files be opened for writing.

Outer filters (C119, `Spec/Confine`, `Props/Confine`). The child's program is shown, call by call, not to depend on filters that allow the calls it makes; the list of these calls is written
down by number from what the C library does. Memory the libraries allocate for themselves (brk, mmap, munmap) is not modelled.

Files opened (C120, `Spec/Touch`, `Props/Touch`). Every step of the child opens a known list of files or stops after the first few of them.

Memory of the option table (C121, `Spec/Heap`, `Model/Storage`, `Lemmas/Heap`, `Lemmas/Built`, `Props/Storage`). `Model/Storage` lists the allocations, accesses and frees of argtable3 and main.c
alongside `Model/ArgTable`, with the sizes and offsets of x86-64. A write makes every cell it overlaps unreadable, so that wrongly placed arrays are noticed; a layout of the cells
of each block is kept throughout. Once the table is built, an invariant (counts within the room of their
entry, counted values written, rows of errors within their room, parents of errors in the table) is kept by every step of parsing. A failing `malloc` ends the process and is left out. What is
allocated for printing errors and help (`arg_dstr`) is the subject of C134.

Names of files (C122, `Spec/Names`, `Props/Names`). Names lead to files or on to other names (symbolic links). Under the C/C++ rule sets the only call that changes names creates new
files; any call the specification does not list may do anything to the names in writable directories. Paths are whole; links inside a path are not taken apart.

Threads that log (C123, `Model/LogThreads`, `Props/LogThreads`). The static buffers of `log_write` are shared by the threads of a process. Each formatting call is one step, the locked write
another; in any order of steps, and with one thread at a time inside.

The caller's unwritten output (C124, `Spec/Pending`, `Props/Pending`). `exit` in the child would write the caller's pending texts and call its atexit functions; every step of the child is shown to end
otherwise while SIGUSR1 is deadly. A handler of the caller for SIGUSR1 counts as ignoring it; what the handler itself does is not modelled.

The caller's traces in the program (C125, `Spec/Inherit`, `Props/Inherit`). What a program can find out about its process is one record; it is compared for two callers. Descriptor tables are compared by what is behind each descriptor, so that the proof shows the lowest free descriptor, and with it every redirection, to depend on nothing else. The working directory, umask, niceness and the like are not in the model; they are inherited too.

Node calls without an object (C126, `Model/Node.method`, `Props/NodeCall`). The two exceptions that are thrown without `return` are modelled as what follows them: undefined behaviour.

The terminal (C127, `Spec/Terminal`, `Props/Terminal`). The child calls no `setsid` and its terminal is the caller's; what can be done to its input depends on the filters alone.

Ordinary programs (C128, `Spec/Ordinary`, `Props/Ordinary`). `Deed` lists what a program of C or C++ does that only computes, and for each the system calls of glibc 2.31–2.39 on x86-64 (a trusted list, read from its sources). Proved: everything gets through under `general`, `golang`, `node` and without a rule set; under the two C/C++ rule sets exactly the deeds other than mremap, sysinfo and asking a character device. Not in the list: threads, files other than libraries, and what other languages do.

The death of the judger (C129, `Model/Orphan`, `Spec/Orphan`, `Props/Orphan`). The transition system of the watchdog, cut off at any state: from then on only the child and the clock move. The child asks for no signal at its parent's death (`deathSignal`). Proved: exactly the programs that have not ended at that moment may run on for ever; none is left when the judger had not forked, knew the end of the child, or had killed it. The kernel's limits (C86, C87, C109, C117) do not depend on the judger and stay.

A child that waits for ever (C130, `Props/Stuck`). `fork` copies the locks of other threads as they are. glibc renews those of stdio and malloc in the child, but not the one that `localtime` takes; `log_write` calls `localtime`. `ChildEnv.clockHeld` says that it was taken at the fork, and `Stop.hung` is a child waiting for it. Proved: nothing else makes the child wait; with a log, and under no filter of the caller's, every failure then does; the watchdog (if there is a real-time limit) ends it, and the verdict is never SYSTEM_ERROR. The executable has one thread at the fork, so this concerns callers that link the library (a Lua host, a C program).

The length of what is passed on (C131, `Spec/ExecSize`, `Props/ExecSize`). execve counts strings and pointers against a quarter of the stack limit of the calling process (between 128 KiB and 6 MiB); the child has set that limit to the request's `max_stack` by then. Proved from the parser model: the words of the command line take no less room than the program's strings, apart from the path, which counts once more; so a request passes if there is that room, in particular always under the default 16 MiB when the judger was started under 8 MiB or less. With fewer than 255 arguments (C50). A stack limit below the caller's can refuse what the judger was given.

What can be asked for (C132, `Spec/Askable`, `Props/Askable`). `Askable` says which configurations some command line leads to: texts that are not empty and have no NUL, a file for each stream, at most 255 arguments and variables, and every limit an `int`. Proved to be exact, in both directions. run() itself takes `long` for memory, stack and output size, so limits of 2 GiB and more can be had only by linking the library (where the Lua binding spoils them, C66). The Python binding reaches the same configurations, apart from the values -1 that it takes for "not given". The Node binding (`Props/AskNode`) asks for nothing else either, and for all of them whose texts, quoted, are shorter than 255 bytes.

Who may share a log (C45, `Props/LogShared`). With writes that neither fail nor fall short the entries stay whole in every schedule exactly if no two processes share an open file description (`C45_exact`).

For which limits the watchdog goes wrong (C37-C41, C43, `Props/WatchExact`). A late read, and with it a signal to a wrong process, is possible exactly if there is a limit (`C40_exact`, `C39_exact`); so are a kill before the limit (`C37_exact`) a fair schedule in which run() never returns (`C43_every_limit`), and RUNTIME_ERROR for a program the watchdog killed (`C38_every_request`). With the arguments read in time a reaped pid can be signalled, and an ended thread cancelled, exactly if the limit is at most INT_MAX - 1000 (`C39_in_time_exact`, `C41_exact`); above that the watchdog runs into the overflow of C42.

What the program finds open (C22, `Props/Inherited`). For a caller whose standard streams are open the claim holds exactly if no stream is configured and the log is not open above 2 (`C22_exact`); with the log open above 2 it fails for every request (`C22_log_always`).

Memory of a Lua call (C133, `Model/LuaMemory`, `Props/LuaMemory`). The texts copied by the Lua binding, in the events of `Spec/Heap`; `run()` reads every text of the configuration. Indexing the table may raise an error (a metatable), at any field. That the model of the memory and `Model/Lua` end the same way is proved (`C133_same_end`). `C133_exact` settles the claim: a call that is over has freed everything exactly if reading the table raised no error after a text was copied. A failing `malloc` is left out (it gives NULL, which `run()` would take for a missing path).

Memory of what is printed (C134, `Model/PrintMemory`, `Props/PrintMemory`). The dynamic strings of argtable3 in the events of `Spec/Heap`, byte by byte, alongside `Model/Report`: the structure, the block the text is in (moved to another one when it grows), the buffer of the formatting loop. An invariant is kept by every append. Every printing function used by `main` is shown to be a sequence of appends that does not depend on the string appended to (`Appends`); with C78 and C80 this gives all error reports and the help. Texts whose length overflows an `int` are excluded as in C78.

Numbers of a Node call (C135, `Model/NodeNumber`, `Spec/NodeNumber`, `Props/NodeNumber`). A JavaScript number is NaN, an infinity or m / 2^e, which includes every double. The binding takes `ToInteger(...)->Value()` of it; the rest of the chain is that of C63 and C83. False: `uid: NaN` and `uid: 0.5` ask for root, -1.5 for no limit. Proved for every number: without its fraction it is what the judger gets; integers arrive unchanged; a limit that `run()` accepts is never more than the number given except for numbers above -2 up to -1; numbers beyond a C int run nothing. What `Value()` gives for a double beyond 64 bits depends on the version of V8; both are covered.

Rights of the open files (C136, `Spec/Rights`, `Props/Rights`). The process of `Model/Kernel` notes the effective user and group with which each file was opened. Proved for every configuration, every failure and every initial state, with a relation that each step before the change of identity keeps and one that each later step keeps. What it means is stated with the permission rules of inode(7) and umask(2), on owner, group and mode: access control lists, capabilities other than those of root and read-only mounts are left out. Without a uid the program owns what is made.

Other judgings (C137, `Spec/Peers`, `Props/Peers`). The access check of ptrace(2) on top of the histories of C86, and the calls that read or change the memory of another process. False: every rule set lets a file be opened for reading, so a program can read `/proc/<pid>/mem` of a program judged under the same ids, and all but `c_cpp` let it be changed. Proved: judgings under different uids or gids cannot reach each other in either direction, the judger is out of reach with any rule set, and under `c_cpp` nothing can be changed. Security modules that restrict ptrace (Yama) are left out.

Refused memory (C138, `Spec/Starved`, `Props/Starved`). A program as pages of address space and pages in memory, and the calls refused under RLIMIT_AS; `wait4` reports the most that was in memory (of the judger's copy before execve, too: C92). False: what is limited is not what is compared, so a program that is refused a large block and gives up is a RUNTIME_ERROR, and one that can do without is accepted. Settled: MEMORY_LIMIT_EXCEEDED exactly if more than `max_memory` was in memory at some time. Proved from it: a refusal of at most `max_memory` when all of the address space is in use is always reported; nothing is refused within twice `max_memory`. One process that leaves its limits alone; SIGUSR1 (C103) and exceeded times, which go before memory, are left out.

The stack (C139, `Spec/StackUse`, `Props/StackUse`). A program as pages of address space and stack, its handler for SIGSEGV and its alternate stack; calls go through the filters. False on both counts: the address space can be used up before the stack, and with a handler on an alternate stack an overflow is survived. Proved: growth within `max_stack` is refused only where the address space would pass its limit; under the two C/C++ rule sets, which let neither rt_sigaction nor sigaltstack through, an overflow is the end, and reported as such. One process that leaves its limits alone.

Leavings (C140, `Spec/Ipc`, `Props/Ipc`). The living processes of a program by their filters, and the System V and POSIX objects they made; these stay until a call removes them. False: under `general`, `golang` and `node` all four calls that make them pass, and nothing in `run()` looks for them. Proved: under the two C/C++ rule sets there is none at any time. Files and kernel keys are left out.

Files of others (C141, `Spec/Secret`, `Props/Secret`). The permission rules of C136 on top of the histories of C86, with chmod and chown by those who may. False: opening for reading passes every filter, so the mode of the file decides; and without a rule set a set-user-ID root file gets round that. With a rule set it is settled: a file of another user can be read exactly if its mode lets the uid and gid of the request. Descriptors the program starts with (C22) are another matter.

Changing files of others (C142, `Spec/Tamper`, `Props/Tamper`). As C141, for calls that write to, empty or remove a file. False: opening with O_TRUNC passes every filter, and unlink and rename pass those of `general`, `golang` and `node`. With a rule set the mode of the file decides whether it can be changed, and the mode of the directory with its sticky bit whether it can be removed; under the two C/C++ rule sets nothing is removed.

Settled (`Props/Settled`, `Props/SettledRuns`, `Props/Network`, `Props/Ipc`). For C86, C87, C88, C93, C95 (refused writes), C100, C102, C103, C105, C109, C110, C111, C113, C114, C116, C117, C118 (whether there is a bound at all), C122, C127, C128, C137, C139 (how an overflow ends) and C140, false in general, the `_exact` theorems say for every configuration exactly where they hold: C86, C87, C93 and C109 (each process) with a rule set; C88, C95, C100, C102, C103, C105, C110, C117, C122 and C139 under the two C/C++ rule sets (C105 also without one, where nothing is refused; C95 also only if the caller leaves SIGXFSZ alone); C118 under `c_cpp` alone; the others by rule set and, where identity counts, by the ids of the target. They take a caller under no filter of its own, which could only forbid more. `C91_exact` (`Props/Streams`) does the same by the three paths: the claim holds for all contents and uses exactly if different paths name different files and the input is neither of the others. `C115_exact`: the two bindings agree on a common request exactly if none of the four values is -1. `C73_exact`: a Lua call aborts the host exactly if there are several arguments, the first and last tables, the last accepted. `C42_exact` and `C15_exact`: the limits up to INT_MAX - 1000. `C124_end_exact`: what the caller has in hand is safe exactly if the child does not end by `exit`.

No property in the list is beyond an executable model. Where the truth lives in the kernel, libseccomp or the clock, the assumed behaviour is
written out as definitions and listed below.

## Trusted base

* The Lean kernel, and the axioms `propext`, `Classical.choice` and `Quot.sound`. No theorem depends on any other axiom; some
  depend on fewer (`#print axioms`). There are no axioms of our own, no `sorry`, no `native_decide`, no `bv_decide`.
* That the definitions in `Verif/Model` say what the cited lines do, on x86-64 Linux with gcc, glibc and libseccomp:
  * `int` 32 bits, `long` 64 bits, two's complement, little endian; conversion to a narrower signed type reduces modulo 2^n;
    signed overflow is undefined;
  * the wait-status encoding, the rlimit, credential, descriptor and `flock` semantics of the Linux man pages, as written in
    `Model/Kernel`, `Model/Runner` and `Model/Logger`;
  * libseccomp: the first rule that matches answers, otherwise the default action; native architecture only, every other ABI gets the bad-architecture action (kill); comparisons are on the whole 64-bit
    argument; a rule whose action equals the default action is refused; with several filters the most restrictive answer wins;
  * the pre-C23 `strtol` (no `0b` prefix of its own), "C" locale;
  * glibc renews the locks of stdio and malloc in a forked child, and not that of the time zone;
  * execve's limit on arguments and environment is that of Linux 4.13 and later;
  * POSIX threads: deferred cancellation, `sleep` is the only cancellation point of the watchdog;
  * in the watchdog model (C37-C43) one clock that never steps back serves `gettimeofday` and `sleep` (C76 is about a clock that is set); SIGKILL takes effect at once;
  * privilege is effective uid 0 (no finer capabilities).
* That the specifications in `Verif/Spec` say what the English statements mean.

## What is not modelled

* `argtable3.c`: entry kinds `main.c` does not use, allocation that fails (`xmalloc` ends the process), the hashtable, sort and regex
  parts. `vsnprintf` in `arg_dstr_catf` gives the formatted text or, if it does not fit, its beginning and its length.
* `isspace`/`toupper` on bytes above 127 (negative `char`); they are treated as "not a space", "unchanged".
* `localtime`, `strftime` and `vsnprintf`: the date and the message are arbitrary texts.
* The build scripts, Docker files, tests and demo programs. The Makefile of the Lua binding links only two of the five rule files, so that the module it builds cannot be loaded; the claims about Lua are about the code linked completely.
* What V8 does after an exception is pending (C126 counts it as undefined), Lua errors inside metamethods, out-of-memory everywhere.
* Python: encodings. A string is the bytes passed to the process, and a string in the returned value is the bytes printed (`decode` itself is modelled: `Py.decodes`, exactly the UTF-8 texts by `decodes_iff`). Python 3 is meant where versions differ (how bytes are shown in a message).
* JavaScript numbers: a returned number is kept as its text; beyond 2^53 the engine rounds it. Bytes that are no UTF-8 are replaced inside strings and begin no token outside. `Popen` failing with OSError (no such program, argument list too long).
* `c_cpp_seccomp_rules` is declared with one and defined with two parameters (`rules/seccomp_rules.h`, `rules/c_cpp.c`): the model follows the definition.
* Signal handlers of a program that calls the judger as a library (the bindings start it as a process of its own, except Lua), apart from what they do to waiting for the child (C96).
* `SCMP_ACT_KILL` kills the calling thread only. `Spec/Threads` (C105) says so; the other specifications speak of one thread, whose death is that of the process.

## Disagreements between claim and code

Each is proved: a witness theorem and a `_partial` theorem for the rest. In short: stopped children are judged (C11); overflow at the
top of `max_cpu_time` and `max_real_time` (C15, C42); the judged program inherits the log descriptor (C22); setup failures that are not
reported (C24); open with O_CREAT/O_TRUNC (C29); clone3, tkill, creat, openat2 missing from blacklists (C31, C32); execve compared by
address (C34); `killer_args` out of scope, cancel after exit, kill after reap (C37-C43); log over-read, interleaving, unreleased lock
(C44-C46); `0x-5` (C47); 255 arguments (C50, C59, C77); a word such as `-abc-` makes the parser loop (C53, C55, C57); NUL in output, unquoted shell, wrong variable tested
(C62-C64); Lua never sets `max_stack`, stores 32 bits of 64 (C65, C66); prlimit64 (C69); LONG_MIN times -1 (C70);
assert after a Lua call with a surplus argument (C73); system time ignored (C74); result 0 beside an error (C75); wall clock (C76); a control
character as unknown letter is reported as another mistake (C79); an unopenable log makes the Python call raise although the program was run (C82); a refused command line makes the Node binding read before its buffer (C83); null and nested lists vanish from its `args` (C84);
with standard output a regular file the result overwrites the program's output, and a stopped program can write after it (C85);
without a rule set set-user-ID files are honoured (C86, C87); descendants survive and are not counted (C88);
with the C/C++ profiles nothing is logged when `execve` fails (C89); two names of one file (C91);
system time not counted, memory of the caller counted (C92); no limit on processes without a rule set (C93), one shared by all judgings under a uid (C94);
output cut short is accepted (C95); a caller that ignores SIGCHLD, or in which a handler interrupts wait4, gets WAIT_FAILED (C96); a process left behind can print a second result, which the Node binding returns (C100); output before and after the result can make it a member of a forged dict (C102); a program can send itself SIGUSR1 and is reported as SYSTEM_ERROR (C103);
after PTHREAD_FAILED and WAIT_FAILED a zombie is left, and after WAIT_FAILED the watchdog goes on and signals later (C104);
a refused call of one thread leaves the others, and the program is accepted (C105); after a late read no time bounds the run (C106); a process left behind that has the judger's output keeps the binding waiting (C108);
as C86 for memory (C109); the memory of several processes is not added up (C110); memory refused and never used does not show in the verdict (C138); the stack can be smaller than `max_stack`, and its overflow survived (C139); shared memory, semaphores and message queues outlive the program (C140); files that everybody may read can be read (C141), and emptied where everybody may write (C142); sockets through io_uring and pidfd_getfd (C111); the bindings do not look at how the judger ended (C112); the program can write to the log, and mostly empty it (C113); programs under one uid can signal each other (C114); and read each other's memory, under all rule sets but `c_cpp` also change it (C137);
uid -1 means nobody in Python and root in Node (C115); the program can lock the log and keep it locked (C116); CPU time is limited
per process only (C117); the program can fill the log and leave a core file (C118);
a symbolic link it leaves leads the next judging to another file (C122); threads that log at the same time write each other's entries (C123); a caller that ignores SIGUSR1 sees its unwritten output twice after a setup failure (C124); a program inherits ignored signals and open files from whoever calls (C125); Node's run() goes on after throwing (C126); no `setsid`, so that a program can type on the caller's terminal (C127); the C/C++ rule sets kill programs that enlarge a large block, sort much with `qsort`, or print to a character device (C128); when the judger is killed the program runs on without its real-time limit (C129); a failing child of a caller with threads may wait for the lock of the time zone for ever (C130); a small `max_stack` also limits the arguments (C131); limits of 2 GiB and more cannot be asked for (C132); an error raised by the metatable of a Lua table leaves copied texts behind (C133).

## Seeded bugs

`seeded/LOG.jsonl` records experiments, one line each. In a scratch copy one definition of the model is changed as a realistic bug.
Two things are then checked. First, the whole project is rebuilt and the property theorems whose proofs no longer go through are listed
(`proofs_broken_on_rebuild`); this alone says little, since a proof may break while its statement still holds. Second, in a copy in which
every proof is removed and only definitions and statements remain, the negation of a property theorem is proved with a concrete witness
(`failed`): the statement itself is false of the wrong program. If no statement of the property can be refuted, it is too weak and is
tightened (`tightened`). Attempts that turned out to be equivalent to the code, or repairs of it, are kept with a `note`.
