import Verif.Spec.Sandbox

/-!
The x86-64 system calls by name, in the order of their numbers (Linux, `arch/x86/entry/syscalls/syscall_64.tbl`, 0 to 334; the numbers
335 to 423 are not in use), and what the five rule sets promise about each named call.
-/

set_option autoImplicit false

namespace Judger.Spec

/-- The calls 0 to 334. -/
def syscallNames : List CStr :=
  [c!"read", c!"write", c!"open", c!"close", c!"stat", c!"fstat", c!"lstat", c!"poll", c!"lseek", c!"mmap",
   c!"mprotect", c!"munmap", c!"brk", c!"rt_sigaction", c!"rt_sigprocmask", c!"rt_sigreturn", c!"ioctl", c!"pread64", c!"pwrite64", c!"readv",
   c!"writev", c!"access", c!"pipe", c!"select", c!"sched_yield", c!"mremap", c!"msync", c!"mincore", c!"madvise", c!"shmget",
   c!"shmat", c!"shmctl", c!"dup", c!"dup2", c!"pause", c!"nanosleep", c!"getitimer", c!"alarm", c!"setitimer", c!"getpid",
   c!"sendfile", c!"socket", c!"connect", c!"accept", c!"sendto", c!"recvfrom", c!"sendmsg", c!"recvmsg", c!"shutdown", c!"bind",
   c!"listen", c!"getsockname", c!"getpeername", c!"socketpair", c!"setsockopt", c!"getsockopt", c!"clone", c!"fork", c!"vfork", c!"execve",
   c!"exit", c!"wait4", c!"kill", c!"uname", c!"semget", c!"semop", c!"semctl", c!"shmdt", c!"msgget", c!"msgsnd",
   c!"msgrcv", c!"msgctl", c!"fcntl", c!"flock", c!"fsync", c!"fdatasync", c!"truncate", c!"ftruncate", c!"getdents", c!"getcwd",
   c!"chdir", c!"fchdir", c!"rename", c!"mkdir", c!"rmdir", c!"creat", c!"link", c!"unlink", c!"symlink", c!"readlink",
   c!"chmod", c!"fchmod", c!"chown", c!"fchown", c!"lchown", c!"umask", c!"gettimeofday", c!"getrlimit", c!"getrusage", c!"sysinfo",
   c!"times", c!"ptrace", c!"getuid", c!"syslog", c!"getgid", c!"setuid", c!"setgid", c!"geteuid", c!"getegid", c!"setpgid",
   c!"getppid", c!"getpgrp", c!"setsid", c!"setreuid", c!"setregid", c!"getgroups", c!"setgroups", c!"setresuid", c!"getresuid", c!"setresgid",
   c!"getresgid", c!"getpgid", c!"setfsuid", c!"setfsgid", c!"getsid", c!"capget", c!"capset", c!"rt_sigpending", c!"rt_sigtimedwait", c!"rt_sigqueueinfo",
   c!"rt_sigsuspend", c!"sigaltstack", c!"utime", c!"mknod", c!"uselib", c!"personality", c!"ustat", c!"statfs", c!"fstatfs", c!"sysfs",
   c!"getpriority", c!"setpriority", c!"sched_setparam", c!"sched_getparam", c!"sched_setscheduler", c!"sched_getscheduler", c!"sched_get_priority_max", c!"sched_get_priority_min", c!"sched_rr_get_interval", c!"mlock",
   c!"munlock", c!"mlockall", c!"munlockall", c!"vhangup", c!"modify_ldt", c!"pivot_root", c!"_sysctl", c!"prctl", c!"arch_prctl", c!"adjtimex",
   c!"setrlimit", c!"chroot", c!"sync", c!"acct", c!"settimeofday", c!"mount", c!"umount2", c!"swapon", c!"swapoff", c!"reboot",
   c!"sethostname", c!"setdomainname", c!"iopl", c!"ioperm", c!"create_module", c!"init_module", c!"delete_module", c!"get_kernel_syms", c!"query_module", c!"quotactl",
   c!"nfsservctl", c!"getpmsg", c!"putpmsg", c!"afs_syscall", c!"tuxcall", c!"security", c!"gettid", c!"readahead", c!"setxattr", c!"lsetxattr",
   c!"fsetxattr", c!"getxattr", c!"lgetxattr", c!"fgetxattr", c!"listxattr", c!"llistxattr", c!"flistxattr", c!"removexattr", c!"lremovexattr", c!"fremovexattr",
   c!"tkill", c!"time", c!"futex", c!"sched_setaffinity", c!"sched_getaffinity", c!"set_thread_area", c!"io_setup", c!"io_destroy", c!"io_getevents", c!"io_submit",
   c!"io_cancel", c!"get_thread_area", c!"lookup_dcookie", c!"epoll_create", c!"epoll_ctl_old", c!"epoll_wait_old", c!"remap_file_pages", c!"getdents64", c!"set_tid_address", c!"restart_syscall",
   c!"semtimedop", c!"fadvise64", c!"timer_create", c!"timer_settime", c!"timer_gettime", c!"timer_getoverrun", c!"timer_delete", c!"clock_settime", c!"clock_gettime", c!"clock_getres",
   c!"clock_nanosleep", c!"exit_group", c!"epoll_wait", c!"epoll_ctl", c!"tgkill", c!"utimes", c!"vserver", c!"mbind", c!"set_mempolicy", c!"get_mempolicy",
   c!"mq_open", c!"mq_unlink", c!"mq_timedsend", c!"mq_timedreceive", c!"mq_notify", c!"mq_getsetattr", c!"kexec_load", c!"waitid", c!"add_key", c!"request_key",
   c!"keyctl", c!"ioprio_set", c!"ioprio_get", c!"inotify_init", c!"inotify_add_watch", c!"inotify_rm_watch", c!"migrate_pages", c!"openat", c!"mkdirat", c!"mknodat",
   c!"fchownat", c!"futimesat", c!"newfstatat", c!"unlinkat", c!"renameat", c!"linkat", c!"symlinkat", c!"readlinkat", c!"fchmodat", c!"faccessat",
   c!"pselect6", c!"ppoll", c!"unshare", c!"set_robust_list", c!"get_robust_list", c!"splice", c!"tee", c!"sync_file_range", c!"vmsplice", c!"move_pages",
   c!"utimensat", c!"epoll_pwait", c!"signalfd", c!"timerfd_create", c!"eventfd", c!"fallocate", c!"timerfd_settime", c!"timerfd_gettime", c!"accept4", c!"signalfd4",
   c!"eventfd2", c!"epoll_create1", c!"dup3", c!"pipe2", c!"inotify_init1", c!"preadv", c!"pwritev", c!"rt_tgsigqueueinfo", c!"perf_event_open", c!"recvmmsg",
   c!"fanotify_init", c!"fanotify_mark", c!"prlimit64", c!"name_to_handle_at", c!"open_by_handle_at", c!"clock_adjtime", c!"syncfs", c!"sendmmsg", c!"setns", c!"getcpu",
   c!"process_vm_readv", c!"process_vm_writev", c!"kcmp", c!"finit_module", c!"sched_setattr", c!"sched_getattr", c!"renameat2", c!"seccomp", c!"getrandom", c!"memfd_create",
   c!"kexec_file_load", c!"bpf", c!"execveat", c!"userfaultfd", c!"membarrier", c!"mlock2", c!"copy_file_range", c!"preadv2", c!"pwritev2", c!"pkey_mprotect",
   c!"pkey_alloc", c!"pkey_free", c!"statx", c!"io_pgetevents", c!"rseq"]

/-- The name of a call. -/
def syscallName (n : Nat) : Option CStr :=
  if n < 335 then syscallNames[n]?
  else if n = 435 then some c!"clone3"
  else if n = 437 then some c!"openat2"
  else none

/-- The `n`-th call is called `s`. -/
def Called (n : Nat) (s : CStr) : Prop := syscallName n = some s

instance (n : Nat) (s : CStr) : Decidable (Called n s) := inferInstanceAs (Decidable (_ = _))

/-- The resources of `setrlimit`, in the order of their numbers (`asm-generic/resource.h`). -/
def resourceNames : List CStr :=
  [c!"CPU", c!"FSIZE", c!"DATA", c!"STACK", c!"CORE", c!"RSS", c!"NPROC", c!"NOFILE", c!"MEMLOCK", c!"AS"]

/-- The calls that c_cpp.c lists. -/
def cCppCalls : List CStr :=
  [c!"access", c!"arch_prctl", c!"brk", c!"clock_gettime", c!"close", c!"exit_group", c!"faccessat", c!"fstat", c!"futex", c!"getrandom",
   c!"lseek", c!"mmap", c!"mprotect", c!"munmap", c!"newfstatat", c!"pread64", c!"prlimit64", c!"read", c!"readlink", c!"readv", c!"rseq",
   c!"set_robust_list", c!"set_tid_address", c!"write", c!"writev"]

/-- The calls that golang.c and node.c list. -/
def deniedCalls (hasExecveat : Bool) : List CStr :=
  [c!"socket", c!"fork", c!"vfork", c!"kill"] ++ if hasExecveat then [c!"execveat"] else []

/-- `open` and `openat` for reading only are let through; nothing is said about other calls. -/
def openAnswer (s : CStr) (a : Fin 6 → BitVec 64) : Option Action :=
  if s = c!"open" then some (if readOnly (a 1) then .allow else .kill)
  else if s = c!"openat" then some (if readOnly (a 2) then .allow else .kill)
  else none

/-- What the rule set `rule` promises for the call named `s`; `exe` is the address of the judger's own copy of the path. -/
def byName (exe : BitVec 64) (hasExecveat : Bool) (rule s : CStr) (a : Fin 6 → BitVec 64) : Action :=
  if rule = c!"c_cpp" then
    if s ∈ cCppCalls then .allow
    else if s = c!"execve" then (if a 0 = exe then .allow else .kill)
    else (openAnswer s a).getD .kill
  else if rule = c!"c_cpp_file_io" then
    if s ∈ cCppCalls ++ [c!"open", c!"openat", c!"dup", c!"dup2", c!"dup3"] then .allow
    else if s = c!"execve" then (if a 0 = exe then .allow else .kill)
    else .kill
  else if rule = c!"general" then
    if s ∈ [c!"clone", c!"fork", c!"vfork", c!"kill"] ++ (if hasExecveat then [c!"execveat"] else []) then .kill
    else if s = c!"socket" then .errno 13
    else if s = c!"execve" then (if a 0 = exe then .allow else .kill)
    else (openAnswer s a).getD .allow
  else if rule = c!"golang" then
    if s ∈ deniedCalls hasExecveat then .kill else (openAnswer s a).getD .allow
  else if s ∈ deniedCalls hasExecveat then .kill else .allow

end Judger.Spec
