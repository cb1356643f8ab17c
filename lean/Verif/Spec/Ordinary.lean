import Verif.Spec.Sandbox

/-!
# What an ordinary program asks of the kernel

Written from the sources of glibc (2.31 to 2.39, x86-64) and of libstdc++; nothing of the judger is used.  An ordinary program computes, uses memory,
reads its standard input and writes its standard output and errors with the functions of C and C++.
-/

set_option autoImplicit false

namespace Judger.Spec

/-- What an ordinary program does. -/
inductive Deed where
  /-- being loaded: the dynamic loader and the start of the C library -/
  | load
  /-- `malloc`, `free`, `new`, `delete` -/
  | allocate
  /-- `realloc` of a block that is so large (128 KiB and more) that it has pages of its own -/
  | enlarge
  /-- `qsort` of more than 1024 bytes, which asks how much memory the machine has (before glibc 2.37) -/
  | sort
  /-- the first use of a standard stream; a character device is asked whether it is a terminal -/
  | prepare (device : Bool)
  | input
  | output
  | time
  /-- something that is to be done once, even with threads -/
  | once
  | finish
deriving Repr, DecidableEq

/-- The system calls this may take: read 0, write 1, close 3, fstat 5, lseek 8, mmap 9, mprotect 10, munmap 11, brk 12, ioctl 16, pread64 17, readv 19,
writev 20, access 21, mremap 25, readlink 89, sysinfo 99, arch_prctl 158, futex 202, set_tid_address 218, clock_gettime 228, exit_group 231,
newfstatat 262, set_robust_list 273, prlimit64 302, getrandom 318, rseq 334. -/
def Deed.calls : Deed → List Nat
  | .load => [0, 3, 5, 9, 10, 11, 12, 17, 21, 89, 158, 218, 262, 273, 302, 318, 334]
  | .allocate => [9, 11, 12]
  | .enlarge => [25]
  | .sort => [99]
  | .prepare device => if device then [5, 262, 16] else [5, 262]
  | .input => [0, 19, 8]
  | .output => [1, 20]
  | .time => [228]
  | .once => [202]
  | .finish => [231]

/-- A system call made on the way; libraries are opened with openat (257) and O_RDONLY | O_CLOEXEC. -/
def Deed.Makes (d : Deed) (r : Req) : Prop :=
  r.native = true ∧ (r.nr ∈ d.calls ∨ (d = .load ∧ r.nr = 257 ∧ r.args 2 = 0x80000))

/-- What a program under one of the C/C++ rule sets had better not do. -/
def Deed.stopped (d : Deed) : Bool := d == .enlarge || d == .sort || d == .prepare true

end Judger.Spec
