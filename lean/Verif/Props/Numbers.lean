import Verif.Props.Seccomp
import Verif.Spec.Syscalls

/-! # The system calls by name (C33) -/

set_option autoImplicit false

namespace Judger

open Judger.Spec

/-- The numbers of the model and the names they stand for. -/
def numbered : List (Nat × CStr) :=
  [(NR_read, c!"read"), (NR_write, c!"write"), (NR_open, c!"open"), (NR_close, c!"close"), (NR_fstat, c!"fstat"),
   (NR_lseek, c!"lseek"), (NR_mmap, c!"mmap"), (NR_mprotect, c!"mprotect"), (NR_munmap, c!"munmap"), (NR_brk, c!"brk"),
   (NR_rt_sigprocmask, c!"rt_sigprocmask"), (NR_pread64, c!"pread64"), (NR_readv, c!"readv"), (NR_writev, c!"writev"),
   (NR_access, c!"access"), (NR_dup, c!"dup"), (NR_dup2, c!"dup2"), (NR_getpid, c!"getpid"), (NR_socket, c!"socket"),
   (NR_clone, c!"clone"), (NR_fork, c!"fork"), (NR_vfork, c!"vfork"), (NR_execve, c!"execve"), (NR_kill, c!"kill"),
   (NR_flock, c!"flock"), (NR_readlink, c!"readlink"), (NR_setuid, c!"setuid"), (NR_setgid, c!"setgid"),
   (NR_setgroups, c!"setgroups"), (NR_prctl, c!"prctl"), (NR_arch_prctl, c!"arch_prctl"), (NR_gettid, c!"gettid"),
   (NR_futex, c!"futex"), (NR_set_tid_address, c!"set_tid_address"), (NR_clock_gettime, c!"clock_gettime"),
   (NR_exit_group, c!"exit_group"), (NR_tgkill, c!"tgkill"), (NR_openat, c!"openat"), (NR_newfstatat, c!"newfstatat"),
   (NR_faccessat, c!"faccessat"), (NR_set_robust_list, c!"set_robust_list"), (NR_dup3, c!"dup3"), (NR_prlimit64, c!"prlimit64"),
   (NR_seccomp, c!"seccomp"), (NR_getrandom, c!"getrandom"), (NR_execveat, c!"execveat"), (NR_rseq, c!"rseq")]

/-- Each number of the model is that of the call it is named after. -/
theorem numbered_called : ∀ p ∈ numbered, Called p.1 p.2 := by
  decide +kernel

/-- The same for the calls whose effects `Spec/Sandbox` describes. -/
theorem documented_called : documented.map syscallName =
    [c!"read", c!"write", c!"open", c!"close", c!"fstat", c!"lseek", c!"mmap", c!"mprotect", c!"munmap", c!"brk", c!"pread64", c!"readv",
     c!"writev", c!"access", c!"dup", c!"dup2", c!"clone", c!"fork", c!"vfork", c!"execve", c!"kill", c!"fcntl", c!"creat", c!"readlink",
     c!"rt_sigqueueinfo", c!"prctl", c!"arch_prctl", c!"tkill", c!"futex", c!"set_tid_address", c!"clock_gettime", c!"exit_group", c!"tgkill",
     c!"openat", c!"newfstatat", c!"faccessat", c!"set_robust_list", c!"dup3", c!"prlimit64", c!"seccomp", c!"getrandom", c!"execveat",
     c!"rseq", c!"clone3", c!"openat2"].map some := by
  decide +kernel

/-- The numbers under which `setrlimit` is called. -/
theorem resources_named : [Res.cpu, .fsize, .stack, .nproc, .as].map (fun r => resourceNames[r.code.toNat]?) =
    [c!"CPU", c!"FSIZE", c!"STACK", c!"NPROC", c!"AS"].map some := by
  decide

/-- What of a call's name the rule sets look at, read off the number. -/
def sameSort (n : Nat) (s : CStr) : Bool :=
  decide (s ∈ cCppCalls) == decide (n ∈ [0, 1, 3, 5, 8, 9, 10, 11, 12, 17, 19, 20, 21, 89, 158, 202, 218, 228, 231, 262, 269, 273, 302, 318, 334]) &&
  decide (s = c!"open") == decide (n = 2) && decide (s = c!"openat") == decide (n = 257) && decide (s = c!"dup") == decide (n = 32) &&
  decide (s = c!"dup2") == decide (n = 33) && decide (s = c!"dup3") == decide (n = 292) && decide (s = c!"execve") == decide (n = 59) &&
  decide (s = c!"execveat") == decide (n = 322) && decide (s = c!"socket") == decide (n = 41) && decide (s = c!"clone") == decide (n = 56) &&
  decide (s = c!"fork") == decide (n = 57) && decide (s = c!"vfork") == decide (n = 58) && decide (s = c!"kill") == decide (n = 62)

theorem sameSort_all : ((List.range 438).all fun n => (syscallName n).all (sameSort n)) = true := by
  decide +kernel

theorem called_lt {n : Nat} {s : CStr} (h : Called n s) : n < 438 := by
  unfold Called syscallName at h
  split at h
  · omega
  · split at h
    · omega
    · split at h
      · omega
      · cases h

theorem called_sort {n : Nat} {s : CStr} (h : Called n s) :
    (s ∈ cCppCalls ↔ n ∈ [0, 1, 3, 5, 8, 9, 10, 11, 12, 17, 19, 20, 21, 89, 158, 202, 218, 228, 231, 262, 269, 273, 302, 318, 334]) ∧
    (s = c!"open" ↔ n = 2) ∧ (s = c!"openat" ↔ n = 257) ∧ (s = c!"dup" ↔ n = 32) ∧ (s = c!"dup2" ↔ n = 33) ∧ (s = c!"dup3" ↔ n = 292) ∧
    (s = c!"execve" ↔ n = 59) ∧ (s = c!"execveat" ↔ n = 322) ∧ (s = c!"socket" ↔ n = 41) ∧ (s = c!"clone" ↔ n = 56) ∧
    (s = c!"fork" ↔ n = 57) ∧ (s = c!"vfork" ↔ n = 58) ∧ (s = c!"kill" ↔ n = 62) := by
  have h1 := List.all_eq_true.1 sameSort_all n (List.mem_range.2 (called_lt h))
  rw [show syscallName n = some s from h] at h1
  simp only [Option.all_some, sameSort, Bool.and_eq_true, beq_iff_eq, decide_eq_decide, and_assoc] at h1
  exact h1

/-- C33, by name: under each of the five rule sets every native system call that has a name is answered as the rule set's source says for
that name, for all arguments. -/
theorem C33_by_name (c : Config) (e : ChildEnv) (p q : Proc) (rule s : CStr) (r : Req) (hp : p.filters = []) (hs : Started c e p q)
    (hr : c.seccompRuleName = some rule) (hn : r.native = true) (h : Called r.nr s) :
    evalAll q.filters r = byName e.exeAddr e.hasExecveat rule s r.args := by
  obtain ⟨h0, h1, h2, h3, h4, h5, h6, h7, h8, h9, h10, h11, h12⟩ := called_sort h
  have hf := C23_profile_enforced c e p q hs
  rw [hr] at hf
  rcases hf.2 with ⟨rfl, hg⟩ | ⟨rfl, hg⟩ | ⟨rfl, hg⟩ | ⟨rfl, hg⟩ | ⟨rfl, hg⟩ <;> rw [hg, hp, evalAll_one]
  · rw [cCpp_eval _ hn, byName, if_pos rfl]
    simp only [cCppAnswer, openAnswer, h0, h1, h2, h6]
    clear h0 h1 h2 h3 h4 h5 h6 h7 h8 h9 h10 h11 h12 h hf hg hs
    grind
  · rw [cCppFileIo_eval _ hn, byName, if_neg (by decide), if_pos rfl]
    have h13 : s ∈ [c!"open", c!"openat", c!"dup", c!"dup2", c!"dup3"] ↔ r.nr ∈ [2, 257, 32, 33, 292] := by
      simp only [List.mem_cons, List.not_mem_nil, or_false, h1, h2, h3, h4, h5]
    have h14 : r.nr ∉ [2, 257, 32, 33, 292] → r.nr ≠ 2 ∧ r.nr ≠ 257 := fun hx =>
      ⟨fun h => hx (by rw [h]; decide), fun h => hx (by rw [h]; decide)⟩
    simp only [cCppFileIoAnswer, cCppAnswer, List.mem_append, h0, h13, h6]
    by_cases hx : r.nr ∈ [2, 257, 32, 33, 292]
    · rw [if_pos hx, if_pos (.inr hx)]
    · rw [if_neg hx, if_neg (c := r.nr = 2 ∧ _) (fun h => (h14 hx).1 h.1), if_neg (c := r.nr = 257 ∧ _) (fun h => (h14 hx).2 h.1)]
      by_cases hl : r.nr ∈ [0, 1, 3, 5, 8, 9, 10, 11, 12, 17, 19, 20, 21, 89, 158, 202, 218, 228, 231, 262, 269, 273, 302, 318, 334]
      · rw [if_pos hl, if_pos (.inl hl)]
      · rw [if_neg hl, if_neg (c := _ ∨ _) (fun h => Or.elim h hl hx)]
        by_cases h59 : r.nr = 59 <;> simp [h59]
  · rw [general_eval _ _ hn, byName, if_neg (by decide), if_neg (by decide), if_pos rfl]
    have : s ∈ [c!"clone", c!"fork", c!"vfork", c!"kill"] ++ (if e.hasExecveat then [c!"execveat"] else []) ↔
        r.nr = 56 ∨ r.nr = 57 ∨ r.nr = 58 ∨ r.nr = 62 ∨ (e.hasExecveat = true ∧ r.nr = 322) := by
      cases e.hasExecveat <;> simp [h7, h9, h10, h11, h12]
    simp only [generalAnswer, openAnswer, this, h1, h2, h6, h8]
    clear h0 h1 h2 h3 h4 h5 h6 h7 h8 h9 h10 h11 h12 h hf hg hs
    grind
  · have : s ∈ deniedCalls e.hasExecveat ↔ r.nr = 41 ∨ r.nr = 57 ∨ r.nr = 58 ∨ r.nr = 62 ∨ (e.hasExecveat = true ∧ r.nr = 322) := by
      unfold deniedCalls
      cases e.hasExecveat <;> simp [h7, h8, h10, h11, h12]
    rw [golang_eval _ hn, byName, if_neg (by decide), if_neg (by decide), if_neg (by decide), if_pos rfl]
    simp only [golangAnswer, openAnswer, this, h1, h2]
    clear h0 h1 h2 h3 h4 h5 h6 h7 h8 h9 h10 h11 h12 h hf hg hs
    grind
  · have : s ∈ deniedCalls e.hasExecveat ↔ r.nr = 41 ∨ r.nr = 57 ∨ r.nr = 58 ∨ r.nr = 62 ∨ (e.hasExecveat = true ∧ r.nr = 322) := by
      unfold deniedCalls
      cases e.hasExecveat <;> simp [h7, h8, h10, h11, h12]
    rw [node_eval _ hn, byName, if_neg (by decide), if_neg (by decide), if_neg (by decide), if_neg (by decide)]
    simp only [nodeAnswer, this]

/-- C33, the other requests: every rule set kills a call of another architecture; a call without a name is killed by the C/C++ rule sets and let through by the others. -/
theorem C33_unnamed (c : Config) (e : ChildEnv) (p q : Proc) (rule : CStr) (r : Req) (hp : p.filters = []) (hs : Started c e p q)
    (hr : c.seccompRuleName = some rule) :
    (r.native = false → evalAll q.filters r = .kill) ∧
    (r.native = true → (∀ s, ¬Called r.nr s) →
      evalAll q.filters r = if rule = c!"c_cpp" ∨ rule = c!"c_cpp_file_io" then .kill else .allow) := by
  have hf := C23_profile_enforced c e p q hs
  rw [hr] at hf
  refine ⟨fun hn => ?_, fun hn h => ?_⟩
  · rcases hf.2 with ⟨rfl, hg⟩ | ⟨rfl, hg⟩ | ⟨rfl, hg⟩ | ⟨rfl, hg⟩ | ⟨rfl, hg⟩ <;> rw [hg, hp, evalAll_one, eval_foreign _ hn]
  · have hx : ∀ n ∈ [0, 1, 2, 3, 5, 8, 9, 10, 11, 12, 17, 19, 20, 21, 32, 33, 41, 56, 57, 58, 59, 62, 89, 158, 202, 218, 228, 231, 257, 262, 269, 273, 292, 302, 318,
        322, 334], r.nr ≠ n := by
      intro n hn he
      have : ∀ n ∈ [0, 1, 2, 3, 5, 8, 9, 10, 11, 12, 17, 19, 20, 21, 32, 33, 41, 56, 57, 58, 59, 62, 89, 158, 202, 218, 228, 231, 257, 262, 269, 273, 292, 302,
        318, 322, 334], (syscallName n).isSome := by decide +kernel
      obtain ⟨s, h2⟩ := Option.isSome_iff_exists.1 (this n hn)
      exact h s (he ▸ h2)
    simp only [List.mem_cons, List.not_mem_nil, or_false, forall_eq_or_imp, forall_eq] at hx
    rcases hf.2 with ⟨rfl, hg⟩ | ⟨rfl, hg⟩ | ⟨rfl, hg⟩ | ⟨rfl, hg⟩ | ⟨rfl, hg⟩ <;> rw [hg, hp, evalAll_one]
    · rw [cCpp_eval _ hn]; simp [cCppAnswer, hx]
    · rw [cCppFileIo_eval _ hn]; simp [cCppFileIoAnswer, cCppAnswer, hx]
    · rw [general_eval _ _ hn]; simp [generalAnswer, hx]
    · rw [golang_eval _ hn]; simp [golangAnswer, hx]
    · rw [node_eval _ hn]; simp [nodeAnswer, hx]

/-- The sample under `c_cpp`: `mremap` is killed, a read-only `openat` let through, and so is everything listed. -/
example (q : Proc) (hs : Started (sampleAs c!"c_cpp") (sampleChild fun _ => false) sampleProc q) :
    evalAll q.filters (Req.mk' 25 []) = .kill ∧ evalAll q.filters (Req.mk' 257 [0, 0, 0x80000]) = .allow ∧
    evalAll q.filters (Req.mk' 400 []) = .kill := by
  refine ⟨?_, ?_, ?_⟩
  · rw [C33_by_name _ _ _ _ c!"c_cpp" c!"mremap" _ rfl hs rfl rfl (by decide +kernel)]; decide
  · rw [C33_by_name _ _ _ _ c!"c_cpp" c!"openat" _ rfl hs rfl rfl (by decide +kernel)]; decide
  · rw [(C33_unnamed _ _ _ _ c!"c_cpp" _ rfl hs rfl).2 rfl
      (fun s h => by cases (show syscallName 400 = none by decide +kernel).symm.trans h)]; decide

example : ∃ q, Started (sampleAs c!"c_cpp") (sampleChild fun _ => false) sampleProc q := sampleAs_started _ (by decide)

end Judger
