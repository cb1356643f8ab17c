import Verif.Spec.Sandbox

/-! # Evaluating the rule sets -/

set_option autoImplicit false

namespace Judger

open Judger.Spec

variable {r : Req}

theorem applies_mk (a : Action) (n : Nat) (cs : List ArgCmp) :
    Rule.applies ⟨a, n, cs⟩ r = (n == r.nr && cs.all (·.holds r)) := rfl

theorem find_map (a : Action) (L : List Nat) (rest : List Rule) :
    (L.map (fun n => (⟨a, n, []⟩ : Rule)) ++ rest).find? (·.applies r) =
      if r.nr ∈ L then some ⟨a, r.nr, []⟩ else rest.find? (·.applies r) := by
  induction L with
  | nil => rfl
  | cons n L ih =>
    simp only [List.map_cons, List.cons_append, List.find?_cons, applies_mk, List.all_nil, Bool.and_true]
    by_cases h : n = r.nr
    · subst h; simp
    · have h' : (n == r.nr) = false := by simpa using h
      have h'' : ¬ r.nr = n := fun e => h e.symm
      rw [h']
      simp only []
      rw [ih]
      simp [h'']

theorem masked3 (x : BitVec 64) : (x &&& (O_WRONLY ||| O_RDWR) == 0) = readOnly x := by
  have h : x &&& (O_WRONLY ||| O_RDWR) = 0 ↔ x.toNat % 4 = 0 := by
    rw [← BitVec.toNat_inj]
    have : (x &&& (O_WRONLY ||| O_RDWR)).toNat = x.toNat % 4 := by
      rw [BitVec.toNat_and]
      have : (O_WRONLY ||| O_RDWR).toNat = 2 ^ 2 - 1 := by decide
      rw [this, Nat.and_two_pow_sub_one_eq_mod]
    rw [this]
    simp
  unfold readOnly accessMode
  rw [Bool.eq_iff_iff]
  simp only [beq_iff_eq]
  exact h

theorem bit0 (x : BitVec 64) : (x &&& O_WRONLY == O_WRONLY) = (x.toNat % 2 == 1) := by
  have : (x &&& O_WRONLY).toNat = x.toNat % 2 := by
    rw [BitVec.toNat_and]
    have : O_WRONLY.toNat = 2 ^ 1 - 1 := by decide
    rw [this, Nat.and_two_pow_sub_one_eq_mod]
  rw [Bool.eq_iff_iff]
  simp only [beq_iff_eq]
  rw [← BitVec.toNat_inj, this]
  simp [O_WRONLY]

theorem bit1 (x : BitVec 64) : (x &&& O_RDWR == O_RDWR) = (x.toNat / 2 % 2 == 1) := by
  have key : (x &&& O_RDWR).toNat = 2 * (x.toNat / 2 % 2) := by
    rw [BitVec.toNat_and]
    have h2 : O_RDWR.toNat = 2 := by decide
    rw [h2]
    have h1 : (x.toNat &&& 2) / 2 = x.toNat / 2 % 2 := by
      rw [Nat.and_div_two]
      exact Nat.and_one_is_mod _
    have h0 : (x.toNat &&& 2) % 2 = 0 := by
      have := Nat.and_mod_two_pow (a := x.toNat) (b := 2) (n := 1)
      simpa using this
    omega
  rw [Bool.eq_iff_iff]
  simp only [beq_iff_eq]
  rw [← BitVec.toNat_inj, key]
  have : O_RDWR.toNat = 2 := by decide
  rw [this]
  omega

theorem readOnly_bits (x : BitVec 64) : readOnly x = !((x.toNat % 2 == 1) || (x.toNat / 2 % 2 == 1)) := by
  unfold readOnly accessMode
  rw [Bool.eq_iff_iff]
  simp only [beq_iff_eq, Bool.not_eq_true', Bool.or_eq_false_iff, beq_eq_false_iff_ne]
  omega

theorem noWriteOpen_find :
    (noWriteOpenRules.find? (·.applies r)).map Rule.action =
      if r.nr = 2 then (if readOnly (r.args 1) then none else some .kill)
      else if r.nr = 257 then (if readOnly (r.args 2) then none else some .kill) else none := by
  unfold noWriteOpenRules
  simp only [List.find?_cons, List.find?_nil, applies_mk, List.all_cons, List.all_nil, Bool.and_true, ArgCmp.holds, bit0, bit1,
    readOnly_bits, NR_open, NR_openat]
  by_cases h2 : r.nr = 2
  · simp only [h2, BEq.rfl, Bool.true_and, if_true]
    cases (r.args 1).toNat % 2 == 1 <;> cases (r.args 1).toNat / 2 % 2 == 1 <;> simp
  · have h2' : (2 == r.nr) = false := by simpa using fun e => h2 e.symm
    simp only [h2, h2', Bool.false_and, if_false]
    by_cases h3 : r.nr = 257
    · simp only [h3, BEq.rfl, Bool.true_and, if_true]
      cases (r.args 2).toNat % 2 == 1 <;> cases (r.args 2).toNat / 2 % 2 == 1 <;> simp
    · have h3' : (257 == r.nr) = false := by simpa using fun e => h3 e.symm
      simp [h3, h3']

theorem eval_native (f : Filter) (hn : r.native = true) :
    f.eval r = ((f.rules.find? (·.applies r)).map Rule.action).getD f.dflt := by
  unfold Filter.eval
  rw [if_pos hn]
  cases f.rules.find? (·.applies r) <;> rfl

theorem node_eval (x : Bool) (hn : r.native = true) : (nodeFilter x).eval r = nodeAnswer x r := by
  rw [eval_native _ hn]
  simp only [nodeFilter, nodeRules, nodeAnswer]
  have := find_map (r := r) .kill (golangBlacklist x) []
  rw [List.append_nil] at this
  rw [this]
  cases x <;> simp only [golangBlacklist, NR_socket, NR_fork, NR_vfork, NR_kill, NR_execveat, if_true, Bool.false_eq_true,
    if_false, List.append_nil, List.cons_append, List.nil_append, List.mem_cons, List.not_mem_nil, or_false, false_and, true_and] <;>
  split <;> rfl

theorem golang_eval (x : Bool) (hn : r.native = true) : (golangFilter x).eval r = golangAnswer x r := by
  rw [eval_native _ hn]
  simp only [golangFilter, golangRules, golangAnswer]
  rw [find_map (r := r) .kill (golangBlacklist x) noWriteOpenRules]
  cases x <;> simp only [golangBlacklist, NR_socket, NR_fork, NR_vfork, NR_kill, NR_execveat, if_true, Bool.false_eq_true,
    if_false, List.append_nil, List.cons_append, List.nil_append, List.mem_cons, List.not_mem_nil, or_false, false_and, true_and] <;>
  split <;> first | rfl | skip
  all_goals
    rw [noWriteOpen_find]
    split
    · split <;> rfl
    · split
      · split <;> rfl
      · rfl

theorem general_eval (exe : BitVec 64) (x : Bool) (hn : r.native = true) :
    (generalFilter exe x).eval r = generalAnswer exe x r := by
  rw [eval_native _ hn]
  simp only [generalFilter, generalRules, generalAnswer]
  rw [List.append_assoc, List.append_assoc, find_map (r := r) .kill (generalBlacklist x)]
  have hrest : ((([⟨.errno EACCES, NR_socket, []⟩] ++ ([⟨.kill, NR_execve, [.ne 0 exe]⟩] ++ noWriteOpenRules) : List Rule).find?
      (·.applies r)).map Rule.action).getD .allow =
      if r.nr = 41 then .errno 13
      else if r.nr = 59 then (if r.args 0 = exe then .allow else .kill)
      else if r.nr = 2 then (if readOnly (r.args 1) then .allow else .kill)
      else if r.nr = 257 then (if readOnly (r.args 2) then .allow else .kill)
      else .allow := by
    simp only [List.cons_append, List.nil_append, List.find?_cons, applies_mk, List.all_nil, List.all_cons, Bool.and_true,
      ArgCmp.holds, NR_socket, NR_execve, EACCES]
    by_cases h41 : r.nr = 41
    · simp [h41]
    have h41' : (41 == r.nr) = false := by simpa using fun e => h41 e.symm
    simp only [h41', h41, if_false]
    by_cases h59 : r.nr = 59
    · by_cases he : r.args 0 = exe
      · have := noWriteOpen_find (r := r)
        rw [if_neg (by omega), if_neg (by omega)] at this
        simp [h59, he, this]
      · have he' : (r.args 0 != exe) = true := by simpa using he
        simp [h59, he, he']
    have h59' : (59 == r.nr) = false := by simpa using fun e => h59 e.symm
    simp only [h59, h59', Bool.false_and, if_false]
    rw [noWriteOpen_find]
    split
    · split <;> rfl
    · split
      · split <;> rfl
      · rfl
  cases x <;> simp only [generalBlacklist, NR_clone, NR_fork, NR_vfork, NR_kill, NR_execveat, if_true, Bool.false_eq_true,
    if_false, List.append_nil, List.cons_append, List.nil_append, List.mem_cons, List.not_mem_nil, or_false, false_and, true_and] <;>
  split <;> first | rfl | exact hrest

theorem cCpp_common (exe : BitVec 64) (w : Bool) :
    (((cCppRules exe w).find? (·.applies r)).map Rule.action).getD .kill =
      if r.nr ∈ cCppWhitelist then .allow
      else if r.nr = 59 ∧ r.args 0 = exe then .allow
      else (((cCppFileRules w).find? (·.applies r)).map Rule.action).getD .kill := by
  unfold cCppRules
  rw [List.append_assoc, find_map (r := r) .allow cCppWhitelist]
  split
  · rfl
  · simp only [List.cons_append, List.nil_append, List.find?_cons, applies_mk, List.all_nil, List.all_cons, Bool.and_true,
      ArgCmp.holds, NR_execve]
    by_cases h59 : r.nr = 59
    · by_cases he : r.args 0 = exe
      · simp [h59, he]
      · have he' : (r.args 0 == exe) = false := by simpa using he
        simp [h59, he, he']
    · have h59' : (59 == r.nr) = false := by simpa using fun e => h59 e.symm
      simp [h59, h59']

theorem whitelist_mem : r.nr ∈ cCppWhitelist ↔
    r.nr ∈ [0, 1, 3, 5, 8, 9, 10, 11, 12, 17, 19, 20, 21, 89, 158, 202, 218, 228, 231, 262, 269, 273, 302, 318, 334] := by
  simp only [cCppWhitelist, NR_access, NR_arch_prctl, NR_brk, NR_clock_gettime, NR_close, NR_exit_group, NR_faccessat, NR_fstat,
    NR_futex, NR_getrandom, NR_lseek, NR_mmap, NR_mprotect, NR_munmap, NR_newfstatat, NR_pread64, NR_prlimit64, NR_read,
    NR_readlink, NR_readv, NR_rseq, NR_set_robust_list, NR_set_tid_address, NR_write, NR_writev, List.mem_cons,
    List.not_mem_nil, or_false]
  omega

theorem cCpp_eval (exe : BitVec 64) (hn : r.native = true) : (cCppFilter exe).eval r = cCppAnswer exe r := by
  rw [eval_native _ hn]
  simp only [cCppFilter]
  rw [cCpp_common]
  unfold cCppAnswer
  simp only [whitelist_mem]
  split
  · rfl
  split
  · rfl
  simp only [cCppFileRules, Bool.false_eq_true, if_false, List.find?_cons, List.find?_nil, applies_mk, List.all_cons,
    List.all_nil, Bool.and_true, ArgCmp.holds, masked3, NR_open, NR_openat]
  by_cases h2 : r.nr = 2
  · simp only [h2, BEq.rfl, Bool.true_and, true_and]
    cases readOnly (r.args 1) <;> simp
  · have h2' : (2 == r.nr) = false := by simpa using fun e => h2 e.symm
    simp only [h2, h2', Bool.false_and, false_and, if_false]
    by_cases h3 : r.nr = 257
    · simp only [h3, BEq.rfl, Bool.true_and, true_and]
      cases readOnly (r.args 2) <;> simp
    · have h3' : (257 == r.nr) = false := by simpa using fun e => h3 e.symm
      simp [h3, h3']

theorem cCppFileIo_eval (exe : BitVec 64) (hn : r.native = true) : (cCppFileIoFilter exe).eval r = cCppFileIoAnswer exe r := by
  rw [eval_native _ hn]
  simp only [cCppFileIoFilter]
  rw [cCpp_common]
  unfold cCppFileIoAnswer cCppAnswer
  simp only [whitelist_mem]
  by_cases hf : r.nr ∈ [2, 257, 32, 33, 292]
  · rw [if_pos hf]
    have hw : r.nr ∉ [0, 1, 3, 5, 8, 9, 10, 11, 12, 17, 19, 20, 21, 89, 158, 202, 218, 228, 231, 262, 269, 273, 302, 318, 334] := by
      simp only [List.mem_cons, List.not_mem_nil, or_false] at hf ⊢
      omega
    have h59 : ¬ (r.nr = 59 ∧ r.args 0 = exe) := by
      simp only [List.mem_cons, List.not_mem_nil, or_false] at hf
      omega
    rw [if_neg hw, if_neg h59]
    simp only [cCppFileRules, if_true, NR_open, NR_openat, NR_dup, NR_dup2, NR_dup3]
    have := find_map (r := r) .allow [2, 257, 32, 33, 292] []
    simp only [List.map_cons, List.map_nil, List.cons_append, List.nil_append] at this
    rw [this, if_pos hf]
    rfl
  · rw [if_neg hf]
    split
    · rfl
    split
    · rfl
    have hnone : (cCppFileRules true).find? (·.applies r) = none := by
      simp only [cCppFileRules, if_true, NR_open, NR_openat, NR_dup, NR_dup2, NR_dup3]
      have := find_map (r := r) .allow [2, 257, 32, 33, 292] []
      simp only [List.map_cons, List.map_nil, List.cons_append, List.nil_append] at this
      rw [this, if_neg hf]
      rfl
    rw [hnone]
    simp only [List.mem_cons, List.not_mem_nil, or_false, not_or] at hf
    simp [hf.1, hf.2.1]

/-! ## Several filters -/

theorem min_allow {a b : Action} (h : a.min b = .allow) : a = .allow ∧ b = .allow := by
  cases a <;> cases b <;> simp_all [Action.min]

theorem evalAll_allow {fs : List Filter} (h : evalAll fs r = .allow) : ∀ f ∈ fs, f.eval r = .allow := by
  induction fs with
  | nil => simp
  | cons f fs ih =>
    have := min_allow h
    intro g hg
    rcases List.mem_cons.1 hg with rfl | hg
    · exact this.1
    · exact ih this.2 g hg

theorem evalAll_kill {fs : List Filter} {f : Filter} (hf : f ∈ fs) (h : f.eval r = .kill) : evalAll fs r = .kill := by
  induction fs with
  | nil => cases hf
  | cons g fs ih =>
    simp only [evalAll]
    rcases List.mem_cons.1 hf with rfl | hf
    · rw [h]; rfl
    · rw [ih hf]
      cases g.eval r <;> rfl

theorem eval_foreign (f : Filter) (hn : r.native = false) : f.eval r = .kill := by
  unfold Filter.eval
  rw [if_neg (by simp [hn])]

theorem evalAll_append_allow (gs fs : List Filter) (h : evalAll (gs ++ fs) r = .allow) : evalAll fs r = .allow := by
  induction gs with
  | nil => exact h
  | cons g gs ih => exact ih (min_allow h).2

end Judger
