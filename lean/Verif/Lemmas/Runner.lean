import Verif.Spec.Verdict

/-! # Helper facts about `run()` -/

set_option autoImplicit false

namespace Judger

open Judger.Spec

section setIf
variable (p : Prop) [Decidable p] (v : Int) (r : Result)
@[simp] theorem Result.setIf_result : (r.setIf p v).result = if p then v else r.result := by
  unfold Result.setIf; split <;> rfl
@[simp] theorem Result.setIf_cpuTime : (r.setIf p v).cpuTime = r.cpuTime := by unfold Result.setIf; split <;> rfl
@[simp] theorem Result.setIf_realTime : (r.setIf p v).realTime = r.realTime := by unfold Result.setIf; split <;> rfl
@[simp] theorem Result.setIf_memory : (r.setIf p v).memory = r.memory := by unfold Result.setIf; split <;> rfl
@[simp] theorem Result.setIf_signal : (r.setIf p v).signal = r.signal := by unfold Result.setIf; split <;> rfl
@[simp] theorem Result.setIf_exitCode : (r.setIf p v).exitCode = r.exitCode := by unfold Result.setIf; split <;> rfl
@[simp] theorem Result.setIf_error : (r.setIf p v).error = r.error := by unfold Result.setIf; split <;> rfl
end setIf

theorem configRejected_iff (c : Config) : configRejected c = false ↔ ConfigOk c := by
  simp only [configRejected, ConfigOk, LimitOk, UNLIMITED, Bool.or_eq_false_iff, Bool.and_eq_false_iff,
    decide_eq_false_iff_not, Int.not_lt]
  grind

theorem tdiv_1000 (x : Int) (h : 0 ≤ x) : x.tdiv 1000 = x / 1000 := by
  rw [Int.tdiv_eq_ediv_of_nonneg h]

theorem realTimeOf_eq (s f : Timeval) (hs : Normal s) (hf : Normal f) :
    realTimeOf s f = castInt (millis f - millis s) := by
  unfold realTimeOf millis micros
  rw [tdiv_1000 _ hs.1, tdiv_1000 _ hf.1]
  congr 1; omega

theorem cpuTimeOf_eq (u : RUsage) (h : Normal u.utime) : cpuTimeOf u = castInt (millis u.utime) := by
  unfold cpuTimeOf millis micros
  rw [tdiv_1000 _ h.1]
  congr 1; omega

theorem wif_exited (code : Nat) : wifsignaled (code * 256) = false := by
  have : code * 256 % 128 = 0 := by omega
  simp [wifsignaled, this]

theorem wif_signaled (sig : Nat) (core : Bool) (h : 1 ≤ sig ∧ sig ≤ 64) :
    wifsignaled (sig + if core then 128 else 0) = true := by
  have : (sig + if core then 128 else 0) % 128 = sig := by cases core <;> simp <;> omega
  simp only [wifsignaled, this]
  split <;> simp <;> omega

theorem wif_stopped (sig : Nat) : wifsignaled (sig * 256 + 127) = false := by
  have : (sig * 256 + 127) % 128 = 127 := by omega
  simp [wifsignaled, this]

theorem castInt_id (x : Int) (h : IsInt x) : castInt x = x := by
  unfold castInt IsInt INT_MIN INT_MAX at *; omega

/-- The decoded signal field after runner.c:100-102. -/
def Spec.Termination.sigField : Termination → Int
  | .signaled sig _ => sig
  | _ => 0

/-- `WEXITSTATUS` of a wait status. -/
def Spec.Termination.exitField : Termination → Int
  | .exited code => code
  | .signaled _ _ => 0
  | .stopped sig => sig

/-- The fields `judgeStatus` reads from the status. -/
theorem decode (t : Termination) (h : t.Valid) :
    (if wifsignaled t.waitStatus then (wtermsig t.waitStatus : Int) else 0) = t.sigField ∧
    (wexitstatus t.waitStatus : Int) = t.exitField := by
  cases t with
  | exited code =>
    simp only [Termination.Valid] at h
    constructor
    · simp [Termination.waitStatus, wif_exited, Termination.sigField]
    · simp only [Termination.waitStatus, wexitstatus, Termination.exitField]; omega
  | signaled sig core =>
    simp only [Termination.Valid] at h
    constructor
    · simp only [Termination.waitStatus, wif_signaled _ _ h, Termination.sigField, if_true, wtermsig]
      cases core <;> simp <;> omega
    · simp only [Termination.waitStatus, wexitstatus, Termination.exitField]
      cases core <;> simp <;> omega
  | stopped sig =>
    simp only [Termination.Valid] at h
    constructor
    · simp [Termination.waitStatus, wif_stopped, Termination.sigField]
    · simp only [Termination.waitStatus, wexitstatus, Termination.exitField]; omega

/-- `judgeStatus` with its inputs named: `s` signal, `x` exit status. -/
def judgeCore (c : Config) (s x cpu mem : Int) (r : Result) : Result :=
  let r := { r with signal := s }
  if r.signal = (SIGUSR1 : Int) then
    { r with result := SYSTEM_ERROR }
  else
    let r := { r with exitCode := x }
    let r := { r with cpuTime := cpu }
    let r := { r with memory := mem }
    let r := r.setIf (r.exitCode ≠ 0) RUNTIME_ERROR
    if r.signal = (SIGSEGV : Int) then
      if c.maxMemory ≠ UNLIMITED ∧ r.memory > c.maxMemory then
        { r with result := MEMORY_LIMIT_EXCEEDED }
      else
        { r with result := RUNTIME_ERROR }
    else
      let r := r.setIf (r.signal ≠ 0) RUNTIME_ERROR
      let r := r.setIf (c.maxMemory ≠ UNLIMITED ∧ r.memory > c.maxMemory) MEMORY_LIMIT_EXCEEDED
      let r := r.setIf (c.maxRealTime ≠ UNLIMITED ∧ r.realTime > c.maxRealTime) REAL_TIME_LIMIT_EXCEEDED
      let r := r.setIf (c.maxCpuTime ≠ UNLIMITED ∧ r.cpuTime > c.maxCpuTime) CPU_TIME_LIMIT_EXCEEDED
      r

theorem judgeStatus_core (c : Config) (e : RunEnv) (r : Result) (t : Termination) (h : t.Valid)
    (hs : e.status = t.waitStatus) (hr : r.signal = 0) :
    judgeStatus c e r = judgeCore c t.sigField t.exitField (cpuTimeOf e.usage) (e.usage.maxrss * 1024) r := by
  have ⟨d1, d2⟩ := decode t h
  rw [← hs] at d1 d2
  have hsig : (if wifsignaled e.status then { r with signal := (wtermsig e.status : Int) } else r)
      = { r with signal := t.sigField } := by
    rw [← d1]
    split
    · rfl
    · cases r; simp_all
  simp only [judgeStatus, judgeCore, hsig, d2]

theorem judgeCore_result (c : Config) (s x cpu mem : Int) (r : Result) :
    (judgeCore c s x cpu mem r).result =
      if s = 10 then 5
      else if s = 11 then (if Exceeds c.maxMemory mem then 3 else 4)
      else if Exceeds c.maxCpuTime cpu then 1
      else if Exceeds c.maxRealTime r.realTime then 2
      else if Exceeds c.maxMemory mem then 3
      else if s ≠ 0 ∨ x ≠ 0 then 4 else r.result := by
  have e10 : ((SIGUSR1 : Nat) : Int) = 10 := rfl
  have e11 : ((SIGSEGV : Nat) : Int) = 11 := rfl
  simp only [judgeCore, e10, e11, SYSTEM_ERROR, RUNTIME_ERROR, MEMORY_LIMIT_EXCEEDED, REAL_TIME_LIMIT_EXCEEDED,
    CPU_TIME_LIMIT_EXCEEDED, UNLIMITED, Exceeds]
  by_cases h10 : s = 10
  · simp [h10]
  by_cases h11 : s = 11
  · subst h11
    by_cases hm : c.maxMemory ≠ -1 ∧ mem > c.maxMemory <;> simp [hm]
  simp only [h10, h11, Result.setIf_signal, if_false, Result.setIf_result, Result.setIf_memory, Result.setIf_realTime,
    Result.setIf_cpuTime, Result.setIf_exitCode]
  by_cases hx : x = 0 <;> by_cases hs : s = 0 <;> simp [hx, hs]

theorem judgeCore_fields (c : Config) (s x cpu mem : Int) (r : Result) :
    (judgeCore c s x cpu mem r).signal = s ∧ (judgeCore c s x cpu mem r).realTime = r.realTime ∧
    (judgeCore c s x cpu mem r).error = r.error ∧
    (s ≠ 10 → (judgeCore c s x cpu mem r).exitCode = x ∧ (judgeCore c s x cpu mem r).cpuTime = cpu ∧
      (judgeCore c s x cpu mem r).memory = mem) ∧
    (s = 10 → (judgeCore c s x cpu mem r).exitCode = r.exitCode ∧ (judgeCore c s x cpu mem r).cpuTime = r.cpuTime ∧
      (judgeCore c s x cpu mem r).memory = r.memory) := by
  have e10 : ((SIGUSR1 : Nat) : Int) = 10 := rfl
  simp only [judgeCore, e10]
  by_cases h10 : s = 10
  · simp [h10]
  simp only [h10, Result.setIf_signal, if_false]
  split
  · split <;> simp
  · simp

/-- The specification's verdict in terms of the decoded fields. -/
theorem verdict_fields (c : Config) (t : Termination) (h : t.Valid) (u : Usage) :
    verdict c t u =
      if t.sigField = 10 then 5
      else if t.sigField = 11 then (if Exceeds c.maxMemory u.memBytes then 3 else 4)
      else if Exceeds c.maxCpuTime u.cpuMs then 1
      else if Exceeds c.maxRealTime u.realMs then 2
      else if Exceeds c.maxMemory u.memBytes then 3
      else if t.sigField ≠ 0 ∨ t.exitField ≠ 0 then 4 else 0 := by
  cases t with
  | exited code =>
    simp only [verdict, Termination.sigField, Termination.exitField]
    by_cases hc : code = 0 <;> simp [hc]
  | signaled sig core =>
    simp only [Termination.Valid] at h
    simp only [Termination.sigField]
    by_cases h10 : sig = 10
    · subst h10; simp [verdict]
    by_cases h11 : sig = 11
    · subst h11; simp [verdict]
    have i10 : (sig : Int) ≠ 10 := by omega
    have i11 : (sig : Int) ≠ 11 := by omega
    have i0 : sig ≠ 0 := by omega
    have hv : verdict c (.signaled sig core) u =
        if Exceeds c.maxCpuTime u.cpuMs then 1
        else if Exceeds c.maxRealTime u.realMs then 2
        else if Exceeds c.maxMemory u.memBytes then 3 else 4 := by
      unfold verdict
      split
      · simp_all
      · simp_all
      · simp
    simp [hv, i10, i11, i0]
  | stopped sig =>
    simp only [Termination.Valid] at h
    have i0 : sig ≠ 0 := by omega
    simp [verdict, Termination.sigField, Termination.exitField, i0]

theorem initResult_eq (r : Result) : initResult r = ⟨0, 0, 0, 0, 0, 0, 0⟩ := rfl

/-- Everything about a completed run. -/
theorem run_completed (c : Config) (prior : Result) (e : RunEnv) (pid : Nat) (t : Termination)
    (hc : ConfigOk c) (h : Completed c e pid t) :
    run c prior e = .returned
      (judgeCore c t.sigField t.exitField (cpuTimeOf e.usage) (e.usage.maxrss * 1024)
        ⟨0, realTimeOf e.start e.finish, 0, 0, 0, 0, 0⟩)
      ((logOpenEff e c.logPath ++ [.forked]) ++
        (if c.maxRealTime ≠ UNLIMITED then [.startTimer pid c.maxRealTime] else []) ++ [.waited pid] ++
        (if c.maxRealTime ≠ UNLIMITED then [.cancelTimer] else []) ++ logCloseEff e) := by
  have hrej := (configRejected_iff c).2 hc
  have hp := h.pthread
  simp only [run, h.root, hrej, h.fork, runParent, h.wait, ne_eq, not_true_eq_false, if_false,
    Bool.false_eq_true, Bool.not_true, initResult_eq]
  rw [judgeStatus_core _ _ _ _ h.valid h.status rfl]
  by_cases hu : c.maxRealTime = UNLIMITED
  · simp [hu]
  · have hp' : e.pthreadOk = true := hp.resolve_left hu
    simp [hu, hp']

/-- Every way `run()` can go, in one statement. -/
theorem run_cases (c : Config) (prior : Result) (e : RunEnv) :
    (e.getuid ≠ 0 ∧ run c prior e = .returned ⟨0, 0, 0, 0, 0, -5, 0⟩
        (logOpenEff e c.logPath ++ logWriteEff e c!"Error: ROOT_REQUIRED" ++ logCloseEff e)) ∨
    (e.getuid = 0 ∧ ¬ ConfigOk c ∧ run c prior e = .returned ⟨0, 0, 0, 0, 0, -1, 0⟩
        (logOpenEff e c.logPath ++ logWriteEff e c!"Error: INVALID_CONFIG" ++ logCloseEff e)) ∨
    (e.getuid = 0 ∧ ConfigOk c ∧ e.fork = .failed ∧ run c prior e = .returned ⟨0, 0, 0, 0, 0, -2, 0⟩
        (logOpenEff e c.logPath ++ logWriteEff e c!"Error: FORK_FAILED" ++ logCloseEff e)) ∨
    (e.getuid = 0 ∧ ConfigOk c ∧ e.fork = .child ∧ run c prior e = .inChild (logOpenEff e c.logPath ++ [.forked])) ∨
    (∃ pid, e.getuid = 0 ∧ ConfigOk c ∧ e.fork = .parent pid ∧ c.maxRealTime ≠ -1 ∧ e.pthreadOk = false ∧
      run c prior e = .returned ⟨0, 0, 0, 0, 0, -3, 0⟩
        (logOpenEff e c.logPath ++ [.forked] ++ [.kill pid 9] ++ logWriteEff e c!"Error: PTHREAD_FAILED" ++
          logCloseEff e)) ∨
    (∃ pid, e.getuid = 0 ∧ ConfigOk c ∧ e.fork = .parent pid ∧ (c.maxRealTime = -1 ∨ e.pthreadOk = true) ∧
      e.waitOk = false ∧ run c prior e = .returned ⟨0, 0, 0, 0, 0, -4, 0⟩
        (logOpenEff e c.logPath ++ [.forked] ++
          (if c.maxRealTime ≠ -1 then [.startTimer pid c.maxRealTime] else []) ++ [.kill pid 9] ++
          logWriteEff e c!"Error: WAIT_FAILED" ++ logCloseEff e)) ∨
    (∃ pid, e.getuid = 0 ∧ ConfigOk c ∧ e.fork = .parent pid ∧ (c.maxRealTime = -1 ∨ e.pthreadOk = true) ∧
      e.waitOk = true ∧ run c prior e = .returned
        (judgeStatus c e ⟨0, realTimeOf e.start e.finish, 0, 0, 0, 0, 0⟩)
        (logOpenEff e c.logPath ++ [.forked] ++
          (if c.maxRealTime ≠ -1 then [.startTimer pid c.maxRealTime] else []) ++ [.waited pid] ++
          (if c.maxRealTime ≠ -1 then [.cancelTimer] else []) ++ logCloseEff e)) := by
  by_cases hroot : e.getuid = 0
  case neg => exact .inl ⟨hroot, by simp [run, hroot, errorExit, initResult_eq, ROOT_REQUIRED]⟩
  refine .inr ?_
  by_cases hcfg : ConfigOk c
  case neg =>
    have hrej : configRejected c = true := by
      cases h : configRejected c
      · exact absurd ((configRejected_iff c).1 h) hcfg
      · rfl
    exact .inl ⟨hroot, hcfg, by simp [run, hroot, hrej, errorExit, initResult_eq, INVALID_CONFIG]⟩
  have hrej := (configRejected_iff c).2 hcfg
  refine .inr ?_
  match hf : e.fork with
  | .failed => exact .inl ⟨hroot, hcfg, rfl, by simp [run, hroot, hrej, hf, errorExit, initResult_eq, FORK_FAILED]⟩
  | .child => exact .inr (.inl ⟨hroot, hcfg, rfl, by simp [run, hroot, hrej, hf]⟩)
  | .parent pid =>
    refine .inr (.inr ?_)
    by_cases hu : c.maxRealTime = -1
    · refine .inr ?_
      by_cases hw : e.waitOk = true
      · exact .inr ⟨pid, hroot, hcfg, rfl, .inl hu, hw,
          by simp [run, hroot, hrej, hf, runParent, hu, UNLIMITED, hw, initResult_eq]⟩
      · exact .inl ⟨pid, hroot, hcfg, rfl, .inl hu, by simpa using hw,
          by simp [run, hroot, hrej, hf, runParent, hu, UNLIMITED, hw, initResult_eq, errorExit, WAIT_FAILED, SIGKILL]⟩
    · by_cases hp : e.pthreadOk = true
      · refine .inr ?_
        by_cases hw : e.waitOk = true
        · exact .inr ⟨pid, hroot, hcfg, rfl, .inr hp, hw,
            by simp [run, hroot, hrej, hf, runParent, hu, UNLIMITED, hw, hp, initResult_eq]⟩
        · exact .inl ⟨pid, hroot, hcfg, rfl, .inr hp, by simpa using hw,
            by simp [run, hroot, hrej, hf, runParent, hu, UNLIMITED, hw, hp, initResult_eq, errorExit, WAIT_FAILED,
              SIGKILL]⟩
      · exact .inl ⟨pid, hroot, hcfg, rfl, hu, by simpa using hp,
          by simp [run, hroot, hrej, hf, runParent, hu, UNLIMITED, hp, initResult_eq, errorExit, PTHREAD_FAILED,
            SIGKILL]⟩

/-- `judgeStatus` never touches `error` or `real_time`. -/
theorem judgeStatus_error (c : Config) (e : RunEnv) (r : Result) :
    (judgeStatus c e r).error = r.error ∧ (judgeStatus c e r).realTime = r.realTime := by
  unfold judgeStatus
  generalize hr0 : (if wifsignaled e.status then { r with signal := (wtermsig e.status : Int) } else r) = r0
  have h0 : r0.error = r.error ∧ r0.realTime = r.realTime := by
    rw [← hr0]; split <;> exact ⟨rfl, rfl⟩
  rw [← h0.1, ← h0.2]
  by_cases h10 : r0.signal = (SIGUSR1 : Int)
  · simp [h10]
  by_cases h11 : r0.signal = (SIGSEGV : Int)
  · simp only [h11, Result.setIf_signal, if_true]
    split
    · simp
    · split <;> simp
  · simp only [h10, h11, if_false, Result.setIf_signal]
    simp

end Judger
