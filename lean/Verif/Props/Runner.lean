import Verif.Lemmas.Runner

/-!
# C01–C13: what the caller of `run()` may rely on

Each theorem quantifies over every configuration, every prior content of the result structure and every outcome of every
OS call.  The `example`s show that the hypotheses can be met by a non-trivial case.
-/

set_option autoImplicit false

namespace Judger

open Judger.Spec

/-! ## A sample configuration and sample OS behaviour, used only in `example`s -/

/-- 1 s CPU, 2 s real time, 64 MiB. -/
def sampleConfig : Config where
  maxCpuTime := 1000
  maxRealTime := 2000
  maxMemory := 67108864
  maxStack := 16777216
  maxProcessNumber := 5
  maxOutputSize := 1048576
  memoryLimitCheckOnly := 0
  exePath := c!"/bin/prog"
  inputPath := some c!"/in"
  outputPath := some c!"/out"
  errorPath := some c!"/err"
  args := [c!"/bin/prog"]
  env := []
  logPath := c!"judger.log"
  seccompRuleName := some c!"c_cpp"
  uid := 65534
  gid := 65534

/-- A run that takes 30 ms of wall-clock time, 12 ms of user time and 2000 KiB and ends with this status. -/
def sampleEnv (status : Nat) : RunEnv where
  logOpens := true
  logLocks := true
  logWrites := true
  getuid := 0
  start := ⟨100, 999999⟩
  fork := .parent 4242
  pthreadOk := true
  waitOk := true
  status := status
  usage := ⟨⟨0, 12999⟩, 2000⟩
  finish := ⟨101, 30000⟩

theorem sampleConfig_ok : ConfigOk sampleConfig := by
  simp [ConfigOk, LimitOk, sampleConfig]

theorem sampleEnv_completed (t : Termination) (h : t.Valid) :
    Completed sampleConfig (sampleEnv t.waitStatus) 4242 t :=
  ⟨rfl, rfl, .inr rfl, rfl, h, rfl, by simp [Normal, sampleEnv], by simp [Normal, sampleEnv], by simp [Normal, sampleEnv]⟩

/-! ## C01 -/

/-- C01: a caller that is not root gets ROOT_REQUIRED, an otherwise zero result, and nothing is started. -/
theorem C01_root_required (c : Config) (prior : Result) (e : RunEnv) (h : e.getuid ≠ 0) :
    ∃ effs, run c prior e = .returned ⟨0, 0, 0, 0, 0, -5, 0⟩ effs ∧ ∀ x ∈ effs, ¬ Touches x := by
  rcases run_cases c prior e with ⟨_, hr⟩ | h' | h' | h' | ⟨_, h'⟩ | ⟨_, h'⟩ | ⟨_, h'⟩
  case inl =>
    refine ⟨_, hr, ?_⟩
    cases hl : e.logOpens <;> cases hk : e.logLocks <;> cases hw : e.logWrites <;>
      simp [logOpenEff, logWriteEff, logCloseEff, hl, hk, hw, Touches]
  all_goals exact absurd h'.1 h

example : ∃ e : RunEnv, e.getuid ≠ 0 ∧ e.fork = .parent 7 := ⟨{ sampleEnv 0 with getuid := 1000, fork := .parent 7 }, by decide, rfl⟩

/-! ## C02 -/

/-- C02: for a root caller INVALID_CONFIG is reported exactly for the configurations outside `ConfigOk`; then nothing is
started; and every other configuration reaches `fork`. -/
theorem C02_validation_exact (c : Config) (prior : Result) (e : RunEnv) (h : e.getuid = 0) :
    (¬ ConfigOk c ↔ ∃ r effs, run c prior e = .returned r effs ∧ r.error = -1) ∧
    (¬ ConfigOk c → ∃ effs, run c prior e = .returned ⟨0, 0, 0, 0, 0, -1, 0⟩ effs ∧ ∀ x ∈ effs, ¬ Touches x) ∧
    (ConfigOk c →
      (e.fork = .failed ∧ ∃ effs, run c prior e = .returned ⟨0, 0, 0, 0, 0, -2, 0⟩ effs) ∨
      (e.fork = .child ∧ ∃ effs, run c prior e = .inChild effs ∧ Eff.forked ∈ effs) ∨
      (∃ pid, e.fork = .parent pid ∧ ∃ r effs, run c prior e = .returned r effs ∧ Eff.forked ∈ effs)) := by
  have hjs := (judgeStatus_error c e ⟨0, realTimeOf e.start e.finish, 0, 0, 0, 0, 0⟩).1
  rcases run_cases c prior e with ⟨h', _⟩ | ⟨_, hc, hr⟩ | ⟨_, hc, hf, hr⟩ | ⟨_, hc, hf, hr⟩ | ⟨pid, _, hc, hf, _, _, hr⟩ |
    ⟨pid, _, hc, hf, _, _, hr⟩ | ⟨pid, _, hc, hf, _, _, hr⟩
  · exact absurd h h'
  · refine ⟨⟨fun _ => ⟨_, _, hr, rfl⟩, fun _ => hc⟩, fun _ => ⟨_, hr, ?_⟩, fun h => absurd h hc⟩
    cases hl : e.logOpens <;> cases hk : e.logLocks <;> cases hw : e.logWrites <;>
      simp [logOpenEff, logWriteEff, logCloseEff, hl, hk, hw, Touches]
  all_goals
    refine ⟨⟨fun h => absurd hc h, ?_⟩, fun h => absurd hc h, fun _ => ?_⟩
    · rintro ⟨r, effs, h1, h2⟩
      (simp only [hr, RunOut.returned.injEq, reduceCtorEq] at h1) <;> (obtain ⟨rfl, rfl⟩ := h1) <;> simp_all
    · first
      | exact .inl ⟨hf, _, hr⟩
      | exact .inr (.inl ⟨hf, _, hr, by simp⟩)
      | exact .inr (.inr ⟨pid, hf, _, _, hr, by simp⟩)

example : ¬ ConfigOk { sampleConfig with maxMemory := 0 } := by simp [ConfigOk, LimitOk, sampleConfig]
example : ¬ ConfigOk { sampleConfig with maxStack := -1 } := by simp [ConfigOk, LimitOk, sampleConfig]
example : ConfigOk { sampleConfig with maxMemory := -1 } := by simp [ConfigOk, LimitOk, sampleConfig]

/-! ## C03 -/

/-- C03: a non-zero error comes with an otherwise zero result and is one of -1..-5. -/
theorem C03_error_excludes_verdict (c : Config) (prior : Result) (e : RunEnv) (r : Result) (effs : List Eff)
    (h : run c prior e = .returned r effs) (he : r.error ≠ 0) :
    r = ⟨0, 0, 0, 0, 0, r.error, 0⟩ ∧ (-5 ≤ r.error ∧ r.error ≤ -1) := by
  have hjs := (judgeStatus_error c e ⟨0, realTimeOf e.start e.finish, 0, 0, 0, 0, 0⟩).1
  rcases run_cases c prior e with ⟨_, hr⟩ | ⟨_, _, hr⟩ | ⟨_, _, _, hr⟩ | ⟨_, _, _, hr⟩ | ⟨pid, _, _, _, _, _, hr⟩ |
    ⟨pid, _, _, _, _, _, hr⟩ | ⟨pid, _, _, _, _, _, hr⟩
  all_goals
    (simp only [hr, RunOut.returned.injEq, reduceCtorEq] at h) <;> (obtain ⟨rfl, rfl⟩ := h) <;> simp_all

/-- A failed wait. -/
example : ∃ r effs, run sampleConfig ⟨7, 7, 7, 7, 7, 7, 7⟩ { sampleEnv 0 with waitOk := false } = .returned r effs ∧ r = ⟨0, 0, 0, 0, 0, -4, 0⟩ :=
  ⟨_, _, rfl, (C03_error_excludes_verdict sampleConfig ⟨7, 7, 7, 7, 7, 7, 7⟩ { sampleEnv 0 with waitOk := false } _ _ rfl (by decide)).1⟩

/-- C03, second half: which error is reported is determined by the first step that failed. -/
theorem C03_error_code (c : Config) (prior : Result) (e : RunEnv) (r : Result) (effs : List Eff)
    (h : run c prior e = .returned r effs) :
    (r.error = -5 ↔ e.getuid ≠ 0) ∧
    (r.error = -1 ↔ e.getuid = 0 ∧ ¬ ConfigOk c) ∧
    (r.error = -2 ↔ e.getuid = 0 ∧ ConfigOk c ∧ e.fork = .failed) ∧
    (r.error = -3 ↔ e.getuid = 0 ∧ ConfigOk c ∧ e.fork ≠ .failed ∧ c.maxRealTime ≠ -1 ∧ e.pthreadOk = false) ∧
    (r.error = -4 ↔ e.getuid = 0 ∧ ConfigOk c ∧ e.fork ≠ .failed ∧ (c.maxRealTime = -1 ∨ e.pthreadOk = true) ∧
      e.waitOk = false) ∧
    (r.error = 0 ↔ e.getuid = 0 ∧ ConfigOk c ∧ e.fork ≠ .failed ∧ (c.maxRealTime = -1 ∨ e.pthreadOk = true) ∧
      e.waitOk = true) := by
  have hjs := (judgeStatus_error c e ⟨0, realTimeOf e.start e.finish, 0, 0, 0, 0, 0⟩).1
  rcases run_cases c prior e with ⟨_, hr⟩ | ⟨_, _, hr⟩ | ⟨_, _, hf, hr⟩ | ⟨_, _, hf, hr⟩ | ⟨pid, _, _, hf, _, _, hr⟩ |
    ⟨pid, _, _, hf, hp, _, hr⟩ | ⟨pid, _, _, hf, hp, _, hr⟩
  all_goals
    (simp only [hr, RunOut.returned.injEq, reduceCtorEq] at h) <;> (obtain ⟨rfl, rfl⟩ := h) <;> simp_all <;> grind

example : ∃ r effs, run sampleConfig (noResult 0) { sampleEnv 0 with waitOk := false } = .returned r effs ∧ r.error = -4 :=
  ⟨_, _, rfl, by decide⟩

/-! ## C04–C08: a run whose child was waited for -/

/-- C04: the verdict of a completed run is the documented function of how the child ended and what it used. -/
theorem C04_verdict (c : Config) (prior : Result) (e : RunEnv) (pid : Nat) (t : Termination)
    (hc : ConfigOk c) (h : Completed c e pid t) :
    ∃ r effs, run c prior e = .returned r effs ∧ r.error = 0 ∧ r.result = verdict c t (usageOf e) := by
  refine ⟨_, _, run_completed c prior e pid t hc h, ?_, ?_⟩
  · exact (judgeCore_fields ..).2.2.1
  · rw [judgeCore_result, verdict_fields c t h.valid, cpuTimeOf_eq _ h.normUtime, realTimeOf_eq _ _ h.normStart h.normFinish]
    rfl

example : Completed sampleConfig (sampleEnv 11) 4242 (.signaled 11 false) := sampleEnv_completed (.signaled 11 false) (by decide)
example : verdict { sampleConfig with maxMemory := 1024 } (.signaled 11 false) (usageOf (sampleEnv 11)) = 3 := by decide
example : verdict sampleConfig (.exited 0) (usageOf (sampleEnv 0)) = 0 := by decide
example : verdict sampleConfig (.exited 0) ⟨1001, 3000, 99999999⟩ = 1 := by decide
example : verdict sampleConfig (.signaled 9 false) ⟨1000, 2001, 99999999⟩ = 2 := by decide

/-- C05: a run is accepted exactly when the program exited with code 0 within every limit that is set. -/
theorem C05_accepted_iff (c : Config) (prior : Result) (e : RunEnv) (t : Termination)
    (hv : t.Valid) (hs : e.status = t.waitStatus)
    (hu : Normal e.usage.utime) (hb : Normal e.start) (hf : Normal e.finish) (r : Result) (effs : List Eff)
    (hr : run c prior e = .returned r effs) :
    (r.error = 0 ∧ r.result = 0) ↔
      (e.getuid = 0 ∧ ConfigOk c ∧ (∃ pid, e.fork = .parent pid) ∧ (c.maxRealTime = -1 ∨ e.pthreadOk = true) ∧
        e.waitOk = true ∧ t = .exited 0 ∧
        Within c.maxCpuTime (usageOf e).cpuMs ∧ Within c.maxRealTime (usageOf e).realMs ∧
        Within c.maxMemory (usageOf e).memBytes) := by
  have hcode := C03_error_code c prior e r effs hr
  have hfork : e.fork ≠ .failed → e.getuid = 0 → ConfigOk c → ∃ pid, e.fork = .parent pid := by
    intro h1 h2 h3
    match hf : e.fork with
    | .failed => exact absurd hf h1
    | .child => simp [run, h2, (configRejected_iff c).2 h3, hf] at hr
    | .parent pid => exact ⟨pid, rfl⟩
  have hverd : ∀ t, verdict c t (usageOf e) = 0 ↔ t = .exited 0 ∧ Within c.maxCpuTime (usageOf e).cpuMs ∧
      Within c.maxRealTime (usageOf e).realMs ∧ Within c.maxMemory (usageOf e).memBytes := by
    intro t
    unfold verdict
    split
    · simp
    · split <;> simp
    · simp only [Within, Exceeds]; grind
  constructor
  · rintro ⟨h0, hres⟩
    obtain ⟨hroot, hcfg, hff, hp, hw⟩ := hcode.2.2.2.2.2.1 h0
    obtain ⟨pid, hpid⟩ := hfork hff hroot hcfg
    obtain ⟨r', effs', h1, h2, h3⟩ := C04_verdict c prior e pid t hcfg ⟨hroot, hpid, hp, hw, hv, hs, hu, hb, hf⟩
    rw [hr] at h1
    injection h1 with h1 _
    subst h1
    rw [hres] at h3
    exact ⟨hroot, hcfg, ⟨pid, hpid⟩, hp, hw, (hverd t).1 h3.symm⟩
  · rintro ⟨hroot, hcfg, ⟨pid, hpid⟩, hp, hw, hlim⟩
    obtain ⟨r', effs', h1, h2, h3⟩ := C04_verdict c prior e pid t hcfg ⟨hroot, hpid, hp, hw, hv, hs, hu, hb, hf⟩
    rw [hr] at h1
    injection h1 with h1 _
    subst h1
    exact ⟨h2, by rw [h3]; exact (hverd t).2 hlim⟩

example : ∃ r effs, run sampleConfig (noResult 3) (sampleEnv 0) = .returned r effs ∧ r.error = 0 ∧ r.result = 0 :=
  ⟨_, _, rfl, by decide, by decide⟩

/-- C06: a program killed by a signal is never accepted. -/
theorem C06_signaled_not_accepted (c : Config) (prior : Result) (e : RunEnv) (pid sig : Nat) (core : Bool)
    (hc : ConfigOk c) (h : Completed c e pid (.signaled sig core)) :
    ∃ r effs, run c prior e = .returned r effs ∧ r.error = 0 ∧ r.result ≠ 0 := by
  obtain ⟨r, effs, h1, h2, h3⟩ := C04_verdict c prior e pid _ hc h
  refine ⟨r, effs, h1, h2, ?_⟩
  rw [h3, verdict_fields c _ h.valid]
  have hv := h.valid
  simp only [Termination.Valid] at hv
  simp only [Termination.sigField]
  have : (sig : Int) ≠ 0 := by omega
  grind

example : Completed sampleConfig (sampleEnv (9 + 128)) 4242 (.signaled 9 true) := sampleEnv_completed (.signaled 9 true) (by decide)

/-- C07: the reported exit code and signal are exact.  (A death by SIGUSR1 is the judger's own failure report: the signal
is reported, the exit code stays 0.) -/
theorem C07_signal_exit_code (c : Config) (prior : Result) (e : RunEnv) (pid : Nat) (t : Termination)
    (hc : ConfigOk c) (h : Completed c e pid t) :
    ∃ r effs, run c prior e = .returned r effs ∧
      (∀ code, t = .exited code → r.exitCode = code ∧ r.signal = 0) ∧
      (∀ sig core, t = .signaled sig core → r.exitCode = 0 ∧ r.signal = sig) := by
  refine ⟨_, _, run_completed c prior e pid t hc h, ?_, ?_⟩
  · rintro code rfl
    have hf := judgeCore_fields c (Termination.exited code).sigField (Termination.exited code).exitField (cpuTimeOf e.usage)
      (e.usage.maxrss * 1024) ⟨0, realTimeOf e.start e.finish, 0, 0, 0, 0, 0⟩
    exact ⟨(hf.2.2.2.1 (by simp [Termination.sigField])).1, hf.1⟩
  · rintro sig core rfl
    have hf := judgeCore_fields c (Termination.signaled sig core).sigField (Termination.signaled sig core).exitField
      (cpuTimeOf e.usage) (e.usage.maxrss * 1024) ⟨0, realTimeOf e.start e.finish, 0, 0, 0, 0, 0⟩
    refine ⟨?_, hf.1⟩
    by_cases h10 : (Termination.signaled sig core).sigField = 10
    · exact (hf.2.2.2.2 h10).1
    · exact (hf.2.2.2.1 h10).1

example : Completed sampleConfig (sampleEnv (255 * 256)) 4242 (.exited 255) := sampleEnv_completed (.exited 255) (by decide)

/-- C08: the measurements are exact whenever they fit the machine types.  `real_time` is within less than one
millisecond of the elapsed time; `cpu_time` and `memory` are filled in unless the child died of SIGUSR1 (the judger's own
failure report), in which case they are 0. -/
theorem C08_measurements (c : Config) (prior : Result) (e : RunEnv) (pid : Nat) (t : Termination)
    (hc : ConfigOk c) (h : Completed c e pid t)
    (hcpu : IsInt (micros e.usage.utime / 1000)) (hreal : IsInt (millis e.finish - millis e.start)) :
    ∃ r effs, run c prior e = .returned r effs ∧
      ((∀ core, t ≠ .signaled 10 core) → r.cpuTime = micros e.usage.utime / 1000 ∧ r.memory = 1024 * e.usage.maxrss) ∧
      ((∃ core, t = .signaled 10 core) → r.cpuTime = 0 ∧ r.memory = 0) ∧
      (micros e.finish - micros e.start) - 1000 < 1000 * r.realTime ∧
      1000 * r.realTime < (micros e.finish - micros e.start) + 1000 := by
  refine ⟨_, _, run_completed c prior e pid t hc h, ?_⟩
  have hf := judgeCore_fields c t.sigField t.exitField (cpuTimeOf e.usage) (e.usage.maxrss * 1024)
    ⟨0, realTimeOf e.start e.finish, 0, 0, 0, 0, 0⟩
  have hre : realTimeOf e.start e.finish = millis e.finish - millis e.start := by
    rw [realTimeOf_eq _ _ h.normStart h.normFinish, castInt_id _ hreal]
  have hcp : cpuTimeOf e.usage = micros e.usage.utime / 1000 := by
    rw [cpuTimeOf_eq _ h.normUtime]; exact castInt_id _ hcpu
  refine ⟨fun hn => ?_, fun ⟨core, ht⟩ => ?_, ?_⟩
  · have h10 : t.sigField ≠ 10 := by
      cases t with
      | signaled sig core => intro h'; exact hn core (by simp only [Termination.sigField] at h'; congr; omega)
      | _ => simp [Termination.sigField]
    have := hf.2.2.2.1 h10
    exact ⟨by rw [this.2.1, hcp], by rw [this.2.2]; omega⟩
  · subst ht
    exact (hf.2.2.2.2 rfl).2
  · rw [hf.2.1]
    simp only [hre, millis]
    omega

example : IsInt (micros (sampleEnv 0).usage.utime / 1000) ∧ IsInt (millis (sampleEnv 0).finish - millis (sampleEnv 0).start) := by
  decide

/-! ## C09, C10 -/

/-- C09: what the result structure held before the call has no influence on anything. -/
theorem C09_prior_irrelevant (c : Config) (e : RunEnv) (p q : Result) : run c p e = run c q e := by
  unfold run
  rw [initResult_eq, initResult_eq]

/-- Structures filled with anything. -/
example : run sampleConfig ⟨7, 7, 7, 7, 7, 7, 7⟩ (sampleEnv 9) = run sampleConfig ⟨-1, 2, -3, 4, -5, 6, -7⟩ (sampleEnv 9) :=
  C09_prior_irrelevant _ _ _ _

/-- C10: with limits at least as large, an accepted outcome stays accepted. -/
theorem C10_monotone (c d : Config) (p q : Result) (e : RunEnv) (pid : Nat) (t : Termination)
    (hd : ConfigOk d) (h : Completed c e pid t) (hp : e.pthreadOk = true)
    (hcpu : LimitLe c.maxCpuTime d.maxCpuTime) (hreal : LimitLe c.maxRealTime d.maxRealTime)
    (hmem : LimitLe c.maxMemory d.maxMemory) (r : Result) (effs : List Eff)
    (hr : run c p e = .returned r effs) (hacc : r.error = 0 ∧ r.result = 0) :
    ∃ r' effs', run d q e = .returned r' effs' ∧ r'.error = 0 ∧ r'.result = 0 := by
  have hacc' := (C05_accepted_iff c p e t h.valid h.status h.normUtime h.normStart h.normFinish r effs hr).1 hacc
  obtain ⟨r', effs', h1, h2, h3⟩ := C04_verdict d q e pid t hd
    ⟨h.root, h.fork, .inr hp, h.wait, h.valid, h.status, h.normUtime, h.normStart, h.normFinish⟩
  refine ⟨r', effs', h1, (C05_accepted_iff d q e t h.valid h.status h.normUtime h.normStart h.normFinish r' effs' h1).2 ?_⟩
  obtain ⟨_, _, _, _, _, ht, w1, w2, w3⟩ := hacc'
  refine ⟨h.root, hd, ⟨pid, h.fork⟩, .inr hp, h.wait, ht, ?_⟩
  simp only [Within, LimitLe] at *
  omega

example : LimitLe sampleConfig.maxMemory (-1) ∧ LimitLe sampleConfig.maxMemory 67108865 := by simp [LimitLe, sampleConfig]

/-! ## C11 (false for a child that stops) -/

/-- C11, the full statement: whenever `run()` returns with error 0, the child has ended. -/
def C11_full : Prop :=
  ∀ (c : Config) (prior : Result) (e : RunEnv) (t : Termination) (r : Result) (effs : List Eff),
    t.Valid → e.status = t.waitStatus → run c prior e = .returned r effs → r.error = 0 → t.Ended

/-- C11 is false: `wait4` is called with WSTOPPED (runner.c:85), so a child that merely stops (signal 19, SIGSTOP) makes
`run()` return error 0 with verdict RUNTIME_ERROR while the child still exists and no SIGKILL was sent. -/
theorem C11_false : ¬ C11_full := by
  intro h
  exact h sampleConfig (noResult 0) (sampleEnv (19 * 256 + 127)) (.stopped 19) _ _ (by decide) rfl rfl rfl

/-- C11 witness in full: the returned result and everything `run()` did. -/
theorem C11_witness :
    run sampleConfig (noResult 0) (sampleEnv (19 * 256 + 127)) = .returned ⟨12, 31, 2048000, 0, 19, 0, 4⟩
      [.logOpen c!"judger.log", .forked, .startTimer 4242 2000, .waited 4242, .cancelTimer, .logClose] := by decide

/-- C11, what holds: `run()` returns with error 0 only after `wait4` on its child succeeded, and the child has ended unless it
was reported as stopped — in which case the verdict is a failure. -/
theorem C11_child_ended_partial (c : Config) (prior : Result) (e : RunEnv) (t : Termination) (r : Result) (effs : List Eff)
    (hv : t.Valid) (hs : e.status = t.waitStatus) (hu : Normal e.usage.utime) (hb : Normal e.start) (hf : Normal e.finish)
    (hr : run c prior e = .returned r effs) (h0 : r.error = 0) :
    (∃ pid, e.fork = .parent pid ∧ Eff.waited pid ∈ effs) ∧ (t.Ended ∨ (∃ sig, t = .stopped sig) ∧ r.result ≠ 0) := by
  have hacc := C05_accepted_iff c prior e t hv hs hu hb hf r effs hr
  have hjs := (judgeStatus_error c e ⟨0, realTimeOf e.start e.finish, 0, 0, 0, 0, 0⟩).1
  refine ⟨?_, ?_⟩
  · rcases run_cases c prior e with ⟨_, hr'⟩ | ⟨_, _, hr'⟩ | ⟨_, _, _, hr'⟩ | ⟨_, _, _, hr'⟩ | ⟨pid, _, _, _, _, _, hr'⟩ |
      ⟨pid, _, _, _, _, _, hr'⟩ | ⟨pid, _, _, hfk, _, _, hr'⟩
    all_goals
      (simp only [hr', RunOut.returned.injEq, reduceCtorEq] at hr) <;> (obtain ⟨rfl, rfl⟩ := hr) <;> simp_all
  · cases t with
    | stopped sig =>
      refine .inr ⟨⟨sig, rfl⟩, fun hres => ?_⟩
      simpa using (hacc.1 ⟨h0, hres⟩).2.2.2.2.2.1
    | _ => exact .inl trivial

/-- A run that ended, and one whose program was stopped: both are waited for. -/
example : ∃ r effs, run sampleConfig (noResult 0) (sampleEnv 256) = .returned r effs ∧
    ((∃ pid, (sampleEnv 256).fork = .parent pid ∧ Eff.waited pid ∈ effs) ∧ ((Termination.exited 1).Ended ∨ (∃ sig, Termination.exited 1 = .stopped sig) ∧ r.result ≠ 0)) :=
  ⟨_, _, rfl, C11_child_ended_partial sampleConfig (noResult 0) (sampleEnv 256) (.exited 1) _ _ (by decide) rfl (by simp [Normal, sampleEnv]) (by simp [Normal, sampleEnv])
    (by simp [Normal, sampleEnv]) rfl (by decide)⟩

/-! ## C12, C13 -/

/-- C12: after PTHREAD_FAILED or WAIT_FAILED, SIGKILL was sent to the forked child and to nothing else; after the other
errors no child exists. -/
theorem C12_no_survivor (c : Config) (prior : Result) (e : RunEnv) (r : Result) (effs : List Eff)
    (h : run c prior e = .returned r effs) :
    (r.error = -3 ∨ r.error = -4 → ∃ pid, e.fork = .parent pid ∧ Eff.kill pid 9 ∈ effs ∧
      ∀ p s, Eff.kill p s ∈ effs → p = pid ∧ s = 9) ∧
    (r.error = -5 ∨ r.error = -1 ∨ r.error = -2 → ∀ x ∈ effs, ¬ Touches x) ∧
    (r.error = 0 → ∀ p s, Eff.kill p s ∉ effs) := by
  have hjs := (judgeStatus_error c e ⟨0, realTimeOf e.start e.finish, 0, 0, 0, 0, 0⟩).1
  rcases run_cases c prior e with ⟨_, hr⟩ | ⟨_, _, hr⟩ | ⟨_, _, _, hr⟩ | ⟨_, _, _, hr⟩ | ⟨pid, _, _, _, _, _, hr⟩ |
    ⟨pid, _, _, _, _, _, hr⟩ | ⟨pid, _, _, _, _, _, hr⟩
  all_goals
    (simp only [hr, RunOut.returned.injEq, reduceCtorEq] at h) <;> (obtain ⟨rfl, rfl⟩ := h)
  all_goals
    cases hl : e.logOpens <;> cases hk : e.logLocks <;> cases hw : e.logWrites <;> by_cases hu : c.maxRealTime = -1 <;>
      simp_all [logOpenEff, logWriteEff, logCloseEff, Touches]

example : ∃ r effs, run sampleConfig (noResult 0) { sampleEnv 0 with pthreadOk := false } = .returned r effs ∧ r.error = -3 :=
  ⟨_, _, rfl, rfl⟩

/-- C13: in the calling process the log is opened first and exactly once; when that succeeded, every log write happens
before the one close, which is the last thing done; when it failed nothing is written or closed.  In the child nothing is
closed by `run()` itself. -/
theorem C13_log_handle (c : Config) (prior : Result) (e : RunEnv) :
    (∀ r effs, run c prior e = .returned r effs →
      (e.logOpens = true → ∃ mid : List Eff, effs = .logOpen c.logPath :: mid ++ [.logClose] ∧
          ∀ x ∈ mid, isLogEff x = true → ∃ m, x = .logWrite m ∨ x = .stderrNote m) ∧
      (e.logOpens = false → ∃ (notes : List CStr) (rest : List Eff), effs = .logOpenFailed c.logPath :: rest ∧
          rest.filter isLogEff = notes.map .stderrNote)) ∧
    (∀ effs, run c prior e = .inChild effs →
      effs = [if e.logOpens then .logOpen c.logPath else .logOpenFailed c.logPath, .forked]) := by
  refine ⟨fun r effs h => ⟨fun hl => ?_, fun hl => ?_⟩, fun effs h => ?_⟩
  · have key : ∀ (msg mid : List Eff), mid.filter isLogEff = [] → (∀ x ∈ msg, ∃ m, x = .logWrite m ∨ x = .stderrNote m) →
        ∃ mid' : List Eff,
          [Eff.logOpen c.logPath] ++ mid ++ msg ++ [.logClose] = .logOpen c.logPath :: mid' ++ [.logClose] ∧
          ∀ x ∈ mid', isLogEff x = true → ∃ m, x = .logWrite m ∨ x = .stderrNote m := by
      intro msg mid hm hx
      refine ⟨mid ++ msg, by simp, fun x hxm hl => ?_⟩
      rcases List.mem_append.1 hxm with h | h
      · have : x ∈ mid.filter isLogEff := List.mem_filter.2 ⟨h, hl⟩
        rw [hm] at this
        cases this
      · exact hx x h
    have hw : ∀ m, ∀ x ∈ logWriteEff e m, ∃ m', x = .logWrite m' ∨ x = .stderrNote m' := by
      intro m x hx
      cases hk : e.logLocks <;> cases hw : e.logWrites <;> simp [logWriteEff, hl, hk, hw] at hx <;> simp [hx]
    rcases run_cases c prior e with ⟨_, hr⟩ | ⟨_, _, hr⟩ | ⟨_, _, _, hr⟩ | ⟨_, _, _, hr⟩ | ⟨pid, _, _, _, _, _, hr⟩ |
      ⟨pid, _, _, _, _, _, hr⟩ | ⟨pid, _, _, _, _, _, hr⟩
    all_goals
      (simp only [hr, RunOut.returned.injEq, reduceCtorEq] at h) <;> (obtain ⟨rfl, rfl⟩ := h)
    all_goals simp only [logOpenEff, logCloseEff, hl, if_true]
    · exact key _ [] rfl (hw c!"Error: ROOT_REQUIRED")
    · exact key _ [] rfl (hw c!"Error: INVALID_CONFIG")
    · exact key _ [] rfl (hw c!"Error: FORK_FAILED")
    · exact key _ [.forked, .kill pid 9] rfl (hw c!"Error: PTHREAD_FAILED")
    · by_cases hu : c.maxRealTime = -1
      · simpa [hu] using key _ [.forked, .kill pid 9] rfl (hw c!"Error: WAIT_FAILED")
      · simpa [hu] using key _ [.forked, .startTimer pid c.maxRealTime, .kill pid 9] rfl (hw c!"Error: WAIT_FAILED")
    · by_cases hu : c.maxRealTime = -1
      · simpa [hu] using key [] [.forked, .waited pid] rfl (by simp)
      · simpa [hu] using key [] [.forked, .startTimer pid c.maxRealTime, .waited pid, .cancelTimer] rfl (by simp)
  · have key : ∀ (msg : List CStr) (mid : List Eff), mid.filter isLogEff = [] →
        ∃ (notes : List CStr) (rest : List Eff),
          [Eff.logOpenFailed c.logPath] ++ mid ++ msg.map .stderrNote = .logOpenFailed c.logPath :: rest ∧
          rest.filter isLogEff = notes.map .stderrNote := by
      intro msg mid hm
      refine ⟨msg, mid ++ msg.map .stderrNote, by simp, ?_⟩
      rw [List.filter_append, hm, List.nil_append, List.filter_eq_self]
      simp [isLogEff]
    rcases run_cases c prior e with ⟨_, hr⟩ | ⟨_, _, hr⟩ | ⟨_, _, _, hr⟩ | ⟨_, _, _, hr⟩ | ⟨pid, _, _, _, _, _, hr⟩ |
      ⟨pid, _, _, _, _, _, hr⟩ | ⟨pid, _, _, _, _, _, hr⟩
    all_goals
      (simp only [hr, RunOut.returned.injEq, reduceCtorEq] at h) <;> (obtain ⟨rfl, rfl⟩ := h)
    all_goals simp only [logOpenEff, logWriteEff, logCloseEff, hl, Bool.false_eq_true, if_false]
    · exact key [_] [] rfl
    · exact key [_] [] rfl
    · exact key [_] [] rfl
    · exact key [_] [.forked, .kill pid 9] rfl
    · by_cases hu : c.maxRealTime = -1
      · simpa [hu] using key [c!"can not open log file"] [.forked, .kill pid 9] rfl
      · simpa [hu] using key [c!"can not open log file"] [.forked, .startTimer pid c.maxRealTime, .kill pid 9] rfl
    · by_cases hu : c.maxRealTime = -1
      · simpa [hu] using key [] [.forked, .waited pid] rfl
      · simpa [hu] using key [] [.forked, .startTimer pid c.maxRealTime, .waited pid, .cancelTimer] rfl
  · rcases run_cases c prior e with ⟨_, hr⟩ | ⟨_, _, hr⟩ | ⟨_, _, _, hr⟩ | ⟨_, _, _, hr⟩ | ⟨pid, _, _, _, _, _, hr⟩ |
      ⟨pid, _, _, _, _, _, hr⟩ | ⟨pid, _, _, _, _, _, hr⟩
    all_goals
      (simp only [hr, RunOut.inChild.injEq, reduceCtorEq] at h)
    subst h
    cases hl : e.logOpens <;> simp [logOpenEff, hl]

/-- A failed wait with the log open: opened, written, closed. -/
example : ∃ r effs, run sampleConfig (noResult 0) { sampleEnv 0 with waitOk := false } = .returned r effs ∧
    ∃ mid : List Eff, effs = .logOpen sampleConfig.logPath :: mid ++ [.logClose] ∧
      ∀ x ∈ mid, isLogEff x = true → ∃ m, x = .logWrite m ∨ x = .stderrNote m :=
  ⟨_, _, rfl, ((C13_log_handle sampleConfig (noResult 0) { sampleEnv 0 with waitOk := false }).1 _ _ rfl).1 rfl⟩

end Judger
