import Verif.Props.Child
import Verif.Spec.Clock

/-!
# C74: the CPU limit and its verdict; C75: result 0 by itself; C76: a clock that is set during the run
-/

set_option autoImplicit false

namespace Judger

open Judger.Spec

/-! ## C74 -/

/-- C74, the full claim: a program that the kernel kills for the CPU limit it was started with is reported as
CPU_TIME_LIMIT_EXCEEDED. -/
def C74_full : Prop :=
  ∀ (c : Config) (ce : ChildEnv) (p q : Proc) (s : Int) (prior : Result) (e : RunEnv) (pid : Nat) (t : Termination) (stime : Timeval),
    ConfigOk c → c.InRange → c.maxCpuTime ≠ -1 → Started c ce p q → q.limits .cpu = ⟨s, s⟩ → Completed c e pid t →
    KilledForCpu s e stime t → IsInt (millis e.usage.utime) → ∃ r effs, run c prior e = .returned r effs ∧ r.result = 1

/-- C74, the part that holds: the verdict is right if the system time is small enough that the user time alone is over
`max_cpu_time`; `1000 - max_cpu_time % 1000 - 1` milliseconds of system time always are.
Missing: programs whose CPU time is mostly system time (`C74_false`). -/
theorem C74_cpu_kill_partial (c : Config) (ce : ChildEnv) (p q : Proc) (s : Int) (prior : Result) (e : RunEnv) (pid : Nat)
    (t : Termination) (stime : Timeval) (hc : ConfigOk c) (hr : c.InRange) (hu : c.maxCpuTime ≠ -1) (hs : Started c ce p q)
    (hl : q.limits .cpu = ⟨s, s⟩) (h : Completed c e pid t) (hk : KilledForCpu s e stime t) (hfit : IsInt (millis e.usage.utime))
    (hsys : micros stime ≤ (999 - c.maxCpuTime % 1000) * 1000) :
    ∃ r effs, run c prior e = .returned r effs ∧ r.result = 1 ∧ r.signal = 9 := by
  obtain ⟨core, rfl⟩ := hk.how
  obtain ⟨r, effs, h1, _, h3⟩ := C04_verdict c prior e pid _ hc h
  obtain ⟨r', effs', h4, _, h6⟩ := C07_signal_exit_code c prior e pid _ hc h
  rw [h1] at h4
  cases h4
  refine ⟨r, effs, h1, ?_, (h6 9 core rfl).2⟩
  have hlim := C14_limits c ce p q hc hr hs .cpu
  simp only [wantedLimit, if_neg hu] at hlim
  rw [hl] at hlim
  injection hlim with hlim _
  have hused := hk.used
  have hcpu : (usageOf e).cpuMs = millis e.usage.utime := castInt_id _ hfit
  have hover : c.maxCpuTime < millis e.usage.utime := by
    unfold millis
    omega
  rw [h3]
  show (if Exceeds c.maxCpuTime (usageOf e).cpuMs then (1 : Int) else _) = 1
  rw [if_pos ⟨hu, by rw [hcpu]; exact hover⟩]

/-- C74, exactly: a program that was killed for its CPU limit gets CPU_TIME_LIMIT_EXCEEDED if and only if its user time alone, in whole
milliseconds, is over `max_cpu_time`; the signal is reported in any case. -/
theorem C74_exact (c : Config) (prior : Result) (s : Int) (e : RunEnv) (pid : Nat) (t : Termination) (stime : Timeval) (hc : ConfigOk c)
    (hu : c.maxCpuTime ≠ -1) (h : Completed c e pid t) (hk : KilledForCpu s e stime t) (hfit : IsInt (millis e.usage.utime)) :
    ∃ r effs, run c prior e = .returned r effs ∧ r.error = 0 ∧ r.signal = 9 ∧ r.result ≠ 0 ∧
      (r.result = 1 ↔ c.maxCpuTime < millis e.usage.utime) := by
  obtain ⟨core, rfl⟩ := hk.how
  obtain ⟨r, effs, h1, h2, h3⟩ := C04_verdict c prior e pid _ hc h
  obtain ⟨r', effs', h4, _, h6⟩ := C07_signal_exit_code c prior e pid _ hc h
  rw [h1] at h4
  cases h4
  have hcpu : (usageOf e).cpuMs = millis e.usage.utime := castInt_id _ hfit
  refine ⟨r, effs, h1, h2, (h6 9 core rfl).2, ?_, ?_⟩ <;> rw [h3] <;>
    simp only [verdict, Exceeds, hcpu] <;> grind

/-- C74 is false of the code: limit 1000 ms, no user time, two seconds of system time: RUNTIME_ERROR. -/
theorem C74_false : ¬C74_full := by
  intro hfull
  let e : RunEnv := { sampleEnv 9 with usage := ⟨⟨0, 0⟩, 2000⟩ }
  have hlim := C14_limits sampleConfig _ _ _ sampleConfig_ok sampleConfig_range sample_started .cpu
  simp only [wantedLimit, if_neg (show sampleConfig.maxCpuTime ≠ -1 by decide)] at hlim
  have hcomp : Completed sampleConfig e 4242 (.signaled 9 false) :=
    ⟨rfl, rfl, .inr rfl, rfl, by decide, rfl, by simp [Normal, e], by simp [Normal, e, sampleEnv], by simp [Normal, e, sampleEnv]⟩
  obtain ⟨r, effs, h1, h2⟩ := hfull sampleConfig _ _ _ _ (noResult 0) e 4242 (.signaled 9 false) ⟨2, 0⟩ sampleConfig_ok
    sampleConfig_range (by decide) sample_started hlim hcomp ⟨⟨false, rfl⟩, by decide, by decide⟩ (by decide)
  obtain ⟨r', effs', h3, _, h4⟩ := C04_verdict sampleConfig (noResult 0) e 4242 _ sampleConfig_ok hcomp
  rw [h1] at h3
  cases h3
  rw [h2] at h4
  exact absurd h4 (by decide)

example : KilledForCpu 2 { sampleEnv 9 with usage := ⟨⟨1, 995000⟩, 2000⟩ } ⟨0, 5000⟩ (.signaled 9 false) ∧
    micros ⟨0, 5000⟩ ≤ (999 - sampleConfig.maxCpuTime % 1000) * 1000 :=
  ⟨⟨⟨false, rfl⟩, by decide, by decide⟩, by decide⟩

/-! ## C75 -/

/-- C75, the full claim: result 0 means that the program ended by itself with exit code 0. -/
def C75_full : Prop :=
  ∀ (c : Config) (prior r : Result) (e : RunEnv) (effs : List Eff) (t : Termination), t.Valid → e.status = t.waitStatus →
    Normal e.usage.utime → Normal e.start → Normal e.finish → run c prior e = .returned r effs → r.result = 0 →
    (∃ pid, e.fork = .parent pid) ∧ e.waitOk = true ∧ t = .exited 0

/-- C75, the part that holds: together with error 0. -/
theorem C75_result_zero_partial (c : Config) (prior r : Result) (e : RunEnv) (effs : List Eff) (t : Termination) (hv : t.Valid)
    (hs : e.status = t.waitStatus) (hu : Normal e.usage.utime) (hb : Normal e.start) (hf : Normal e.finish)
    (h : run c prior e = .returned r effs) (h0 : r.result = 0) (he : r.error = 0) :
    (∃ pid, e.fork = .parent pid) ∧ e.waitOk = true ∧ t = .exited 0 := by
  have := (C05_accepted_iff c prior e t hv hs hu hb hf r effs h).1 ⟨he, h0⟩
  exact ⟨this.2.2.1, this.2.2.2.2.1, this.2.2.2.2.2.1⟩

/-- The accepted sample run. -/
example : ∃ r effs, run sampleConfig (noResult 5) (sampleEnv 0) = .returned r effs ∧ ∃ pid, (sampleEnv 0).fork = .parent pid :=
  ⟨_, _, rfl, (C75_result_zero_partial sampleConfig (noResult 5) _ (sampleEnv 0) _ (.exited 0) (by simp [Termination.Valid]) rfl (by simp [Normal, sampleEnv]) (by simp [Normal, sampleEnv])
    (by simp [Normal, sampleEnv]) rfl (by decide) (by decide)).1⟩

/-- C75, exactly when it goes wrong: every run that ends with an error has result 0. -/
theorem C75_every_error_has_result_zero (c : Config) (prior r : Result) (e : RunEnv) (effs : List Eff)
    (h : run c prior e = .returned r effs) (he : r.error ≠ 0) : r.result = 0 := by
  have := C03_error_excludes_verdict c prior e r effs h he
  rw [this.1]

/-- A failed fork. -/
example : ∃ r effs, run sampleConfig (noResult 4) { sampleEnv 0 with fork := .failed } = .returned r effs ∧ r.result = 0 :=
  ⟨_, _, rfl, C75_every_error_has_result_zero sampleConfig (noResult 4) _ { sampleEnv 0 with fork := .failed } _ rfl (by decide)⟩

/-- C75, settled for each run: result 0 means what it should if and only if there is no error, or the program happens to have exited with 0 nevertheless. -/
theorem C75_exact (c : Config) (prior r : Result) (e : RunEnv) (effs : List Eff) (t : Termination) (hv : t.Valid)
    (hs : e.status = t.waitStatus) (hu : Normal e.usage.utime) (hb : Normal e.start) (hf : Normal e.finish) (h : run c prior e = .returned r effs) :
    (r.result = 0 → (∃ pid, e.fork = .parent pid) ∧ e.waitOk = true ∧ t = .exited 0) ↔
    r.error = 0 ∨ ((∃ pid, e.fork = .parent pid) ∧ e.waitOk = true ∧ t = .exited 0) := by
  constructor
  · intro h1
    by_cases he : r.error = 0
    · exact .inl he
    · exact .inr (h1 (C75_every_error_has_result_zero c prior r e effs h he))
  · rintro (he | h1) h0
    · exact C75_result_zero_partial c prior r e effs t hv hs hu hb hf h h0 he
    · exact h1

/-- The failed fork is an error, and no program exited. -/
example : ∃ r effs, run sampleConfig (noResult 4) { sampleEnv 0 with fork := .failed } = .returned r effs ∧
    ¬(r.result = 0 → (∃ pid, ({ sampleEnv 0 with fork := .failed } : RunEnv).fork = .parent pid) ∧ (sampleEnv 0).waitOk = true ∧
      Termination.exited 0 = .exited 0) :=
  ⟨_, _, rfl, fun h => by
    rcases (C75_exact sampleConfig (noResult 4) _ { sampleEnv 0 with fork := .failed } _ (.exited 0) (by decide) rfl
      (by simp [Normal, sampleEnv]) (by simp [Normal, sampleEnv]) (by simp [Normal, sampleEnv]) rfl).1 h with h | ⟨⟨_, h⟩, _⟩
    · revert h; decide
    · cases h⟩

/-- C75 is false of the code: fork fails. -/
theorem C75_false : ¬C75_full := by
  intro h
  obtain ⟨⟨pid, h1⟩, _⟩ := h sampleConfig (noResult 0) _ { sampleEnv 0 with fork := .failed } _ (.exited 0) (by decide) rfl
    (by simp [Normal, sampleEnv]) (by simp [Normal, sampleEnv]) (by simp [Normal, sampleEnv]) rfl rfl
  cases h1

/-! ## C76 -/

/-- C76, the full claim: the reported real time is the elapsed time, whatever is done to the system clock during the run. -/
def C76_full : Prop :=
  ∀ (c : Config) (prior : Result) (e : RunEnv) (pid : Nat) (t : Termination) (elapsed step : Int), ConfigOk c → Completed c e pid t →
    ClockStep e elapsed step → IsInt (millis e.finish - millis e.start) →
    ∃ r effs, run c prior e = .returned r effs ∧ elapsed - 1000 < 1000 * r.realTime ∧ 1000 * r.realTime < elapsed + 1000

/-- `real_time` needs only the clock readings (the part of C08 without the CPU time). -/
theorem realTime_reported (c : Config) (prior : Result) (e : RunEnv) (pid : Nat) (t : Termination) (hc : ConfigOk c)
    (h : Completed c e pid t) (hfit : IsInt (millis e.finish - millis e.start)) :
    ∃ r effs, run c prior e = .returned r effs ∧ r.realTime = millis e.finish - millis e.start := by
  refine ⟨_, _, run_completed c prior e pid t hc h, ?_⟩
  have hf := judgeCore_fields c t.sigField t.exitField (cpuTimeOf e.usage) (e.usage.maxrss * 1024)
    ⟨0, realTimeOf e.start e.finish, 0, 0, 0, 0, 0⟩
  rw [hf.2.1]
  show realTimeOf e.start e.finish = _
  rw [realTimeOf_eq _ _ h.normStart h.normFinish, castInt_id _ hfit]

/-- C76, exactly: the reported time is off by the step. -/
theorem C76_error_is_the_step (c : Config) (prior : Result) (e : RunEnv) (pid : Nat) (t : Termination) (elapsed step : Int) (hc : ConfigOk c)
    (h : Completed c e pid t) (hk : ClockStep e elapsed step) (hfit : IsInt (millis e.finish - millis e.start)) :
    ∃ r effs, run c prior e = .returned r effs ∧ elapsed + step - 1000 < 1000 * r.realTime ∧
      1000 * r.realTime < elapsed + step + 1000 := by
  obtain ⟨r, effs, h1, h2⟩ := realTime_reported c prior e pid t hc h hfit
  refine ⟨r, effs, h1, ?_, ?_⟩ <;> rw [h2] <;> have := hk.reads <;> unfold millis <;> omega

/-- C76, the part that holds: the clock is not set.  Missing: any step of the clock (`C76_false`). -/
theorem C76_real_time_partial (c : Config) (prior : Result) (e : RunEnv) (pid : Nat) (t : Termination) (elapsed : Int) (hc : ConfigOk c)
    (h : Completed c e pid t) (hk : ClockStep e elapsed 0) (hfit : IsInt (millis e.finish - millis e.start)) :
    ∃ r effs, run c prior e = .returned r effs ∧ elapsed - 1000 < 1000 * r.realTime ∧ 1000 * r.realTime < elapsed + 1000 := by
  have := C76_error_is_the_step c prior e pid t elapsed 0 hc h hk hfit
  simpa using this

/-- A run of the sample whose clock reads `finish` at its end. -/
def clockEnv (finish : Timeval) : RunEnv := { sampleEnv 0 with start := ⟨100, 0⟩, finish := finish }

theorem clockEnv_completed (finish : Timeval) (h : Normal finish) : Completed sampleConfig (clockEnv finish) 4242 (.exited 0) :=
  ⟨rfl, rfl, .inr rfl, rfl, by decide, rfl, by simp [Normal, clockEnv, sampleEnv], by simp [Normal, clockEnv], h⟩

/-- C76 is false of the code: the program runs for 10 seconds, the clock is set back by an hour meanwhile. -/
theorem C76_false : ¬C76_full := by
  intro h
  have hc := clockEnv_completed ⟨-3490, 0⟩ (by simp [Normal])
  obtain ⟨r, effs, h1, h2, _⟩ := h sampleConfig (noResult 0) (clockEnv ⟨-3490, 0⟩) 4242 (.exited 0) 10000000 (-3600000000) sampleConfig_ok hc
    ⟨by decide, by decide⟩ (by decide)
  obtain ⟨r', effs', h3, h4⟩ := realTime_reported sampleConfig (noResult 0) _ 4242 (.exited 0) sampleConfig_ok hc (by decide)
  rw [h1] at h3
  cases h3
  rw [h4] at h2
  revert h2
  decide

/-- C76, the effect on the verdict, in both directions: with a limit of 2 seconds, a program that runs for 10 seconds is accepted if the
clock is set back by 9 seconds, and one that runs for 1 second is reported as REAL_TIME_LIMIT_EXCEEDED if the clock is set forward by
9 seconds. -/
theorem C76_verdict_follows_the_clock :
    sampleConfig.maxRealTime = 2000 ∧
    (ClockStep (clockEnv ⟨101, 0⟩) 10000000 (-9000000) ∧
      ∃ r effs, run sampleConfig (noResult 0) (clockEnv ⟨101, 0⟩) = .returned r effs ∧ r.result = 0 ∧ r.error = 0) ∧
    (ClockStep (clockEnv ⟨110, 0⟩) 1000000 9000000 ∧
      ∃ r effs, run sampleConfig (noResult 0) (clockEnv ⟨110, 0⟩) = .returned r effs ∧ r.result = 2 ∧ r.error = 0) := by
  refine ⟨by decide, ⟨⟨by decide, by decide⟩, ?_⟩, ⟨⟨by decide, by decide⟩, ?_⟩⟩
  · obtain ⟨r, effs, h1, h2, h3⟩ := C04_verdict sampleConfig (noResult 0) _ 4242 _ sampleConfig_ok (clockEnv_completed ⟨101, 0⟩ (by simp [Normal]))
    exact ⟨r, effs, h1, by rw [h3]; decide, h2⟩
  · obtain ⟨r, effs, h1, h2, h3⟩ := C04_verdict sampleConfig (noResult 0) _ 4242 _ sampleConfig_ok (clockEnv_completed ⟨110, 0⟩ (by simp [Normal]))
    exact ⟨r, effs, h1, by rw [h3]; decide, h2⟩

/-- A clock that is set forward by nine seconds during a run of one. -/
example : ∃ r effs, run sampleConfig (noResult 0) (clockEnv ⟨110, 0⟩) = .returned r effs ∧ 1000000 + 9000000 - 1000 < 1000 * r.realTime ∧
    1000 * r.realTime < 1000000 + 9000000 + 1000 :=
  C76_error_is_the_step _ _ _ 4242 (.exited 0) 1000000 9000000 sampleConfig_ok
    ⟨rfl, rfl, .inr rfl, rfl, by simp [Termination.Valid], rfl, by simp [Normal, clockEnv, sampleEnv], by simp [Normal, clockEnv], by simp [Normal, clockEnv]⟩
    C76_verdict_follows_the_clock.2.2.1 (by decide)

/-- C76, settled: for which steps every run reports the elapsed time.  None but 0, and those that no run can report, because they do not fit an `int`. -/
theorem C76_exact (step : Int) :
    (∀ (c : Config) (prior : Result) (e : RunEnv) (pid : Nat) (t : Termination) (elapsed : Int), ConfigOk c → Completed c e pid t →
      ClockStep e elapsed step → IsInt (millis e.finish - millis e.start) →
      ∃ r effs, run c prior e = .returned r effs ∧ elapsed - 1000 < 1000 * r.realTime ∧ 1000 * r.realTime < elapsed + 1000) ↔
    step = 0 ∨ 2147483647999 < step := by
  constructor
  · intro h
    refine Decidable.byContradiction fun hn => ?_
    have key : ∀ (start finish : Timeval) (elapsed : Int), Normal start → Normal finish → 0 ≤ elapsed →
        micros finish = micros start + elapsed + step → IsInt (millis finish - millis start) →
        elapsed - 1000 < 1000 * (millis finish - millis start) ∧ 1000 * (millis finish - millis start) < elapsed + 1000 := by
      intro start finish elapsed h1 h2 h3 h4 h5
      have hc : Completed sampleConfig { sampleEnv 0 with start := start, finish := finish } 4242 (.exited 0) :=
        ⟨rfl, rfl, .inr rfl, rfl, by decide, rfl, by simp [Normal, sampleEnv], h1, h2⟩
      obtain ⟨r, effs, h6, h7⟩ := h sampleConfig (noResult 0) _ 4242 (.exited 0) elapsed sampleConfig_ok hc ⟨h3, h4⟩ h5
      obtain ⟨r', effs', h8, h9⟩ := realTime_reported sampleConfig (noResult 0) _ 4242 (.exited 0) sampleConfig_ok hc h5
      rw [h6] at h8
      cases h8
      rw [h9] at h7
      exact h7
    simp only [Normal, micros, millis, IsInt, INT_MIN, INT_MAX] at key
    by_cases h0 : step < 0
    · have := key ⟨100, 0⟩ ⟨99, 999999⟩ (-step - 1) (by simp only; omega) (by simp only; omega) (by omega) (by simp only; omega) (by simp only; omega)
      simp only at this
      omega
    · by_cases h1 : step < 1000
      · have := key ⟨100, 999⟩ ⟨100, 999 + step⟩ 0 (by simp only; omega) (by simp only; omega) (by omega) (by simp only; omega) (by simp only; omega)
        simp only at this
        omega
      · have := key ⟨100, 0⟩ ⟨100 + step / 1000000, step % 1000000⟩ 0 (by simp only; omega) (by simp only; omega) (by omega) (by simp only; omega) (by simp only; omega)
        simp only at this
        omega
  · rintro (rfl | hs) c prior e pid t elapsed hc h hk hfit
    · exact C76_real_time_partial c prior e pid t elapsed hc h hk hfit
    · have h1 := hk.reads
      have h2 := hk.nonneg
      simp only [IsInt, millis, INT_MIN, INT_MAX] at hfit
      omega

/-- One microsecond is enough: some run reports a wrong time. -/
example : ¬∀ (c : Config) (prior : Result) (e : RunEnv) (pid : Nat) (t : Termination) (elapsed : Int), ConfigOk c → Completed c e pid t →
    ClockStep e elapsed 1 → IsInt (millis e.finish - millis e.start) →
    ∃ r effs, run c prior e = .returned r effs ∧ elapsed - 1000 < 1000 * r.realTime ∧ 1000 * r.realTime < elapsed + 1000 :=
  fun h => absurd ((C76_exact 1).1 h) (by decide)

end Judger
