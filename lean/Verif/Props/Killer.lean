import Verif.Lemmas.Killer
import Verif.Props.Runner

/-!
# C37–C43: the real-time watchdog

All theorems are about every schedule (`Reach`, `Later`, `Schedule` of `Model/Killer`).
-/

set_option autoImplicit false

namespace Judger

open Judger.Spec

theorem Reach.later {k : Watchdog} {s s' : KState} (h : Reach k s) (hl : Later k s s') : Reach k s' := by
  induction hl with
  | refl => exact h
  | step _ hs ih => exact ih.step hs

/-! ## Two sample schedules -/

/-- The watchdog gets its arguments in time, the child runs for ever, the limit is 2 s. -/
theorem sample_timeout : ∃ s, Reach ⟨2000, 4242, false⟩ s ∧ s.badRead = false ∧ s.badCancel = true ∧
    s.main = .returned (.verdict (.signaled 9 false) true) ∧ s.start = 100999999 ∧ s.finish = 104000000 ∧
    s.kills = [⟨104000000, 4242, false⟩] := by
  have ht : Watchdog.timed ⟨2000, 4242, false⟩ := by simp [Watchdog.timed, UNLIMITED]
  have s1 := (Reach.init (k := ⟨2000, 4242, false⟩) 100999999).step (.recordStart _ rfl)
  have s2 := s1.step (.forkOk _ rfl)
  have s3 := s2.step (.createOk _ rfl ht)
  have s4 := s3.step (.read _ rfl rfl)
  have s5 := s4.step (.leaveBlock _ rfl)
  have s6 := s5.step (.detachOk _ _ _ rfl)
  have s7 := s6.step (.sleeps _ _ _ 3 rfl (by decide))
  have s8 := s7.step (.tick _ 3000001)
  have s9 := s8.step (.wakes _ _ _ rfl (by decide) rfl)
  have s10 := s9.step (.kill _ _ rfl)
  have s11 := s10.step (.waitEnded _ (.signaled 9 false) true rfl rfl)
  have s12 := s11.step (.recordEnd _ _ _ rfl)
  have s13 := s12.step (.cancel _ _ _ rfl ht)
  exact ⟨_, s13, rfl, rfl, rfl, rfl, rfl, rfl⟩

/-- The block of `killer_args` ends before the watchdog reads them; it reads (pid, 0). -/
theorem sample_garbage (pid' : Nat) (hp : pid' = 1 ∨ pid' = 4242) : ∃ s, Reach ⟨5000, 4242, false⟩ s ∧ s.badRead = true ∧ s.start = 0 ∧ s.main = .waiting ∧
    s.child = killChild ⟨5000, 4242, false⟩ pid' true .running ∧ s.watch = .ended ∧ s.now = 1000000 ∧
    s.kills = [⟨1000000, pid', false⟩] := by
  have ht : Watchdog.timed ⟨5000, 4242, false⟩ := by simp [Watchdog.timed, UNLIMITED]
  rcases hp with rfl | rfl
  · have s1 := (Reach.init (k := ⟨5000, 4242, false⟩) 0).step (.recordStart _ rfl)
    have s2 := s1.step (.forkOk _ rfl)
    have s3 := s2.step (.createOk _ rfl ht)
    have s4 := s3.step (.leaveBlock _ rfl)
    have s5 := s4.step (.readDead _ 1 0 rfl rfl (by decide))
    have s6 := s5.step (.detachOk _ _ _ rfl)
    have s7 := s6.step (.sleeps _ _ _ 1 rfl (by decide))
    have s8 := s7.step (.tick _ 1000000)
    have s9 := s8.step (.wakes _ _ _ rfl (by decide) rfl)
    have s10 := s9.step (.kill _ _ rfl)
    exact ⟨_, s10, rfl, rfl, rfl, rfl, rfl, rfl, rfl⟩
  · have s1 := (Reach.init (k := ⟨5000, 4242, false⟩) 0).step (.recordStart _ rfl)
    have s2 := s1.step (.forkOk _ rfl)
    have s3 := s2.step (.createOk _ rfl ht)
    have s4 := s3.step (.leaveBlock _ rfl)
    have s5 := s4.step (.readDead _ 4242 0 rfl rfl (by decide))
    have s6 := s5.step (.detachOk _ _ _ rfl)
    have s7 := s6.step (.sleeps _ _ _ 1 rfl (by decide))
    have s8 := s7.step (.tick _ 1000000)
    have s9 := s8.step (.wakes _ _ _ rfl (by decide) rfl)
    have s10 := s9.step (.kill _ _ rfl)
    exact ⟨_, s10, rfl, rfl, rfl, rfl, rfl, rfl, rfl⟩

/-! ## C37 -/

/-- C37, the full claim: no SIGKILL before more than `max_real_time` milliseconds have passed. -/
def C37_full : Prop :=
  ∀ (k : Watchdog) (s : KState), RealLimitOk k.limit → k.quirks = false → Reach k s →
    ∀ x ∈ s.kills, (s.start : Int) + ms k.limit < x.time

/-- C37 is false: a watchdog that reads its arguments too late (C40) may read any timeout. -/
theorem C37_false : ¬ C37_full := by
  intro h
  obtain ⟨s, hr, _, hst, _, _, _, _, hk⟩ := sample_garbage 4242 (.inr rfl)
  have := h _ s (by decide) rfl hr ⟨1000000, 4242, false⟩ (by rw [hk]; exact List.mem_cons_self)
  rw [hst] at this
  revert this
  decide

/-- C37, the part that holds: in every schedule in which the watchdog read its arguments in time and its own calls work
(`pthread_detach` succeeds, no signal handler interrupts `sleep`), it never kills early.  Missing: the late read (C40). -/
theorem C37_never_early_partial (k : Watchdog) (s : KState) (hl : RealLimitOk k.limit) (hq : k.quirks = false)
    (h : Reach k s) (hb : s.badRead = false) : ∀ x ∈ s.kills, (s.start : Int) + ms k.limit < x.time :=
  fun x hx => by
    have := ((h.punctual hl.1 hq hb).kills x hx).2
    unfold ms at this ⊢
    omega

example : ∃ s, Reach ⟨2000, 4242, false⟩ s ∧ s.badRead = false ∧ s.kills ≠ [] := by
  obtain ⟨s, h, hb, _, _, _, _, hk⟩ := sample_timeout
  exact ⟨s, h, hb, by simp [hk]⟩

/-! ## C38 -/

/-- The values of a run of `run()` (`RunEnv`) are those of the schedule that ends in `s`. -/
structure Matches (c : Config) (e : RunEnv) (k : Watchdog) (s : KState) (t : Termination) (byTimer : Bool) : Prop where
  config : ConfigOk c
  limit : k.limit = c.maxRealTime
  completed : Completed c e k.pid t
  returned : s.main = .returned (.verdict t byTimer) ∨ s.main = .exited (.verdict t byTimer)
  start : micros e.start = s.start
  finish : micros e.finish = s.finish

/-- C38, the full claim. -/
def C38_full : Prop :=
  ∀ (c : Config) (prior : Result) (e : RunEnv) (k : Watchdog) (s : KState) (t : Termination),
    RealLimitOk k.limit → k.quirks = false → Reach k s → Matches c e k s t true →
    ∃ r effs, run c prior e = .returned r effs ∧ (r.result = 1 ∨ r.result = 2)

/-- C38 is false: killed early after a late read (C40), the child is reported as RUNTIME_ERROR. -/
theorem C38_false : ¬ C38_full := by
  intro h
  have ht : Watchdog.timed ⟨5000, 4242, false⟩ := by simp [Watchdog.timed, UNLIMITED]
  have s1 := (Reach.init (k := ⟨5000, 4242, false⟩) 0).step (.recordStart _ rfl)
  have s2 := s1.step (.forkOk _ rfl)
  have s3 := s2.step (.createOk _ rfl ht)
  have s4 := s3.step (.leaveBlock _ rfl)
  have s5 := s4.step (.readDead _ 4242 0 rfl rfl (by decide))
  have s6 := s5.step (.detachOk _ _ _ rfl)
  have s7 := s6.step (.sleeps _ _ _ 1 rfl (by decide))
  have s8 := s7.step (.tick _ 1000000)
  have s9 := s8.step (.wakes _ _ _ rfl (by decide) rfl)
  have s10 := s9.step (.kill _ _ rfl)
  have s11 := s10.step (.waitEnded _ (.signaled 9 false) true rfl rfl)
  have s12 := s11.step (.recordEnd _ _ _ rfl)
  have s13 := s12.step (.cancel _ _ _ rfl ht)
  obtain ⟨r, effs, hr, hv⟩ := h { sampleConfig with maxRealTime := 5000 } ⟨0, 0, 0, 0, 0, 0, 0⟩
    { sampleEnv 9 with start := ⟨0, 0⟩, finish := ⟨1, 0⟩ } _ _ (.signaled 9 false) (by decide) rfl s13
    ⟨by simp [ConfigOk, LimitOk, sampleConfig], rfl,
      ⟨rfl, rfl, .inr rfl, rfl, by decide, rfl, by simp [Normal, sampleEnv], by simp [Normal], by simp [Normal]⟩,
      .inl rfl, rfl, rfl⟩
  have hr' : ∃ effs, run { sampleConfig with maxRealTime := 5000 } ⟨0, 0, 0, 0, 0, 0, 0⟩
      { sampleEnv 9 with start := ⟨0, 0⟩, finish := ⟨1, 0⟩ } = .returned ⟨12, 1000, 2048000, 9, 0, 0, 4⟩ effs := ⟨_, rfl⟩
  obtain ⟨effs', hr'⟩ := hr'
  rw [hr] at hr'
  cases hr'
  revert hv
  decide

/-- C38, the part that holds: if the watchdog got its arguments in time and the run took less than 2^31 ms, a child that died
of the watchdog's SIGKILL is reported with REAL_TIME_LIMIT_EXCEEDED or CPU_TIME_LIMIT_EXCEEDED.  Missing: the late read (C40)
and runs longer than an `int` of milliseconds. -/
theorem C38_timer_verdict_partial (c : Config) (prior : Result) (e : RunEnv) (k : Watchdog) (s : KState) (t : Termination)
    (hl : RealLimitOk k.limit) (hq : k.quirks = false) (h : Reach k s) (hb : s.badRead = false) (hm : Matches c e k s t true)
    (hfit : (s.finish : Int) - s.start < 2147483647 * 1000) :
    ∃ r effs, run c prior e = .returned r effs ∧ (r.result = 1 ∨ r.result = 2) := by
  obtain ⟨rfl, hlt⟩ := (h.punctual hl.1 hq hb).returned t hm.returned
  obtain ⟨r, effs, hr, _, hv⟩ := C04_verdict c prior e k.pid _ hm.config hm.completed
  refine ⟨r, effs, hr, ?_⟩
  have hs := hm.start
  have hf := hm.finish
  have h1 := hl.1
  have h2 := hl.2
  have hreal : c.maxRealTime < (usageOf e).realMs := by
    rw [← hm.limit]
    unfold usageOf millis castInt
    simp only
    unfold INT_MAX at h2
    unfold ms at hlt
    have hlo : k.limit + 1 ≤ micros e.finish / 1000 - micros e.start / 1000 := by omega
    have hhi : micros e.finish / 1000 - micros e.start / 1000 ≤ 2147483647 := by omega
    omega
  have hne : c.maxRealTime ≠ -1 := by rw [← hm.limit]; omega
  rw [hv]
  have : Exceeds c.maxRealTime (usageOf e).realMs := ⟨hne, hreal⟩
  simp only [verdict, SIGKILL, this, if_true]
  split <;> simp

/-- Non-vacuous: the schedule of `sample_timeout` matches a run of `run()`. -/
example : ∃ (e : RunEnv) (s : KState), Reach ⟨2000, 4242, false⟩ s ∧ s.badRead = false ∧
    Matches sampleConfig e ⟨2000, 4242, false⟩ s (.signaled 9 false) true ∧ (s.finish : Int) - s.start < 2147483647 * 1000 := by
  obtain ⟨s, h, hb, _, hm, hs, hf, _⟩ := sample_timeout
  refine ⟨{ sampleEnv 9 with start := ⟨100, 999999⟩, finish := ⟨104, 0⟩ }, s, h, hb, ⟨sampleConfig_ok, rfl, ?_, .inl hm, ?_, ?_⟩, ?_⟩
  · exact ⟨rfl, rfl, .inr rfl, rfl, by decide, rfl, by simp [Normal, sampleEnv], by simp [Normal], by simp [Normal]⟩
  · rw [hs]; rfl
  · rw [hf]; rfl
  · rw [hs, hf]; decide

/-! ## C39 -/

/-- C39, the full claim: the watchdog only signals the judged process, and only while it has not been reaped. -/
def C39_full : Prop :=
  ∀ (k : Watchdog) (s : KState), RealLimitOk k.limit → k.quirks = false → Reach k s →
    ∀ x ∈ s.kills, x.pid = k.pid ∧ x.afterReap = false

/-- C39 is false even when the watchdog gets its arguments in time: the child ends by itself just when `sleep` returns, `wait4`
reaps it, and then the watchdog sends SIGKILL to the freed pid. -/
theorem C39_false : ¬ C39_full := by
  intro h
  have ht : Watchdog.timed ⟨2000, 4242, false⟩ := by simp [Watchdog.timed, UNLIMITED]
  have s1 := (Reach.init (k := ⟨2000, 4242, false⟩) 0).step (.recordStart _ rfl)
  have s2 := s1.step (.forkOk _ rfl)
  have s3 := s2.step (.createOk _ rfl ht)
  have s4 := s3.step (.read _ rfl rfl)
  have s5 := s4.step (.leaveBlock _ rfl)
  have s6 := s5.step (.detachOk _ _ _ rfl)
  have s7 := s6.step (.sleeps _ _ _ 3 rfl (by decide))
  have s8 := s7.step (.tick _ 3000000)
  have s9 := s8.step (.wakes _ _ _ rfl (by decide) rfl)
  have s10 := s9.step (.childEnds _ (.exited 0) rfl trivial)
  have s11 := s10.step (.waitEnded _ (.exited 0) false rfl rfl)
  have s12 := s11.step (.kill _ _ rfl)
  have := (h _ _ (by decide) rfl s12 ⟨3000000, 4242, true⟩ List.mem_cons_self).2
  cases this

/-- A second way C39 fails: after a late read (C40) any pid may be signalled. -/
theorem C39_witness_garbage : ∃ (k : Watchdog) (s : KState), RealLimitOk k.limit ∧ k.quirks = false ∧ Reach k s ∧
    ∃ x ∈ s.kills, x.pid ≠ k.pid := by
  obtain ⟨s, hr, _, _, _, _, _, _, hk⟩ := sample_garbage 1 (.inl rfl)
  exact ⟨_, s, by decide, rfl, hr, ⟨1000000, 1, false⟩, by rw [hk]; exact List.mem_cons_self, by decide⟩

/-- C39, the part that holds: if the watchdog read its arguments in time, every signal goes to the pid that `fork` returned,
and when `run()` cancels the watchdog within the limit, no signal is sent, before or ever after.  Missing: runs that end
around or after the limit, and the late read. -/
theorem C39_cancelled_in_time_partial (k : Watchdog) (s : KState) (hl : RealLimitOk k.limit) (hq : k.quirks = false)
    (h : Reach k s) (hb : s.badRead = false) :
    (∀ x ∈ s.kills, x.pid = k.pid) ∧
    (∀ (t : Termination) (b : Bool) (s1 s2 : KState), s.main = .timed t b → (s.now : Int) ≤ s.start + ms k.limit →
      KStep k .main s s1 → Later k s1 s2 → s2.kills = []) := by
  have hp := h.punctual hl.1 hq hb
  refine ⟨fun x hx => (hp.kills x hx).1, ?_⟩
  intro t b s1 s2 hm hnow h1 h2
  have htime : ∀ {s : KState}, Reach k s → ∀ x ∈ s.kills, x.time ≤ s.now := by
    intro s h
    induction h with
    | init => simp [KState.init]
    | step _ hs ih =>
      cases hs with
      | tick _ d => exact fun x hx => Nat.le_trans (ih x hx) (Nat.le_add_right _ _)
      | kill _ pid h =>
        intro x hx
        rcases List.mem_cons.1 hx with hx | hx
        · rw [hx]; exact Nat.le_refl _
        · exact ih x hx
      | _ => exact ih
  have hk : s.kills = [] := by
    cases hks : s.kills with
    | nil => rfl
    | cons x l =>
      have hx : x ∈ s.kills := by rw [hks]; exact List.mem_cons_self
      have h1 := (hp.kills x hx).2
      have h2 := htime h x hx
      unfold ms at hnow h1
      omega
  have hw : (∀ p, s.watch ≠ .awake p) := by
    intro p hw
    have := (hp.awake p hw).2
    unfold ms at hnow this
    omega
  have ht : k.timed := by
    unfold Watchdog.timed UNLIMITED
    have := hl.1
    omega
  have key : s1.cancelReq = true ∧ s1.kills = [] ∧ ∀ p, s1.watch ≠ .awake p := by
    cases h1 with
    | cancel _ t' b' h ht' => exact ⟨rfl, hk, hw⟩
    | noCancel _ t' b' h ht' => exact absurd ht ht'
    | recordStart _ h => rw [hm] at h; cases h
    | forkOk _ h => rw [hm] at h; cases h
    | forkFails _ h => rw [hm] at h; cases h
    | skipTimer _ h => rw [hm] at h; cases h
    | createOk _ h => rw [hm] at h; cases h
    | createFails _ h => rw [hm] at h; cases h
    | leaveBlock _ h => rw [hm] at h; cases h
    | waitEnded _ _ _ h => rw [hm] at h; cases h
    | waitStopped _ _ h => rw [hm] at h; cases h
    | waitFails _ h => rw [hm] at h; cases h
    | recordEnd _ _ _ h => rw [hm] at h; cases h
    | exits _ _ h => rw [hm] at h; cases h
  have : s2.cancelReq = true ∧ s2.kills = [] ∧ ∀ p, s2.watch ≠ .awake p := by
    clear hb hp hm hnow h1 hk hw
    induction h2 with
    | refl => exact key
    | step _ hs ih =>
      obtain ⟨i1, i2, i3⟩ := ih
      cases hs with
      | kill _ p h => exact absurd h (i3 p)
      | wakes _ p w h hw hc => rw [i1] at hc; cases hc
      | interrupted _ p w h hq' hc => rw [i1] at hc; cases hc
      | detachFails _ p w h hq' => rw [hq] at hq'; cases hq'
      | cancel _ _ _ _ _ => exact ⟨rfl, i2, i3⟩
      | createOk _ _ _ => exact ⟨i1, i2, by simp⟩
      | exits _ _ _ => exact ⟨i1, i2, by simp⟩
      | read _ _ _ => exact ⟨i1, i2, by simp⟩
      | readDead _ _ _ _ _ _ => exact ⟨i1, i2, by simp⟩
      | detachOk _ _ _ _ => exact ⟨i1, i2, by simp⟩
      | sleeps _ _ _ _ _ _ => exact ⟨i1, i2, by simp⟩
      | overflows _ _ _ _ _ => exact ⟨i1, i2, by simp⟩
      | cancelled _ _ _ _ _ => exact ⟨i1, i2, by simp⟩
      | _ => exact ⟨i1, i2, i3⟩
  exact this.2.1

/-- A run that ends within its limit. -/
theorem sample_in_time : ∃ s, Reach ⟨2000, 4242, false⟩ s ∧ s.badRead = false ∧ s.main = .timed (.exited 0) false ∧
    (s.now : Int) ≤ s.start + ms 2000 ∧ s.watch = .asleep 4242 3000000 := by
  have ht : Watchdog.timed ⟨2000, 4242, false⟩ := by simp [Watchdog.timed, UNLIMITED]
  have s1 := (Reach.init (k := ⟨2000, 4242, false⟩) 0).step (.recordStart _ rfl)
  have s2 := s1.step (.forkOk _ rfl)
  have s3 := s2.step (.createOk _ rfl ht)
  have s4 := s3.step (.read _ rfl rfl)
  have s5 := s4.step (.leaveBlock _ rfl)
  have s6 := s5.step (.detachOk _ _ _ rfl)
  have s7 := s6.step (.sleeps _ _ _ 3 rfl (by decide))
  have s8 := s7.step (.tick _ 1500000)
  have s9 := s8.step (.childEnds _ (.exited 0) rfl trivial)
  have s10 := s9.step (.waitEnded _ (.exited 0) false rfl rfl)
  have s11 := s10.step (.recordEnd _ _ _ rfl)
  exact ⟨_, s11, rfl, rfl, by decide, rfl⟩

/-- A program that ends within its limit while the watchdog sleeps. -/
example : ∃ s, Reach ⟨2000, 4242, false⟩ s ∧ s.main = .timed (.exited 0) false ∧
    ∀ s1 s2, KStep ⟨2000, 4242, false⟩ .main s s1 → Later ⟨2000, 4242, false⟩ s1 s2 → s2.kills = [] := by
  obtain ⟨s, h1, h2, h3, h4, _⟩ := sample_in_time
  exact ⟨s, h1, h3, fun s1 s2 => (C39_cancelled_in_time_partial _ s (by decide) rfl h1 h2).2 _ _ s1 s2 h3 h4⟩

/-! ## C40 -/

/-- C40, the full claim: the watchdog never reads its arguments after their lifetime. -/
def C40_full : Prop := ∀ (k : Watchdog) (s : KState), RealLimitOk k.limit → k.quirks = false → Reach k s → s.badRead = false

/-- C40 is false: nothing makes `run()` wait for the thread before the block that holds the arguments ends. -/
theorem C40_false : ¬ C40_full := by
  intro h
  obtain ⟨s, hr, hb, _⟩ := sample_garbage 4242 (.inr rfl)
  have := h _ s (by decide) rfl hr
  rw [hb] at this
  cases this

/-- C40, the part that holds: when the watchdog reads before the block ends it gets exactly the pid and the limit, and keeps
them.  Missing: the order of the two events is left to the scheduler. -/
theorem C40_read_in_time_partial (k : Watchdog) (s : KState) (h : Reach k s) (hb : s.badRead = false) :
    (∀ p t, s.watch = .ready p t ∨ s.watch = .detached p t → p = k.pid ∧ t = k.limit) ∧
    (∀ p w, s.watch = .asleep p w → p = k.pid) ∧ (∀ p, s.watch = .awake p → p = k.pid) :=
  ⟨(h.struck hb).1, (h.struck hb).2.1, (h.struck hb).2.2.1⟩

example : ∃ s, Reach ⟨2000, 4242, false⟩ s ∧ s.badRead = false ∧ s.watch = .asleep 4242 3000000 := by
  obtain ⟨s, h1, h2, _, _, h3⟩ := sample_in_time
  exact ⟨s, h1, h2, h3⟩

/-! ## C41 -/

/-- C41, the full claim: `pthread_cancel` is never called for a detached thread that has terminated. -/
def C41_full : Prop := ∀ (k : Watchdog) (s : KState), RealLimitOk k.limit → k.quirks = false → Reach k s → s.badCancel = false

/-- C41 is false: after an ordinary real-time timeout the watchdog has usually finished when `run()` cancels it. -/
theorem C41_false : ¬ C41_full := by
  intro h
  obtain ⟨s, hr, _, hb, _⟩ := sample_timeout
  have := h _ s (by decide) rfl hr
  rw [hb] at this
  cases this

/-- C41, the part that holds: a cancellation within the limit finds the thread still there.  Missing: cancellations after the
limit. -/
theorem C41_cancel_in_time_partial (k : Watchdog) (s s' : KState) (hl : RealLimitOk k.limit) (hq : k.quirks = false)
    (h : Reach k s) (hb : s.badRead = false) (hs : KStep k .main s s') (hnow : (s.now : Int) ≤ s.start + ms k.limit) :
    s'.badCancel = s.badCancel := by
  have hp := h.punctual hl.1 hq hb
  cases hs with
  | cancel _ t b hm ht =>
    have : s.watch ≠ .ended := by
      intro hw
      have := hp.watchEnded hw
      unfold ms at hnow this
      omega
    simp [this]
  | _ => rfl

/-- The same program: the watchdog is cancelled while it sleeps. -/
example : ∃ s s', Reach ⟨2000, 4242, false⟩ s ∧ KStep ⟨2000, 4242, false⟩ .main s s' ∧ s'.badCancel = s.badCancel := by
  obtain ⟨s, h1, h2, h3, h4, h5⟩ := sample_in_time
  have hs : KStep ⟨2000, 4242, false⟩ .main s _ := .cancel s (.exited 0) false h3 (by simp [Watchdog.timed, UNLIMITED])
  exact ⟨s, _, h1, hs, C41_cancel_in_time_partial _ s _ (by decide) rfl h1 h2 hs h4⟩

/-! ## C42 -/

/-- C42, the full claim. -/
def C42_full : Prop := ∀ t, RealLimitOk t → ∃ n, sleepSeconds t = .ok n ∧ WholeSecondsAbove t n

/-- C42 is false for the largest limits: `timeout + 1000` overflows. -/
theorem C42_false : ¬ C42_full := by
  intro h
  obtain ⟨n, hn, _⟩ := h INT_MAX (by decide)
  rw [sleepSeconds_ub (by decide)] at hn
  cases hn

/-- C42, the part that holds: up to INT_MAX - 1000 the sleep is the smallest number of whole seconds above the limit; beyond
that the computation is undefined.  Missing: the last 1000 values. -/
theorem C42_seconds_partial (t : Int) (hl : RealLimitOk t) :
    (t ≤ INT_MAX - 1000 → ∃ n, sleepSeconds t = .ok n ∧ WholeSecondsAbove t n) ∧
    (INT_MAX - 1000 < t → sleepSeconds t = .ub) := by
  refine ⟨fun h => ⟨_, sleepSeconds_eq hl.1 h, ?_⟩, fun h => sleepSeconds_ub h⟩
  have := hl.1
  unfold WholeSecondsAbove
  constructor
  · omega
  · intro m hm
    omega

/-- C42, settled: so it is exactly for the limits up to INT_MAX - 1000. -/
theorem C42_exact (t : Int) (hl : RealLimitOk t) : (∃ n, sleepSeconds t = .ok n ∧ WholeSecondsAbove t n) ↔ t ≤ INT_MAX - 1000 := by
  refine ⟨fun ⟨n, hn, _⟩ => ?_, (C42_seconds_partial t hl).1⟩
  by_cases h : t ≤ INT_MAX - 1000
  · exact h
  · rw [(C42_seconds_partial t hl).2 (by omega)] at hn
    cases hn

example : sleepSeconds 1 = .ok 1 ∧ sleepSeconds 999 = .ok 1 ∧ sleepSeconds 1000 = .ok 2 := by decide

/-! ## C43 -/

/-- C43, the full claim: in every fair schedule with a limit `run()` returns. -/
def C43_full : Prop :=
  ∀ (k : Watchdog), RealLimitOk k.limit → k.quirks = false → ∀ σ : Schedule k, Fair σ →
    ∃ i r, (σ.state i).main = .returned r ∨ (σ.state i).main = .exited r

/-- C43 is false: after a late read (C40) the watchdog kills somebody else and `run()` waits for ever. -/
theorem C43_false : ¬ C43_full := by
  intro h
  obtain ⟨s, hr, _, _, hm, hc, hw, _⟩ := sample_garbage 1 (.inl rfl)
  have hc : s.child = .running := by rw [hc]; rfl
  let σ : Schedule ⟨5000, 4242, false⟩ :=
    { state := fun i => { s with now := s.now + i }, act := fun _ => .clock, first := hr,
      next := fun i => KStep.tick { s with now := s.now + i } 1 }
  obtain ⟨i, r, hi⟩ := h _ (by decide) rfl σ
    { main := by
        intro i hall
        have := hall i (Nat.le_refl _)
        simp [σ, MainCan, hm, hc] at this
      watch := by
        intro i hall
        have := hall i (Nat.le_refl _)
        simp [σ, WatchCan, hw] at this
      time := fun t => ⟨t, by simp [σ]⟩ }
  simp [σ, hm] at hi

theorem noOverflow {k : Watchdog} {s : KState} (hl : 1 ≤ k.limit) (hu : k.limit ≤ INT_MAX - 1000) (h : Reach k s)
    (hb : s.badRead = false) : s.watch ≠ .ub := by
  induction h with
  | init => simp [KState.init]
  | @step a s s' hr hs ih =>
    have hb' := hs.badRead_mono hb
    have ih := ih hb'
    cases hs with
    | overflows _ p t h hs =>
      have := (hr.struck hb').1 p t (.inr h)
      rw [this.2, sleepSeconds_eq hl hu] at hs
      cases hs
    | _ => first | exact ih | simp

section live
variable {k : Watchdog} (σ : Schedule k)

theorem Schedule.reach (i : Nat) : Reach k (σ.state i) := by
  induction i with
  | zero => exact σ.first
  | succ i ih => exact ih.step (σ.next i)

theorem eventually_acts (a : Actor) (Can : KState → Prop)
    (fair : ∀ i, (∀ j, i ≤ j → Can (σ.state j)) → ∃ j, i ≤ j ∧ σ.act j = a) (P : Nat → Prop) (i : Nat) (h : P i)
    (hs : ∀ j, i ≤ j → P j → σ.act j ≠ a → P (j + 1)) (hc : ∀ j, i ≤ j → P j → Can (σ.state j)) :
    ∃ j, i ≤ j ∧ P j ∧ σ.act j = a := by
  apply Classical.byContradiction
  intro hn
  have hall : ∀ d, P (i + d) := by
    intro d
    induction d with
    | zero => exact h
    | succ d ih => exact hs (i + d) (by omega) ih (fun ha => hn ⟨i + d, by omega, ih, ha⟩)
  have hall' : ∀ j, i ≤ j → P j := fun j hj => by
    have := hall (j - i)
    rwa [show i + (j - i) = j by omega] at this
  obtain ⟨j, hj, ha⟩ := fair i (fun j hj => hc j hj (hall' j hj))
  exact hn ⟨j, hj, hall' j hj, ha⟩

/-- How far the caller is. -/
def mainRank : MainPc → Nat
  | .init => 0
  | .started => 1
  | .forked => 2
  | .inBlock => 3
  | .waiting => 4
  | .waited _ _ => 5
  | .timed _ _ => 6
  | .returned _ => 7
  | .exited _ => 8

theorem main_step {s s' : KState} (h : KStep k .main s s') : mainRank s.main < mainRank s'.main := by
  cases h <;> simp_all [mainRank]

theorem other_step {a : Actor} {s s' : KState} (h : KStep k a s s') (ha : a ≠ .main) : s'.main = s.main := by
  cases h <;> simp_all

/-- How far the watchdog is. -/
def watchRank : Watch → Nat
  | .absent => 0
  | .created => 1
  | .ready _ _ => 2
  | .detached _ _ => 3
  | .asleep _ _ => 4
  | .awake _ => 5
  | .ended => 6
  | .cancelled => 7
  | .ub => 8

theorem watch_step {s s' : KState} (h : KStep k .watch s s') : watchRank s.watch < watchRank s'.watch := by
  cases h <;> simp_all [watchRank]

theorem nonwatch_step {a : Actor} {s s' : KState} (h : KStep k a s s') (ha : a ≠ .watch) (hm : s'.main = s.main) :
    s'.watch = s.watch := by
  by_cases h0 : a = .main
  · subst h0
    have := main_step h
    rw [hm] at this
    exact absurd this (Nat.lt_irrefl _)
  · cases h <;> simp_all

theorem now_mono {a : Actor} {s s' : KState} (h : KStep k a s s') : s.now ≤ s'.now := by
  cases h <;> simp

theorem Schedule.now_mono (i d : Nat) : (σ.state i).now ≤ (σ.state (i + d)).now := by
  induction d with
  | zero => exact Nat.le_refl _
  | succ d ih => exact Nat.le_trans ih (Judger.now_mono (σ.next (i + d)))

variable (hf : Fair σ) (hl : 1 ≤ k.limit) (hu : k.limit ≤ INT_MAX - 1000) (hb : ∀ i, (σ.state i).badRead = false)
include hf hl hu hb

omit hl hu hb in
theorem watch_advances (i : Nat) (m : MainPc) (hw : ∀ j, i ≤ j → (σ.state j).main = m) (n : Nat)
    (hn : watchRank (σ.state i).watch = n) (h1 : n ≠ 0) (h6 : n < 6) : ∃ j, i ≤ j ∧ n < watchRank (σ.state j).watch := by
  -- the moment from which the watchdog can move
  have hstart : ∃ i', i ≤ i' ∧ (watchRank (σ.state i').watch ≠ n ∨
      (watchRank (σ.state i').watch = n ∧ ∀ p w, (σ.state i').watch = .asleep p w → w ≤ (σ.state i').now)) := by
    by_cases hs : ∃ p w, (σ.state i).watch = .asleep p w
    · obtain ⟨p, w, hs⟩ := hs
      obtain ⟨m, hm⟩ := hf.time w
      refine ⟨i + m, Nat.le_add_right _ _, ?_⟩
      have hnow : w ≤ (σ.state (i + m)).now := by
        rw [Nat.add_comm]
        exact Nat.le_trans hm (σ.now_mono m i)
      by_cases hsame : (σ.state (i + m)).watch = (σ.state i).watch
      · right
        refine ⟨by rw [hsame, hn], fun p' w' h' => ?_⟩
        rw [hsame, hs] at h'
        cases h'
        exact hnow
      · left
        -- the watch changed at some point, so its rank grew
        intro hrank
        have hmono : ∀ d, (σ.state (i + d)).watch = (σ.state i).watch ∨ n < watchRank (σ.state (i + d)).watch := by
          intro d
          induction d with
          | zero => exact .inl rfl
          | succ d ih =>
            by_cases ha : σ.act (i + d) = .watch
            · have := σ.next (i + d)
              rw [ha] at this
              have := watch_step this
              right
              rcases ih with ih | ih
              · rw [ih, hn] at this; exact this
              · exact Nat.lt_trans ih this
            · have := nonwatch_step (σ.next (i + d)) ha ((hw (i + d + 1) (by omega)).trans (hw (i + d) (by omega)).symm)
              rw [← Nat.add_assoc, this]
              exact ih
        rcases hmono m with h | h
        · exact hsame h
        · omega
    · refine ⟨i, Nat.le_refl _, .inr ⟨hn, fun p w h => absurd ⟨p, w, h⟩ hs⟩⟩
  obtain ⟨i', hi', hi2⟩ := hstart
  have hge : ∀ d, n ≤ watchRank (σ.state (i + d)).watch := by
    intro d
    induction d with
    | zero => exact Nat.le_of_eq hn.symm
    | succ d ih =>
      by_cases ha : σ.act (i + d) = .watch
      · have := σ.next (i + d)
        rw [ha] at this
        have := watch_step this
        rw [← Nat.add_assoc]
        omega
      · rw [← Nat.add_assoc, nonwatch_step (σ.next (i + d)) ha ((hw (i + d + 1) (by omega)).trans (hw (i + d) (by omega)).symm)]
        exact ih
  rcases hi2 with hi2 | ⟨hi2, hi3⟩
  · refine ⟨i', hi', ?_⟩
    have := hge (i' - i)
    rw [show i + (i' - i) = i' by omega] at this
    omega
  · obtain ⟨j, hj, hP, ha⟩ := eventually_acts σ .watch WatchCan hf.watch
      (fun j => watchRank (σ.state j).watch = n ∧ ∀ p w, (σ.state j).watch = .asleep p w → w ≤ (σ.state j).now) i' ⟨hi2, hi3⟩
      (by
        intro j hj ⟨hr, has⟩ ha
        have hsame := nonwatch_step (σ.next j) ha ((hw (j + 1) (by omega)).trans (hw j (by omega)).symm)
        refine ⟨by rw [hsame, hr], fun p w h => ?_⟩
        rw [hsame] at h
        exact Nat.le_trans (has p w h) (Judger.now_mono (σ.next j)))
      (by
        intro j _ ⟨hr, has⟩
        unfold WatchCan
        cases hc : (σ.state j).watch <;> simp only [hc, watchRank] at hr ⊢ <;> first | omega | trivial | skip
        exact .inl (has _ _ hc))
    have hst := σ.next j
    rw [ha] at hst
    have := watch_step hst
    exact ⟨j + 1, by omega, by omega⟩

theorem main_advances (i : Nat) (h : mainRank (σ.state i).main < 7) (ht : k.timed) :
    ∃ j, mainRank (σ.state i).main < mainRank (σ.state j).main := by
  by_cases hm : (σ.state i).main = .waiting
  · apply Classical.byContradiction
    intro hn
    have hge : ∀ d, mainRank (σ.state i).main ≤ mainRank (σ.state (i + d)).main ∧ (σ.state (i + d)).main = .waiting := by
      intro d
      induction d with
      | zero => exact ⟨Nat.le_refl _, hm⟩
      | succ d ih =>
        by_cases ha : σ.act (i + d) = .main
        · have := σ.next (i + d)
          rw [ha] at this
          have := main_step this
          exact absurd ⟨i + d + 1, Nat.lt_of_le_of_lt ih.1 this⟩ hn
        · rw [← Nat.add_assoc, other_step (σ.next (i + d)) ha]
          exact ih
    have hw : ∀ j, i ≤ j → (σ.state j).main = .waiting := fun j hj => by
      have := (hge (j - i)).2
      rwa [show i + (j - i) = j by omega] at this
    -- the watchdog strikes
    have hend : ∀ m j, i ≤ j → 6 ≤ m + watchRank (σ.state j).watch → ∃ j', i ≤ j' ∧ (σ.state j').watch = .ended := by
      intro m
      induction m with
      | zero =>
        intro j hj hr
        refine ⟨j, hj, ?_⟩
        have ho := (σ.reach j).order
        have hs := (σ.reach j).struck (hb j)
        have := (ho.hasWatch ht (.inr (hw j hj))).2
        cases hc : (σ.state j).watch <;> simp only [hc, watchRank] at hr <;> first | omega | skip
        · rfl
        · exact absurd hc this
        · -- overflow is impossible
          exfalso
          exact noOverflow hl hu (σ.reach j) (hb j) hc
      | succ m ih =>
        intro j hj hr
        by_cases h6 : 6 ≤ m + watchRank (σ.state j).watch
        · exact ih j hj h6
        · by_cases h66 : watchRank (σ.state j).watch < 6
          · have h0 : watchRank (σ.state j).watch ≠ 0 := by
              have := (((σ.reach j).order).hasWatch ht (.inr (hw j hj))).1
              intro h0
              cases hc : (σ.state j).watch <;> simp_all [watchRank]
            obtain ⟨j', hj', hlt⟩ := watch_advances σ hf j .waiting (fun j' h' => hw j' (Nat.le_trans hj h')) _ rfl h0 h66
            exact ih j' (Nat.le_trans hj hj') (by omega)
          · exact ih j hj (by omega)
    obtain ⟨j, hj, hwe⟩ := hend 6 i (Nat.le_refl _) (by omega)
    have hce : ∃ t b, (σ.state j).child = .ended t b := by
      rcases ((σ.reach j).struck (hb j)).2.2.2.1 hwe with h | h
      · exact h
      · exact absurd h ((σ.reach j).order.noneReaped (.inr (.inr (hw j hj)))).2
    obtain ⟨j', hj', _, ha⟩ := eventually_acts σ .main MainCan hf.main
      (fun j => ∃ t b, (σ.state j).child = .ended t b) j hce
      (by
        intro j' hj' ⟨t, b, hc⟩ ha
        have hst := σ.next j'
        generalize σ.act j' = a at ha hst
        generalize σ.state (j' + 1) = s' at hst
        cases hst <;> simp_all [killChild])
      (by
        intro j' hj' hc
        unfold MainCan
        rw [hw j' (Nat.le_trans hj hj')]
        exact .inl hc)
    have hst := σ.next j'
    rw [ha] at hst
    have h1 := main_step hst
    rw [hw j' (by omega), hw (j' + 1) (by omega)] at h1
    omega
  · obtain ⟨j, _, hP, ha⟩ := eventually_acts σ .main MainCan hf.main (fun j => (σ.state j).main = (σ.state i).main) i rfl
      (by
        intro j _ hj ha
        rw [other_step (σ.next j) ha]
        exact hj)
      (by
        intro j _ hj
        unfold MainCan
        rw [hj]
        cases hc : (σ.state i).main <;> simp_all [mainRank])
    have hst := σ.next j
    rw [ha] at hst
    have := main_step hst
    rw [hP] at this
    exact ⟨j + 1, this⟩

end live

/-- C43: once `run()` has returned it has returned for good, with that outcome, whatever still happens. -/
theorem C43_stays_ended (k : Watchdog) (s s' : KState) (r : Ret) (h : s.main = .returned r ∨ s.main = .exited r)
    (hl : Later k s s') : s'.main = .returned r ∨ s'.main = .exited r := by
  induction hl with
  | refl => exact h
  | step _ hs ih => cases hs <;> simp_all

/-- A run that has returned stays so while the clock goes on. -/
example : ∃ s r, Reach ⟨2000, 4242, false⟩ s ∧ s.main = .returned r ∧ ∀ d, Later ⟨2000, 4242, false⟩ s { s with now := s.now + d } := by
  obtain ⟨s, h1, _, _, h2, _⟩ := sample_timeout
  exact ⟨s, _, h1, h2, fun d => .step .refl (.tick s d)⟩

/-- C11, the other direction: a verdict is never about something that did not happen.  In every schedule that begins before
`run()` has forked: if `run()` has returned a verdict about the outcome `t`, then at some earlier moment of that schedule it
waited and the child had ended with `t`, or was stopped by the signal that `t` names; and that was the moment when its wait
was over. -/
theorem C11_outcome_happened (k : Watchdog) (σ : Schedule k) (h0 : (σ.state 0).main = .init) (i : Nat) (t : Termination) (b : Bool)
    (hm : (σ.state i).main = .returned (.verdict t b) ∨ (σ.state i).main = .exited (.verdict t b)) :
    ∃ j < i, (σ.state j).main = .waiting ∧ (σ.state (j + 1)).main = .waited t b ∧
      ((σ.state j).child = .ended t b ∨ ∃ sig, t = .stopped sig ∧ b = false ∧ (σ.state j).child = .stopped sig) := by
  have key : ∀ i, ((σ.state i).main = .waited t b ∨ (σ.state i).main = .timed t b ∨ (σ.state i).main = .returned (.verdict t b) ∨
      (σ.state i).main = .exited (.verdict t b)) → ∃ j < i, (σ.state j).main = .waiting ∧ (σ.state (j + 1)).main = .waited t b ∧
      ((σ.state j).child = .ended t b ∨ ∃ sig, t = .stopped sig ∧ b = false ∧ (σ.state j).child = .stopped sig) := by
    intro i
    induction i with
    | zero => intro hm; simp [h0] at hm
    | succ i ih =>
      intro hm
      by_cases hp : (σ.state i).main = .waited t b ∨ (σ.state i).main = .timed t b ∨ (σ.state i).main = .returned (.verdict t b) ∨
          (σ.state i).main = .exited (.verdict t b)
      · obtain ⟨j, h1, h2⟩ := ih hp
        exact ⟨j, by omega, h2⟩
      · refine ⟨i, by omega, ?_⟩
        have hs := σ.next i
        clear ih
        generalize σ.act i = a at hs
        generalize σ.state i = s at hs hp ⊢
        generalize σ.state (i + 1) = s' at hs hm ⊢
        cases hs <;> simp_all
  exact key i (by rcases hm with hm | hm <;> simp [hm])

/-- A schedule that meets the hypothesis: the child exits with 3 and `run()` says so; afterwards time stands still. -/
def sampleSchedule : Schedule ⟨-1, 4242, false⟩ where
  state i :=
    let s0 := KState.init 0
    let s1 : KState := { s0 with main := .started, start := s0.now }
    let s2 : KState := { s1 with main := .forked, child := .running }
    let s3 : KState := { s2 with main := .waiting }
    let s4 : KState := { s3 with child := .ended (.exited 3) false }
    let s5 : KState := { s4 with main := .waited (.exited 3) false, child := .reaped }
    let s6 : KState := { s5 with main := .timed (.exited 3) false, finish := s5.now }
    let s7 : KState := { s6 with main := .returned (.verdict (.exited 3) false) }
    match i with
    | 0 => s0 | 1 => s1 | 2 => s2 | 3 => s3 | 4 => s4 | 5 => s5 | 6 => s6 | _ => s7
  act i := match i with
    | 3 => .child
    | 0 | 1 | 2 | 4 | 5 | 6 => .main
    | _ => .clock
  first := .init 0
  next i := by
    match i with
    | 0 => exact .recordStart _ rfl
    | 1 => exact .forkOk _ rfl
    | 2 => exact .skipTimer _ rfl (by simp [Watchdog.timed, UNLIMITED])
    | 3 => exact .childEnds _ (.exited 3) rfl (by simp [Termination.Ended])
    | 4 => exact .waitEnded _ (.exited 3) false rfl rfl
    | 5 => exact .recordEnd _ (.exited 3) false rfl
    | 6 => exact .noCancel _ (.exited 3) false rfl (by simp [Watchdog.timed, UNLIMITED])
    | _ + 7 => exact .tick _ 0

example : ∃ j < 7, (sampleSchedule.state j).main = .waiting ∧ (sampleSchedule.state j).child = .ended (.exited 3) false := by
  obtain ⟨j, h1, h2, -, h3⟩ := C11_outcome_happened _ sampleSchedule rfl 7 (.exited 3) false (.inl rfl)
  rcases h3 with h3 | ⟨_, h3, _⟩
  · exact ⟨j, h1, h2, h3⟩
  · cases h3

/-- C43, the part that holds: in every fair schedule with a limit up to INT_MAX - 1000 in which the watchdog got its arguments
in time, `run()` returns; and once the watchdog has struck, the child is dead.  Missing: the late read (C40), the overflowing
limits (C42). -/
theorem C43_run_ends_partial (k : Watchdog) (hl : RealLimitOk k.limit) (hu : k.limit ≤ INT_MAX - 1000) (σ : Schedule k)
    (hf : Fair σ) (hb : ∀ i, (σ.state i).badRead = false) :
    (∃ i r, (σ.state i).main = .returned r ∨ (σ.state i).main = .exited r) ∧
    (∀ i, (σ.state i).watch = .ended → (∃ t b, (σ.state i).child = .ended t b) ∨ (σ.state i).child = .reaped) := by
  have ht : k.timed := by
    unfold Watchdog.timed UNLIMITED
    have := hl.1
    omega
  refine ⟨?_, fun i => ((σ.reach i).struck (hb i)).2.2.2.1⟩
  have key : ∀ m i, 7 ≤ m + mainRank (σ.state i).main → ∃ j, 7 ≤ mainRank (σ.state j).main := by
    intro m
    induction m with
    | zero => exact fun i h => ⟨i, by omega⟩
    | succ m ih =>
      intro i h
      by_cases h7 : mainRank (σ.state i).main < 7
      · obtain ⟨j, hj⟩ := main_advances σ hf hl.1 hu hb i h7 ht
        exact ih j (by omega)
      · exact ⟨i, by omega⟩
  obtain ⟨j, hj⟩ := key 7 0 (by omega)
  refine ⟨j, ?_⟩
  cases hm : (σ.state j).main <;> simp only [hm, mainRank] at hj <;> first | omega | skip
  · exact ⟨_, .inl rfl⟩
  · exact ⟨_, .inr rfl⟩

/-- Non-vacuous: a whole fair schedule without a late read, from the call of `run()` over the timeout to the end of the process,
after which only time passes. -/
example : ∃ σ : Schedule ⟨2000, 4242, false⟩, Fair σ ∧ (∀ i, (σ.state i).badRead = false) ∧ σ.state 0 = KState.init 0 := by
  have ht : Watchdog.timed ⟨2000, 4242, false⟩ := by simp [Watchdog.timed, UNLIMITED]
  obtain ⟨T, hT⟩ : ∃ T : Nat, T = 3 * 1000000 := ⟨_, rfl⟩
  let dead : ChildState := .ended (.signaled 9 false) true
  let v : Termination := .signaled 9 false
  let ks : List Kill := [⟨T, 4242, false⟩]
  let st : Nat → KState
    | 0 => ⟨0, 0, 0, .init, .absent, .none, false, false, [], false, false⟩
    | 1 => ⟨0, 0, 0, .started, .absent, .none, false, false, [], false, false⟩
    | 2 => ⟨0, 0, 0, .forked, .absent, .running, false, false, [], false, false⟩
    | 3 => ⟨0, 0, 0, .inBlock, .created, .running, false, true, [], false, false⟩
    | 4 => ⟨0, 0, 0, .inBlock, .ready 4242 2000, .running, false, true, [], false, false⟩
    | 5 => ⟨0, 0, 0, .waiting, .ready 4242 2000, .running, false, false, [], false, false⟩
    | 6 => ⟨0, 0, 0, .waiting, .detached 4242 2000, .running, false, false, [], false, false⟩
    | 7 => ⟨0, 0, 0, .waiting, .asleep 4242 T, .running, false, false, [], false, false⟩
    | 8 => ⟨T, 0, 0, .waiting, .asleep 4242 T, .running, false, false, [], false, false⟩
    | 9 => ⟨T, 0, 0, .waiting, .awake 4242, .running, false, false, [], false, false⟩
    | 10 => ⟨T, 0, 0, .waiting, .ended, dead, false, false, ks, false, false⟩
    | 11 => ⟨T, 0, 0, .waited v true, .ended, .reaped, false, false, ks, false, false⟩
    | 12 => ⟨T, 0, T, .timed v true, .ended, .reaped, false, false, ks, false, false⟩
    | 13 => ⟨T, 0, T, .returned (.verdict v true), .ended, .reaped, true, false, ks, false, true⟩
    | n + 14 => ⟨T + n, 0, T, .exited (.verdict v true), .cancelled, .reaped, true, false, ks, false, true⟩
  let act : Nat → Actor
    | 0 => .main | 1 => .main | 2 => .main | 3 => .watch | 4 => .main | 5 => .watch | 6 => .watch | 7 => .clock | 8 => .watch
    | 9 => .watch | 10 => .main | 11 => .main | 12 => .main | 13 => .main | _ => .clock
  have next : ∀ i, KStep ⟨2000, 4242, false⟩ (act i) (st i) (st (i + 1))
    | 0 => .recordStart (st 0) rfl
    | 1 => .forkOk (st 1) rfl
    | 2 => .createOk (st 2) rfl ht
    | 3 => .read (st 3) rfl rfl
    | 4 => .leaveBlock (st 4) rfl
    | 5 => .detachOk (st 5) 4242 2000 rfl
    | 6 => by
      have h : st 7 = { st 6 with watch := .asleep 4242 ((st 6).now + 3 * 1000000) } := by simp only [st, hT, Nat.zero_add]
      rw [h]
      exact .sleeps (st 6) 4242 2000 3 rfl (by decide)
    | 7 => by
      have h : st 8 = { st 7 with now := (st 7).now + T } := by simp only [st, Nat.zero_add]
      rw [h]
      exact .tick (st 7) T
    | 8 => .wakes (st 8) 4242 T rfl (Nat.le_refl _) rfl
    | 9 => .kill (st 9) 4242 rfl
    | 10 => .waitEnded (st 10) v true rfl rfl
    | 11 => .recordEnd (st 11) v true rfl
    | 12 => .cancel (st 12) v true rfl ht
    | 13 => .exits (st 13) (.verdict v true) rfl
    | n + 14 => by
      have h : st (n + 14 + 1) = { st (n + 14) with now := (st (n + 14)).now + 1 } := by
        simp only [st, Nat.add_assoc]
      rw [h]
      exact .tick _ 1
  refine ⟨⟨st, act, .init 0, next⟩, ⟨?_, ?_, ?_⟩, ?_, rfl⟩
  · intro i hall
    have := hall (i + 14) (by omega)
    simp [st, MainCan] at this
  · intro i hall
    have := hall (i + 14) (by omega)
    simp [st, WatchCan] at this
  · intro t
    refine ⟨t + 14, ?_⟩
    show t ≤ T + t
    omega
  · intro i
    match i with
    | 0 | 1 | 2 | 3 | 4 | 5 | 6 | 7 | 8 | 9 | 10 | 11 | 12 | 13 => rfl
    | n + 14 => rfl

end Judger
