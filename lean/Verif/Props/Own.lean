import Verif.Props.Clock
import Verif.Spec.Own

/-!
# C92: what is judged is what the program itself used
-/

set_option autoImplicit false

namespace Judger

open Judger.Spec

instance (limit used : Int) : Decidable (Within limit used) := inferInstanceAs (Decidable (_ ∨ _))

instance (s : Int) (ph : Phases) : Decidable (UnderCpuLimit s ph) := inferInstanceAs (Decidable (_ < _))

/-- The run was accepted. -/
def AcceptedRun (c : Config) (prior : Result) (e : RunEnv) : Prop :=
  ∃ r effs, run c prior e = .returned r effs ∧ r.error = 0 ∧ r.result = 0

theorem accepted_iff {c : Config} {prior : Result} {e : RunEnv} {pid : Nat} {t : Termination} (hc : ConfigOk c) (h : Completed c e pid t) :
    AcceptedRun c prior e ↔ t = .exited 0 ∧ Within c.maxCpuTime (usageOf e).cpuMs ∧ Within c.maxRealTime (usageOf e).realMs ∧
      Within c.maxMemory (usageOf e).memBytes := by
  obtain ⟨r, effs, h1, -⟩ := C04_verdict c prior e pid t hc h
  have key := C05_accepted_iff c prior e t h.valid h.status h.normUtime h.normStart h.normFinish r effs h1
  constructor
  · rintro ⟨r', effs', h2, h3, h4⟩
    rw [h1] at h2
    cases h2
    obtain ⟨-, -, -, -, -, a, b, c, d⟩ := key.1 ⟨h3, h4⟩
    exact ⟨a, b, c, d⟩
  · rintro ⟨a, b, c', d⟩
    obtain ⟨h3, h4⟩ := key.2 ⟨h.root, hc, ⟨pid, h.fork⟩, h.pthread, h.wait, a, b, c', d⟩
    exact ⟨r, effs, h1, h3, h4⟩

/-- C92, the full claim: a program that exits with 0 in time is accepted exactly if its own CPU time and its own memory are within the
limits. -/
def C92_full : Prop :=
  ∀ (c : Config) (prior : Result) (e : RunEnv) (pid : Nat) (ph : Phases),
    ConfigOk c → Completed c e pid (.exited 0) → Accounts e ph → IsInt (millis e.usage.utime) → Within c.maxRealTime (usageOf e).realMs →
    (AcceptedRun c prior e ↔ OwnWithin c ph)

/-- C92, the part that holds.  The reported numbers never hide anything but system time and never add more than the cost of the set-up;
an accepted program kept its own user time and memory within the limits; and one whose own and set-up costs are within the limits is accepted.
Missing: system time is not counted, the memory of the caller is (`C92_false`). -/
theorem C92_own_use_partial (c : Config) (prior : Result) (e : RunEnv) (pid : Nat) (t : Termination) (ph : Phases)
    (hc : ConfigOk c) (h : Completed c e pid t) (ha : Accounts e ph) (hfit : IsInt (millis e.usage.utime))
    (hreal : IsInt (millis e.finish - millis e.start)) :
    (∃ r effs, run c prior e = .returned r effs ∧ ((∀ core, t ≠ .signaled 10 core) →
      (ph.user / 1000 : Int) ≤ r.cpuTime ∧ r.cpuTime ≤ ((ph.setupUser + ph.user : Nat) / 1000 : Int) ∧
      (ph.peak * 1024 : Int) ≤ r.memory ∧ (r.memory = ph.peak * 1024 ∨ r.memory = ph.setupPeak * 1024))) ∧
    (AcceptedRun c prior e →
      Within c.maxCpuTime (ph.user / 1000 : Int) ∧ Within c.maxMemory (ph.peak * 1024 : Int)) ∧
    (t = .exited 0 → Within c.maxRealTime (usageOf e).realMs → Within c.maxCpuTime ((ph.setupUser + ph.user : Nat) / 1000 : Int) →
      Within c.maxMemory (ph.peak * 1024 : Int) → Within c.maxMemory (ph.setupPeak * 1024 : Int) → AcceptedRun c prior e) := by
  have hm : (usageOf e).cpuMs = micros e.usage.utime / 1000 := castInt_id _ hfit
  have hb : (usageOf e).memBytes = e.usage.maxrss * 1024 := rfl
  have hu := ha.utime
  have hr := ha.maxrss
  refine ⟨?_, ?_, ?_⟩
  · obtain ⟨r, effs, h1, h2, -⟩ := C08_measurements c prior e pid t hc h hfit hreal
    refine ⟨r, effs, h1, fun hne => ?_⟩
    rw [(h2 hne).1, (h2 hne).2, hu, hr]
    omega
  · intro hacc
    obtain ⟨-, h2, -, h4⟩ := (accepted_iff hc h).1 hacc
    rw [hm, hu] at h2
    rw [hb, hr] at h4
    unfold Within at *
    omega
  · intro ht h1 h2 h3 h4
    refine (accepted_iff hc h).2 ⟨ht, ?_, h1, ?_⟩
    · rw [hm, hu]; unfold Within at *; omega
    · rw [hb, hr]; unfold Within at *; omega

/-- C92, about system time: it is not counted, but an accepted program without descendants cannot have used more than one second over the
limit, because the kernel's limit (C14) counts it. -/
theorem C92_at_most_a_second_partial (c : Config) (ce : ChildEnv) (p q : Proc) (prior : Result) (e : RunEnv) (pid : Nat) (t : Termination)
    (ph : Phases) (hc : ConfigOk c) (hr : c.InRange) (hlim : c.maxCpuTime ≠ -1) (hs : Started c ce p q) (h : Completed c e pid t)
    (hk : ∀ s, q.limits .cpu = ⟨s, s⟩ → t = .exited 0 → UnderCpuLimit s ph) (hacc : AcceptedRun c prior e) :
    (ph.user + ph.system : Nat) < (c.maxCpuTime + 1000) * 1000 := by
  have hl := C14_limits c ce p q hc hr hs .cpu
  simp only [wantedLimit, if_neg hlim] at hl
  have := hk _ hl ((accepted_iff hc h).1 hacc).1
  unfold UnderCpuLimit at this
  omega

/-- A completed run of a program that exits with 0. -/
theorem own_sample (u : Timeval) (m : Int) (hn : Normal u) (c : Config) :
    Completed c { sampleEnv 0 with usage := ⟨u, m⟩ } 4242 (.exited 0) :=
  ⟨rfl, rfl, .inr rfl, rfl, by decide, rfl, hn, by simp [Normal, sampleEnv], by simp [Normal, sampleEnv]⟩

/-- C92 is false of the code: with a limit of 64 MiB, a program of 2 MiB that a caller of 100 MiB starts by run() (as the Lua binding does, in
the interpreter's own process) is not accepted. -/
theorem C92_false : ¬ C92_full := by
  intro hfull
  have hcomp := own_sample ⟨0, 12000⟩ 102400 (by simp [Normal]) sampleConfig
  have := (hfull sampleConfig (noResult 0) _ 4242 ⟨0, 0, 102400, 12000, 0, 2048⟩ sampleConfig_ok hcomp ⟨by decide, by decide⟩ (by decide)
    (by decide)).2 ⟨by decide, by decide⟩
  exact absurd ((accepted_iff sampleConfig_ok hcomp).1 this).2.2.2 (by decide)

/-- The verdict of that run: MEMORY_LIMIT_EXCEEDED. -/
theorem C92_witness_memory (prior : Result) : ∃ e ph, Completed sampleConfig e 4242 (.exited 0) ∧ Accounts e ph ∧ OwnWithin sampleConfig ph ∧
    ∃ r effs, run sampleConfig prior e = .returned r effs ∧ r.result = 3 := by
  have hcomp := own_sample ⟨0, 12000⟩ 102400 (by simp [Normal]) sampleConfig
  obtain ⟨r, effs, h1, -, h3⟩ := C04_verdict sampleConfig prior _ 4242 _ sampleConfig_ok hcomp
  exact ⟨_, ⟨0, 0, 102400, 12000, 0, 2048⟩, hcomp, ⟨by decide, by decide⟩, ⟨by decide, by decide⟩, r, effs, h1, by rw [h3]; decide⟩

/-- The other way it fails: a program that used 1.9 s of CPU time, nearly all in the kernel, is accepted under a limit of one second. -/
theorem C92_witness_system (prior : Result) : ∃ e ph, Completed sampleConfig e 4242 (.exited 0) ∧ Accounts e ph ∧ UnderCpuLimit 2 ph ∧
    ¬ OwnWithin sampleConfig ph ∧ AcceptedRun sampleConfig prior e := by
  have hcomp := own_sample ⟨0, 12000⟩ 2048 (by simp [Normal]) sampleConfig
  exact ⟨_, ⟨0, 0, 1024, 12000, 1888000, 2048⟩, hcomp, ⟨by decide, by decide⟩, by decide, fun h => absurd h.1 (by decide),
    (accepted_iff sampleConfig_ok hcomp).2 ⟨rfl, by decide, by decide, by decide⟩⟩

/-- The hypotheses of `C92_own_use_partial` hold for an ordinary run. -/
example : ∃ e ph, Completed sampleConfig e 4242 (.exited 0) ∧ Accounts e ph ∧ IsInt (millis e.usage.utime) ∧
    IsInt (millis e.finish - millis e.start) ∧ OwnWithin sampleConfig ph ∧ AcceptedRun sampleConfig (noResult 0) e :=
  have hcomp := own_sample ⟨0, 12000⟩ 2048 (by simp [Normal]) sampleConfig
  ⟨_, ⟨1000, 500, 1024, 11000, 1000, 2048⟩, hcomp, ⟨by decide, by decide⟩, by decide, by decide, ⟨by decide, by decide⟩,
    (accepted_iff sampleConfig_ok hcomp).2 ⟨rfl, by decide, by decide, by decide⟩⟩

end Judger
