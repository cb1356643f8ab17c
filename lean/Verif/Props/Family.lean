import Verif.Props.Seccomp
import Verif.Props.Runner
import Verif.Spec.Family

/-! # C88: nothing is left running, and all the CPU time is reported -/

set_option autoImplicit false

namespace Judger

open Judger.Spec

/-- A judging: the program was started as process `pid`, the family lived until that process ended in the way `t`, and `wait4` in `run()` reported
it with its user time. -/
structure Ended (c : Config) (e : RunEnv) (pid : Nat) (t : Termination) (F : Family) : Prop where
  ok : ConfigOk c
  started : ∃ ce p q judger, Started c ce p q ∧ Lives ⟨[⟨pid, judger, true, 0, 0, q.filters⟩], 0⟩ F
  ended : ∃ m ∈ F.members, m.pid = pid ∧ m.running = false ∧ micros e.usage.utime = m.reported
  completed : Completed c e pid t
  notUsr1 : ∀ core, t ≠ .signaled 10 core
  fitsCpu : IsInt (micros e.usage.utime / 1000)
  fitsReal : IsInt (millis e.finish - millis e.start)

/-- C88, the full claim: when `run()` returns nothing the program started is still running, and `cpu_time` is the user time of all of it. -/
def C88_full : Prop :=
  ∀ (c : Config) (prior : Result) (e : RunEnv) (pid : Nat) (t : Termination) (F : Family), Ended c e pid t F →
    ∃ r effs, run c prior e = .returned r effs ∧ (∀ m ∈ F.members, m.running = false) ∧ r.cpuTime = F.spent / 1000

/-- Under a C/C++ rule set no process can be started. -/
theorem cCpp_no_fork {exe : BitVec 64} {fs : List Filter} {r : Req} (hf : cCppFilter exe ∈ fs ∨ cCppFileIoFilter exe ∈ fs)
    (ha : evalAll fs r = .allow) : ¬(r.nr = 56 ∨ r.nr = 57 ∨ r.nr = 58 ∨ r.nr = 435) := by
  have h := (underCCpp_allow (w := sampleWorld fs) hf ha).2
  intro hn
  rcases hn with hn | hn | hn | hn <;> simp [cCppFileIoAnswer, cCppAnswer, hn] at h

theorem lives_alone {pid judger : Nat} {fs : List Filter} {exe : BitVec 64} {F : Family} (hf : cCppFilter exe ∈ fs ∨ cCppFileIoFilter exe ∈ fs)
    (h : Lives ⟨[⟨pid, judger, true, 0, 0, fs⟩], 0⟩ F) :
    ∃ m, F.members = [m] ∧ m.pid = pid ∧ m.own = F.spent ∧ m.waited = 0 ∧ (cCppFilter exe ∈ m.filters ∨ cCppFileIoFilter exe ∈ m.filters) := by
  induction h with
  | start => exact ⟨_, rfl, rfl, rfl, rfl, hf⟩
  | spends _ m n hm _ ih =>
    obtain ⟨x, hx, h1, h2, h3, h4⟩ := ih
    rw [hx, List.mem_singleton] at hm
    subst hm
    exact ⟨_, by rw [Family.update, hx]; rfl, by simpa using h1, by simp [h2], by simpa using h3, by simpa using h4⟩
  | installs _ m f hm _ ih =>
    obtain ⟨x, hx, h1, h2, h3, h4⟩ := ih
    rw [hx, List.mem_singleton] at hm
    subst hm
    exact ⟨_, by rw [Family.update, hx]; rfl, by simpa using h1, by simpa using h2, by simpa using h3,
      by rcases h4 with h | h <;> simp [h]⟩
  | forks _ m r p hm _ hn ha _ ih =>
    obtain ⟨x, hx, h1, h2, h3, h4⟩ := ih
    rw [hx, List.mem_singleton] at hm
    subst hm
    exact absurd hn (cCpp_no_fork h4 ha)
  | ends _ m hm ih =>
    obtain ⟨x, hx, h1, h2, h3, h4⟩ := ih
    rw [hx, List.mem_singleton] at hm
    subst hm
    exact ⟨_, by rw [Family.update, hx]; rfl, by simpa using h1, by simpa using h2, by simpa using h3, by simpa using h4⟩
  | waits _ m d hm hd _ _ _ hne ih =>
    obtain ⟨x, hx, _⟩ := ih
    rw [hx, List.mem_singleton] at hm hd
    subst hm
    subst hd
    exact absurd rfl hne
  | adopted _ d hd _ _ hs ih =>
    obtain ⟨x, hx, _⟩ := ih
    obtain ⟨y, hy, hne, _⟩ := hs
    rw [hx, List.mem_singleton] at hd hy
    subst hd
    subst hy
    exact absurd rfl hne

/-- C88, the part that holds: the rule sets `c_cpp` and `c_cpp_file_io`.  Missing: no rule set (`C88_false`) and the others (C31). -/
theorem C88_accounted_partial (c : Config) (prior : Result) (e : RunEnv) (pid : Nat) (t : Termination) (F : Family)
    (h : Ended c e pid t F) (hn : c.seccompRuleName = some c!"c_cpp" ∨ c.seccompRuleName = some c!"c_cpp_file_io") :
    ∃ r effs, run c prior e = .returned r effs ∧ (∀ m ∈ F.members, m.running = false) ∧ r.cpuTime = F.spent / 1000 := by
  obtain ⟨ce, p, q, judger, hs, hl⟩ := h.started
  have hprof := C23_profile_enforced c ce p q hs
  have hf : cCppFilter ce.exeAddr ∈ q.filters ∨ cCppFileIoFilter ce.exeAddr ∈ q.filters := by
    rcases hn with hn | hn <;> rw [hn] at hprof <;>
      rcases hprof.2 with ⟨h1, h2⟩ | ⟨h1, h2⟩ | ⟨h1, h2⟩ | ⟨h1, h2⟩ | ⟨h1, h2⟩ <;>
      first
      | (rw [h2]; simp; done)
      | exact absurd h1 (by decide)
  obtain ⟨x, hx, h1, h2, h3, _⟩ := lives_alone hf hl
  obtain ⟨m, hm, _, hr, hu⟩ := h.ended
  obtain ⟨r, effs, hrun, hcpu, _⟩ := C08_measurements c prior e pid t h.ok h.completed h.fitsCpu h.fitsReal
  rw [hx, List.mem_singleton] at hm
  subst hm
  refine ⟨r, effs, hrun, ?_, ?_⟩
  · intro y hy
    rw [hx, List.mem_singleton] at hy
    rw [hy]; exact hr
  · rw [(hcpu h.notUsr1).1, hu, Member.reported, h2, h3]
    simp

/-- Sample judging: the program computes for 12999 us and ends. -/
theorem ended_sample : ∃ F, Ended sampleConfig (sampleEnv 0) 4242 (.exited 0) F ∧ F.spent = 12999 := by
  have h1 := Lives.start ⟨[⟨4242, 1, true, 0, 0, (stateAtExec sampleConfig (sampleChild fun _ => false) sampleProc).filters⟩], 0⟩
  have h2 := Lives.spends h1 _ 12999 (List.mem_singleton.2 rfl) rfl
  have h3 := Lives.ends h2 _ (List.mem_singleton.2 rfl)
  exact ⟨_, ⟨sampleConfig_ok, ⟨_, _, _, 1, sample_started, h3⟩, ⟨_, List.mem_singleton.2 rfl, rfl, rfl, by decide⟩,
    sampleEnv_completed (.exited 0) (by simp [Termination.Valid]), (by simp), by decide, by decide⟩, rfl⟩

example : ∃ (F : Family) (r : Result) (effs : List Eff), run sampleConfig (noResult 0) (sampleEnv 0) = .returned r effs ∧ (∀ m ∈ F.members, m.running = false) ∧ F.spent = 12999 ∧
    r.cpuTime = 12 := by
  obtain ⟨F, hF, hs⟩ := ended_sample
  obtain ⟨r, effs, hr, h1, h2⟩ := C88_accounted_partial _ (noResult 0) _ _ _ F hF (.inl rfl)
  exact ⟨F, r, effs, hr, h1, hs, by rw [h2, hs]; decide⟩

/-- Where clone3 gets through, a program can leave a process behind that goes on computing, and `cpu_time` does not include it. -/
theorem left_behind (c : Config) (ce : ChildEnv) (p q : Proc) (hc : ConfigOk c) (hd : Completed c (sampleEnv 0) 4242 (.exited 0))
    (hs : Started c ce p q) (ha : evalAll q.filters (Req.mk' 435 [0x1000, 88]) = .allow) (n : Nat) :
    ∃ F, Ended c (sampleEnv 0) 4242 (.exited 0) F ∧ F.spent = 12999 + n ∧ ∃ m ∈ F.members, m.running = true := by
  have h1 := Lives.start ⟨[⟨4242, 1, true, 0, 0, q.filters⟩], 0⟩
  have h2 := Lives.spends h1 _ 12999 (List.mem_singleton.2 rfl) rfl
  have h3 := Lives.forks h2 _ (Req.mk' 435 [0x1000, 88]) 4243 (List.mem_singleton.2 rfl) rfl (by decide) ha
    (by intro x hx; rw [List.mem_singleton.1 hx]; simp)
  have h4 := Lives.ends h3 _ (List.mem_append_left _ (List.mem_singleton.2 rfl))
  have h5 := Lives.spends h4 ⟨4243, 4242, true, 0, 0, q.filters⟩ n (by simp [Family.update]) rfl
  refine ⟨_, ⟨hc, ⟨_, _, _, 1, hs, h5⟩, ⟨⟨4242, 1, false, 12999, 0, q.filters⟩, by simp [Family.update], rfl, rfl, rfl⟩, hd, by simp, by decide,
    by decide⟩, by simp, ⟨4243, 4242, true, n, 0, q.filters⟩, by simp [Family.update], rfl⟩

theorem completed_as (c : Config) (h : Completed sampleConfig (sampleEnv 0) 4242 (.exited 0)) (hr : c.maxRealTime = sampleConfig.maxRealTime) :
    Completed c (sampleEnv 0) 4242 (.exited 0) :=
  ⟨h.root, h.fork, (by rw [hr]; exact h.pthread), h.wait, h.valid, h.status, h.normUtime, h.normStart, h.normFinish⟩

/-- Without a rule set, and under `general`, `golang` and `node`: `run()` returns with `cpu_time` 12 while a process goes on that the program
started, after any amount of CPU time. -/
theorem C88_left_behind (name : Option CStr) (hn : name = none ∨ name = some c!"general" ∨ name = some c!"golang" ∨ name = some c!"node")
    (prior : Result) (n : Nat) : ∃ F, Ended { sampleConfig with seccompRuleName := name } (sampleEnv 0) 4242 (.exited 0) F ∧
      F.spent = 12999 + n ∧ (∃ m ∈ F.members, m.running = true) ∧
      ∃ r effs, run { sampleConfig with seccompRuleName := name } prior (sampleEnv 0) = .returned r effs ∧ r.cpuTime = 12 := by
  have hc : ConfigOk { sampleConfig with seccompRuleName := name } := sampleConfig_ok
  have hd := completed_as { sampleConfig with seccompRuleName := name } (sampleEnv_completed (.exited 0) (by simp [Termination.Valid])) rfl
  obtain ⟨q, hq⟩ := C17_starts { sampleConfig with seccompRuleName := name } (sampleChild fun _ => false) sampleProc hc
    (by simp [sampleConfig]) rfl rfl (by rcases hn with rfl | rfl | rfl | rfl <;> simp [profileNames]) (fun _ _ => rfl)
  have hs : Started { sampleConfig with seccompRuleName := name } (sampleChild fun _ => false) sampleProc q := ⟨_, _, _, hq⟩
  have hf := C23_profile_enforced _ _ _ _ hs
  have ha : evalAll q.filters (Req.mk' 435 [0x1000, 88]) = .allow := by
    rcases hn with rfl | rfl | rfl | rfl
    · rw [hf.1]; decide
    all_goals
      rcases hf.2 with ⟨h1, h2⟩ | ⟨h1, h2⟩ | ⟨h1, h2⟩ | ⟨h1, h2⟩ | ⟨h1, h2⟩ <;>
        first
        | (rw [h2]; decide; done)
        | exact absurd h1 (by decide)
  obtain ⟨F, hF, h1, h2⟩ := left_behind _ _ _ _ hc hd hs ha n
  obtain ⟨r, effs, hr, hcpu, _⟩ := C08_measurements _ prior _ _ _ hF.ok hF.completed hF.fitsCpu hF.fitsReal
  exact ⟨F, hF, h1, h2, r, effs, hr, by rw [(hcpu hF.notUsr1).1]; decide⟩

/-- C88 is false of the code. -/
theorem C88_false : ¬C88_full := by
  intro hfull
  obtain ⟨F, hF, _, ⟨m, hm, hr⟩, _⟩ := C88_left_behind none (Or.inl rfl) (noResult 0) 0
  obtain ⟨_, _, _, h, _⟩ := hfull _ (noResult 0) _ _ _ F hF
  rw [h m hm] at hr
  cases hr

end Judger
