import Verif.Props.Told
import Verif.Props.ExecLost

/-! # C24 and C89, settled: when a failed start is reported as a system error, and when the log names it -/

set_option autoImplicit false

namespace Judger

open Spec

/-- The one failure that is hidden: only `execve` itself fails, under one of the two C/C++ profiles. -/
def Spec.HiddenFailure (c : Config) (e : ChildEnv) : Prop :=
  FirstFailure c e 5 ∧ (c.seccompRuleName = some c!"c_cpp" ∨ c.seccompRuleName = some c!"c_cpp_file_io")

variable {c : Config} {e : ChildEnv} {p q : Proc}

theorem first_five (h : FirstFailure c e 5) :
    e.fails .exec = true ∧ ∀ s, s ≠ .exec → Requested c e.hasExecveat s → e.fails s = false := by
  constructor
  · rcases h.1 with ⟨s, _, hk, hf⟩ | ⟨h, _⟩
    · cases s <;> first | exact hf | exact absurd hk (by simp [stage])
    · cases h
  · intro s hs hr
    cases hf : e.fails s with
    | false => rfl
    | true =>
      have hlt : stage s < 5 := by cases s <;> first | exact absurd rfl hs | simp [stage]
      exact absurd (.inl ⟨s, hr, rfl, hf⟩) (h.2 _ hlt)

/-- How a child dies in quiet surroundings. -/
theorem died_quiet (s : Stop) (hc : ConfigOk c) (hr : c.InRange) (hcpu : c.maxCpuTime + 1000 ≤ 2147483647) (hp : FreshRoot p)
    (hdeadly : p.deadly 10 = true) (hnote : e.stderrKills = none) (hclock : e.log = none ∨ e.clockHeld = false)
    (hlog : e.log = none ∨ LogHasRoom c e p) (hd : Died c e p s q) :
    (s = .killed 10 ∧ (LogUsable e → q.notes ≠ p.notes)) ∨ HiddenFailure c e := by
  have hcalm : Calm True e p.notes p := by
    refine ⟨fun _ => ⟨hdeadly, ⟨hnote, hclock⟩, ?_, by rw [hp.2]; exact pathOpen_nil⟩, hp.2, rfl⟩
    rcases hlog with h | h | h
    · exact .inl h
    · exact .inr (.inl h)
    · exact .inr (.inr h.1)
  have hfit : LogFits c e := by
    rcases hlog with h | h | h
    · exact .inl h
    · exact .inr (.inl h)
    · rcases h.2 with h | h
      · exact .inr (.inr (.inl h))
      · refine .inr (.inr (.inr ?_))
        have h5 := hc.2.2.2.2.1
        have r5 := hr.out
        simp only [LimitOk, IsLong, LONG_MAX] at h5 r5
        rw [castU64_of_range (by omega) (by omega)]; exact h
  rcases childProcess_told hcalm c (noUb hc hcpu) (fun _ => hfit) with ⟨q', h, _⟩ | ⟨s', q', h, _, _, hq⟩
  · rw [hd.1] at h
    cases h
    exact absurd rfl (hd.2.1 _ _ _)
  · rw [hd.1] at h
    cases h
    refine (hq trivial).imp id fun ⟨h1, _, hb⟩ => ⟨?_, h1⟩
    have hst := hc.2.2.2.2.2
    obtain ⟨k, hk, hcode⟩ := blame_first (by omega) hb
    have hk5 : k = 5 := by
      rcases hk.1 with ⟨s, hr, hs, _⟩ | ⟨h, _⟩
      · subst hs
        cases s <;> simp [stage, stageCode] at hcode <;> rfl
      · subst h
        simp [stageCode] at hcode
    exact hk5 ▸ hk

/-- C24, settled for a root caller without filters of its own: SIGUSR1 is deadly, notes on stderr do not kill, no other thread is in `localtime`
at the fork and the log stays below the size limits.  Then a child that dies before running the program is reported as SYSTEM_ERROR exactly if the failure is not
a failed `execve` under one of the two C/C++ profiles. -/
theorem C24_exact (c : Config) (e : ChildEnv) (p q : Proc) (s : Stop) (t : Termination) (env : RunEnv)
    (pid : Nat) (prior : Result) (hc : ConfigOk c) (hr : c.InRange) (hcpu : c.maxCpuTime + 1000 ≤ 2147483647) (hp : FreshRoot p)
    (hdeadly : p.deadly 10 = true) (hnote : e.stderrKills = none) (hclock : e.log = none ∨ e.clockHeld = false)
    (hlog : e.log = none ∨ LogHasRoom c e p) (hd : Died c e p s q) (hrep : Reports s t) (hcomp : Completed c env pid t) :
    ∃ r effs, run c prior env = .returned r effs ∧ r.error = 0 ∧ (r.result = 5 ↔ ¬ HiddenFailure c e) := by
  rcases died_quiet s hc hr hcpu hp hdeadly hnote hclock hlog hd with ⟨rfl, _⟩ | hh
  · obtain ⟨r, effs, h1, h0, h2⟩ := verdict_of_death c env pid prior t hc hcomp
    refine ⟨r, effs, h1, h0, fun _ hh => ?_, fun _ => ?_⟩
    · obtain ⟨hf, hok⟩ := first_five hh.1
      obtain ⟨q', hq', _⟩ := C24_exec_sigsys c e p hc (by omega) hp.1 hp.2 hh.2 hok hf hnote hclock
      rw [hd.1] at hq'
      cases hq'
    · cases t with
      | exited _ => cases hrep
      | stopped _ => cases hrep
      | signaled sig core =>
        have : (10 : Nat) = sig := hrep
        subst this
        rw [h2]; rfl
  · obtain ⟨hf, hok⟩ := first_five hh.1
    obtain ⟨r, effs, h1, h0, h2⟩ := C24_exec_lost c e p q s t env pid prior hc (by omega) hp.1 hp.2 hh.2 hok hf (by simp [hnote]) hd.1 hrep hcomp
    exact ⟨r, effs, h1, h0, fun h => absurd h h2, fun h => absurd hh h⟩

/-- C89, settled: where the log is usable and has room, SIGUSR1 is deadly, stderr notes do not kill and no other thread is in `localtime` at the
fork, the log gets the one message naming the first stage that failed exactly if the failure is not a failed `execve` under one of the two C/C++ profiles.
In that case it gets nothing. -/
theorem C89_exact (c : Config) (e : ChildEnv) (p q : Proc) (s : Stop) (hc : ConfigOk c) (hr : c.InRange)
    (hcpu : c.maxCpuTime + 1000 ≤ 2147483647) (hp : FreshRoot p) (hlog : LogUsable e) (hroom : LogHasRoom c e p)
    (hdeadly : p.deadly 10 = true) (hnote : e.stderrKills = none) (hclock : e.clockHeld = false) (hd : Died c e p s q) :
    ((∃ k, FirstFailure c e k ∧ q.notes = failureNote e k :: p.notes) ↔ ¬ HiddenFailure c e) ∧ (q.notes = p.notes ↔ HiddenFailure c e) := by
  have hw := C89_never_wrong c e p q s hc hcpu hp hd
  have h1 : HiddenFailure c e → q.notes = p.notes := by
    intro hh
    obtain ⟨hf, hok⟩ := first_five hh.1
    obtain ⟨q', hq', hn⟩ := C24_exec_sigsys c e p hc (by omega) hp.1 hp.2 hh.2 hok hf hnote (.inr hclock)
    rw [hd.1] at hq'
    cases hq'
    exact hn
  have h2 : q.notes = p.notes → HiddenFailure c e := fun hn =>
    (died_quiet s hc hr hcpu hp hdeadly hnote (.inr hclock) (.inr hroom) hd).resolve_left fun h => h.2 hlog hn
  refine ⟨⟨?_, fun hh => hw.resolve_left fun hn => hh (h2 hn)⟩, h2, h1⟩
  rintro ⟨k, _, hk⟩ hh
  rw [h1 hh] at hk
  exact List.cons_ne_self _ _ hk.symm

/-- Both sides occur.  Hidden: the program is missing, under `c_cpp`. -/
example : HiddenFailure sampleConfig (sampleChild (· == .exec)) ∧ (∃ q, Died sampleConfig (sampleChild (· == .exec)) sampleProc (.killed 31) q) ∧
    FreshRoot sampleProc ∧ LogUsable (sampleChild (· == .exec)) ∧ LogHasRoom sampleConfig (sampleChild (· == .exec)) sampleProc ∧
    sampleProc.deadly 10 = true ∧ Completed sampleConfig (sampleEnv (Termination.signaled 31 false).waitStatus) 4242 (.signaled 31 false) := by
  refine ⟨⟨⟨.inl ⟨.exec, trivial, rfl, rfl⟩, fun j hj => ?_⟩, .inl rfl⟩, ⟨_, rfl, by simp, by simp⟩, ⟨rfl, rfl⟩, ⟨by simp [sampleChild], rfl, rfl⟩,
    .inr ⟨by decide, .inr (by decide)⟩, rfl, sampleEnv_completed (.signaled 31 false) (by decide)⟩
  rintro (⟨s, _, hs, hf⟩ | ⟨_, name, hn, hm⟩)
  · have : s = .exec := by simpa [sampleChild] using hf
    subst this
    simp [stage] at hs
    omega
  · cases hn
    exact hm (by decide)

/-- Not hidden: the input file is missing as well; the child never gets to the filter. -/
example : ¬ HiddenFailure sampleConfig (sampleChild (fun s => s == .exec || s == .openInput)) ∧
    (∃ q, Died sampleConfig (sampleChild (fun s => s == .exec || s == .openInput)) sampleProc (.killed 10) q) :=
  ⟨fun h => h.1.2 2 (by omega) (.inl ⟨.openInput, rfl, rfl, rfl⟩), _, rfl, by simp, by simp⟩

end Judger
