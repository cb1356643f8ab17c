import Verif.Props.Child

/-!
# C24 under the two C/C++ rule sets: a failed `execve` is never reported as a system error
-/

set_option autoImplicit false

namespace Judger

open Spec

variable {e : ChildEnv} {p : Proc}

/-- The failure path's `flock` and `rt_sigprocmask` are on neither C/C++ list. -/
def Shut (fs : List Filter) : Prop := ∀ nr args, nr = NR_flock ∨ nr = NR_rt_sigprocmask → evalAll fs (Req.mk' nr args) = .kill

theorem shut_cCpp (exe : BitVec 64) (w : Bool) : Shut [⟨.kill, cCppRules exe w⟩] := by
  intro nr args h
  rw [evalAll_one, eval_other rfl]
  show nr ∉ (cCppRules exe w).map Rule.nr
  rw [cCpp_nrs]
  rcases h with rfl | rfl <;> cases w <;> decide

/-- The ways `CHILD_ERROR_EXIT` ends there. -/
def ShutEnd (e : ChildEnv) (s : Stop) : Prop :=
  s = .killed SIGSYS ∨ (e.log ≠ none ∧ e.clockHeld = true ∧ s = .hung) ∨ (e.log = none ∧ ∃ sig, e.stderrKills = some sig ∧ s = .killed sig)

theorem raiseUsr1_shut (h : Shut p.filters) : raiseUsr1 e p = .stop (.killed SIGSYS) p := by
  unfold raiseUsr1 plain
  simp only [bind_run, getEnv_run, enter_run]
  rw [h NR_rt_sigprocmask _ (.inr rfl)]

theorem logWriteChild_shut (h : Shut p.filters) (msg : CStr) :
    (∃ s, ShutEnd e s ∧ logWriteChild msg e p = .stop s p) ∨ logWriteChild msg e p = .ok () p := by
  unfold logWriteChild
  simp only [bind_run, getEnv_run]
  cases hl : e.log with
  | none =>
    unfold noteStderr
    simp only [bind_run, getEnv_run]
    rcases enter_cases (e := e) (p := p) (Req.mk' NR_write [2, e.bufAddr, 21]) with ⟨_, h⟩ | h | ⟨_, h⟩ <;> rw [h]
    · exact .inl ⟨_, .inl rfl, rfl⟩
    · exact .inr rfl
    · cases hk : e.stderrKills with
      | none => exact .inr rfl
      | some sig => exact .inl ⟨.killed sig, .inr (.inr ⟨hl, sig, hk, rfl⟩), rfl⟩
  | some f =>
    cases hc : e.clockHeld with
    | true => exact .inl ⟨.hung, .inr (.inl ⟨by simp [hl], hc, rfl⟩), by simp [bind_run, localTime_run, hc]⟩
    | false =>
      refine .inl ⟨.killed SIGSYS, .inl rfl, ?_⟩
      simp only [bind_run, localTime_run, hc, Bool.false_eq_true, if_false, attempt_run]
      rw [h NR_flock _ (.inl rfl)]

theorem childErrorBody_shut (h : Shut p.filters) (code : CStr) (i o r : Option File) :
    ∃ s q, childErrorBody code i o r e p = .stop s q ∧ ShutEnd e s ∧ q.notes = p.notes := by
  unfold childErrorBody
  simp only [bind_run, getEnv_run]
  rcases logWriteChild_shut (e := e) h (childErrorText e code) with ⟨s, hs, h'⟩ | h' <;> rw [h']
  · exact ⟨s, _, rfl, hs, rfl⟩
  rcases closeFile_any (e := e) (p := p) i with h1 | ⟨f1, d1, b1, h1⟩ <;> simp only [h1]
  · exact ⟨_, _, rfl, .inl rfl, rfl⟩
  split
  · simp only [bind_run]
    rcases closeFile_any (e := e) (p := { p with files := f1, fds := d1, badClose := b1 }) o with h2 | ⟨f2, d2, b2, h2⟩ <;>
      simp only [h2]
    · exact ⟨_, _, rfl, .inl rfl, rfl⟩
    exact ⟨_, _, raiseUsr1_shut (by exact h), .inl rfl, rfl⟩
  · simp only [bind_run]
    rcases closeFile_any (e := e) (p := { p with files := f1, fds := d1, badClose := b1 }) o with h2 | ⟨f2, d2, b2, h2⟩ <;>
      simp only [h2]
    · exact ⟨_, _, rfl, .inl rfl, rfl⟩
    rcases closeFile_any (e := e) (p := { p with files := f2, fds := d2, badClose := b2 }) r with h3 | ⟨f3, d3, b3, h3⟩ <;>
      simp only [h3]
    · exact ⟨_, _, rfl, .inl rfl, rfl⟩
    exact ⟨_, _, raiseUsr1_shut (by exact h), .inl rfl, rfl⟩

theorem childErrorExit_shut {α} (h : Shut p.filters) (code : CStr) (i o r : Option File) :
    ∃ s q, (childErrorExit code i o r : M α) e p = .stop s q ∧ ShutEnd e s ∧ q.notes = p.notes := by
  obtain ⟨s, q, h1, h2⟩ := childErrorBody_shut (e := e) h code i o r
  refine ⟨s, q, ?_, h2⟩
  unfold childErrorExit
  rw [bind_run, h1]

/-- Every step but `execve` works, `execve` fails: how the child ends. -/
theorem childProcess_lost (c : Config) (hc : ConfigOk c) (htop : c.maxCpuTime ≤ 2147483647 - 1000)
    (hroot : p.uid.e = 0) (hflt : p.filters = [])
    (hname : c.seccompRuleName = some c!"c_cpp" ∨ c.seccompRuleName = some c!"c_cpp_file_io")
    (hok : ∀ s, s ≠ .exec → Requested c e.hasExecveat s → e.fails s = false) (hexec : e.fails .exec = true) :
    ∃ s q, childProcess c e p = .stop s q ∧ ShutEnd e s ∧ q.notes = p.notes := by
  have hub : addInt c.maxCpuTime 1000 ≠ .ub ∨ c.maxCpuTime = UNLIMITED := by
    have := hc.1
    simp only [LimitOk] at this
    left
    unfold addInt
    rw [if_pos (by simp only [IsInt, INT_MIN, INT_MAX]; omega)]
    simp
  have hsteps : StepsOk c e p := by
    let e' : ChildEnv := { e with fails := fun s => s != .exec && e.fails s }
    have hs : ∃ q, childProcess c e' p = .stop (.execed c.exePath c.args c.env) q := by
      refine C17_starts c e' p hc htop hroot hflt ?_ ?_
      · intro name hn
        rcases hname with h | h <;> rw [h] at hn <;> cases hn <;> decide
      · intro s hs
        by_cases hx : s = .exec
        · subst hx; rfl
        · show (s != .exec && e.fails s) = false
          rw [hok s hx hs, Bool.and_false]
    obtain ⟨q, hq⟩ := hs
    rcases childProcess_run (e := e') (p := p) c hub with ⟨s, q', h, hf, _⟩ | ⟨_, h, _⟩
    · rw [hq] at h
      cases h
      rcases hf with h | h | ⟨_, _, h⟩ | h | h | ⟨h, _⟩ <;> cases h
    · exact ⟨h.stack, h.as, h.cpu, h.nproc, h.fsize, h.input, h.output, h.error, h.gid, h.uid, h.seccomp⟩
  rw [childProcess_eq, bind_run]
  have hs := childSetup_calm (Q := False) (e := e) (p := p) (n0 := p.notes) ⟨False.elim, hflt, rfl⟩ c hub False.elim
  generalize childSetup c e p = x at hs
  cases hs with
  | usr1 hn _ _ => exact absurd ⟨hsteps, hroot⟩ hn
  | @cont t q hr =>
    obtain ⟨i, o, r⟩ := t
    obtain ⟨_, r4, n1, _⟩ := hr
    have hf : Shut q.filters ∧ evalAll q.filters (Req.mk' NR_execve [e.exeAddr, e.bufAddr, e.bufAddr]) = .allow := by
      rcases r4 with ⟨h, _⟩ | ⟨name, f, hn, hf, h⟩
      · rcases hname with h' | h' <;> rw [h] at h' <;> cases h'
      · rw [h]
        refine ⟨?_, by rw [evalAll_one, own_exec e name f hf]⟩
        rcases hname with h' | h' <;> rw [hn] at h' <;> cases h' <;> cases hf <;> exact shut_cCpp _ _
    simp only [execve, bind_run, getEnv_run]
    rw [attempt_run, hf.2, hexec]
    rw [← n1]
    exact childErrorExit_shut hf.1 c!"EXECVE_FAILED" i o r

/-- C24, what happens instead in the case of `C24_witness_exec`, for every configuration: a root caller without filters asks for `c_cpp`
or `c_cpp_file_io`, every requested step but `execve` works, and `execve` fails.  Unless the note on stderr kills with
SIGUSR1 itself, the caller never gets SYSTEM_ERROR. -/
theorem C24_exec_lost (c : Config) (e : ChildEnv) (p q : Proc) (s : Stop) (t : Termination) (env : RunEnv) (pid : Nat)
    (prior : Result) (hc : ConfigOk c) (htop : c.maxCpuTime ≤ 2147483647 - 1000) (hroot : p.uid.e = 0) (hflt : p.filters = [])
    (hname : c.seccompRuleName = some c!"c_cpp" ∨ c.seccompRuleName = some c!"c_cpp_file_io")
    (hok : ∀ s, s ≠ .exec → Requested c e.hasExecveat s → e.fails s = false) (hexec : e.fails .exec = true)
    (hnote : e.stderrKills ≠ some 10) (hd : childProcess c e p = .stop s q) (hrep : Reports s t) (hcomp : Completed c env pid t) :
    ∃ r effs, run c prior env = .returned r effs ∧ r.error = 0 ∧ r.result ≠ 5 := by
  obtain ⟨s', q', h, hs, _⟩ := childProcess_lost (e := e) (p := p) c hc htop hroot hflt hname hok hexec
  rw [hd] at h
  cases h
  obtain ⟨r, effs, h1, h0, h2⟩ := verdict_of_death c env pid prior t hc hcomp
  refine ⟨r, effs, h1, h0, ?_⟩
  have ht : ∀ core, t ≠ .signaled 10 core := by
    rintro core rfl
    rcases hs with rfl | ⟨_, _, rfl⟩ | ⟨_, sig, hk, rfl⟩
    · exact absurd hrep (by simp [Reports, SIGSYS])
    · exact absurd hrep (by simp [Reports])
    · have : sig = 10 := hrep
      subst this
      exact hnote hk
  rw [h2]
  unfold verdict
  split
  · exact absurd rfl (ht _)
  · split <;> decide
  · repeat' split
    all_goals decide

/-- C24, the same case without obstacles on the way: the child is always killed by SIGSYS, as if the program had made a forbidden
call, and nothing is written into the log. -/
theorem C24_exec_sigsys (c : Config) (e : ChildEnv) (p : Proc)
    (hc : ConfigOk c) (htop : c.maxCpuTime ≤ 2147483647 - 1000) (hroot : p.uid.e = 0) (hflt : p.filters = [])
    (hname : c.seccompRuleName = some c!"c_cpp" ∨ c.seccompRuleName = some c!"c_cpp_file_io")
    (hok : ∀ s, s ≠ .exec → Requested c e.hasExecveat s → e.fails s = false) (hexec : e.fails .exec = true)
    (hnote : e.stderrKills = none) (hclock : e.log = none ∨ e.clockHeld = false) :
    ∃ q, childProcess c e p = .stop (.killed 31) q ∧ q.notes = p.notes := by
  obtain ⟨s, q, h, hs, hn⟩ := childProcess_lost (e := e) (p := p) c hc htop hroot hflt hname hok hexec
  rcases hs with rfl | ⟨hl, hk, _⟩ | ⟨_, sig, hk, _⟩
  · exact ⟨q, h, hn⟩
  · rcases hclock with h | h
    · exact absurd h hl
    · rw [h] at hk; cases hk
  · rw [hnote] at hk; cases hk

/-- The sample configuration is such a case: a missing program under `c_cpp`. -/
example : ConfigOk sampleConfig ∧ sampleConfig.seccompRuleName = some c!"c_cpp" ∧ sampleProc.uid.e = 0 ∧ sampleProc.filters = [] ∧
    (sampleChild (· == .exec)).fails .exec = true ∧ (∀ s, s ≠ .exec → (sampleChild (· == .exec)).fails s = false) ∧
    (sampleChild (· == .exec)).stderrKills = none ∧ (sampleChild (· == .exec)).clockHeld = false ∧
    (sampleChild (· == .exec)).log.isSome = true ∧ Completed sampleConfig (sampleEnv (Termination.signaled 31 false).waitStatus) 4242 (.signaled 31 false) :=
  ⟨sampleConfig_ok, rfl, rfl, rfl, rfl, fun s h => by simpa [sampleChild] using h, rfl, rfl, rfl,
    sampleEnv_completed (.signaled 31 false) (by decide)⟩

end Judger
