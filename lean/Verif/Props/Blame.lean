import Verif.Props.Accepted
import Verif.Props.Seccomp
import Verif.Spec.Blame

/-! # C103: who is to blame for SYSTEM_ERROR -/

set_option autoImplicit false

namespace Judger

open Judger.Spec

/-- C103, the full claim: SYSTEM_ERROR is never the program's doing.  If `run()` reports it, and nobody interfered, the child has ended by itself
without becoming the program. -/
def C103_full : Prop :=
  ∀ (c : Config) (prior : Result) (e : RunEnv) (t : Termination) (ce : ChildEnv) (p : Proc) (r : Result) (effs : List Eff),
    Measured e t → Undisturbed c ce p t → run c prior e = .returned r effs → r.result = 5 →
    ∃ s q, Died c ce p s q ∧ Reports s t

/-- SYSTEM_ERROR comes without an error, and only from a child that SIGUSR1 has ended. -/
theorem C103_only_sigusr1 (c : Config) (prior : Result) (e : RunEnv) (t : Termination) (r : Result) (effs : List Eff) (hm : Measured e t)
    (hr : run c prior e = .returned r effs) (h5 : r.result = 5) : r.error = 0 ∧ ConfigOk c ∧ ∃ core, t = .signaled 10 core := by
  have he : r.error = 0 := Classical.byContradiction fun he => by
    have := (C03_error_excludes_verdict c prior e r effs hr he).1
    rw [this] at h5
    cases h5
  obtain ⟨h1, h2, h3, h4, hw⟩ := (C03_error_code c prior e r effs hr).2.2.2.2.2.1 he
  have hp : ∃ pid, e.fork = .parent pid := by
    match hf : e.fork with
    | .failed => exact absurd hf h3
    | .child => simp [run, h1, (configRejected_iff c).2 h2, hf] at hr
    | .parent pid => exact ⟨pid, rfl⟩
  obtain ⟨pid, hp⟩ := hp
  obtain ⟨r', effs', hr', _, hv⟩ := C04_verdict c prior e pid t h2
    ⟨h1, hp, h4, hw, hm.valid, hm.status, hm.normUtime, hm.normStart, hm.normFinish⟩
  rw [hr] at hr'
  cases hr'
  refine ⟨he, h2, ?_⟩
  rw [h5] at hv
  unfold verdict at hv
  split at hv
  · exact ⟨_, rfl⟩
  · split at hv <;> omega
  · grind

/-- A program under `c_cpp` or `c_cpp_file_io` that is left alone dies of the signals of the kernel only. -/
theorem leftAlone_cCpp {name : CStr} {c : Config} {ce : ChildEnv} {p q : Proc} {w : World} {t : Termination}
    (hname : name = c!"c_cpp" ∨ name = c!"c_cpp_file_io") (hn : c.seccompRuleName = some name) (hs : Started c ce p q)
    (hw : w.filters = q.filters) (he : w.events = []) (h : LeftAlone w t) :
    (∃ code, t = .exited code) ∨ ∃ sig core, t = .signaled sig core ∧ sig ∈ kernelSignals := by
  have hq : ∀ w' pid, Run w w' → Event.signalled pid ∉ w'.events := fun w' pid hrun =>
    (C69_only_prlimit_partial name ce w w' hname ⟨⟨c, p, q, hn, hs, hw⟩, hrun⟩ he).1 pid
  cases h with
  | exits w' code h => exact .inl ⟨code, rfl⟩
  | killed w' sig core h hs => exact .inr ⟨sig, core, rfl, hs⟩
  | signalled w' sig pid core h hp => exact absurd hp (hq w' pid h)
  | stopped w' sig pid h hp => exact absurd hp (hq w' pid h)

/-- C103, the part that holds: under the rule sets `c_cpp` and `c_cpp_file_io`.  Missing: the other rule sets and none, under which the program can
send itself SIGUSR1 (`C103_self_raised`). -/
theorem C103_not_the_program_partial (c : Config) (prior : Result) (e : RunEnv) (t : Termination) (ce : ChildEnv) (p : Proc) (r : Result)
    (effs : List Eff) (hn : c.seccompRuleName = some c!"c_cpp" ∨ c.seccompRuleName = some c!"c_cpp_file_io") (hm : Measured e t)
    (hu : Undisturbed c ce p t) (hr : run c prior e = .returned r effs) (h5 : r.result = 5) : ∃ s q, Died c ce p s q ∧ Reports s t := by
  obtain ⟨_, _, core, rfl⟩ := C103_only_sigusr1 c prior e t r effs hm hr h5
  cases hu with
  | died s q _ h hr => exact ⟨s, q, h, hr⟩
  | program q w _ h hw he ht =>
    exfalso
    rcases hn with hn | hn
    · rcases leftAlone_cCpp (.inl rfl) hn h hw he ht with ⟨_, h⟩ | ⟨sig, core', h, hs⟩
      · cases h
      · cases h; exact absurd hs (by decide)
    · rcases leftAlone_cCpp (.inr rfl) hn h hw he ht with ⟨_, h⟩ | ⟨sig, core', h, hs⟩
      · cases h
      · cases h; exact absurd hs (by decide)

/-- Non-vacuous: the input file is missing. -/
example : ∃ q r effs, Measured (sampleEnv 10) (.signaled 10 false) ∧
    Died sampleConfig (sampleChild (· == .openInput)) sampleProc (.killed 10) q ∧
    Undisturbed sampleConfig (sampleChild (· == .openInput)) sampleProc (.signaled 10 false) ∧
    run sampleConfig (noResult 0) (sampleEnv 10) = .returned r effs ∧ r.result = 5 := by
  have hd : ∃ q, Died sampleConfig (sampleChild (· == .openInput)) sampleProc (.killed 10) q := ⟨_, rfl, by simp, by simp⟩
  obtain ⟨q, hd⟩ := hd
  exact ⟨q, _, _, ⟨by decide, rfl, by simp [Normal, sampleEnv], by simp [Normal, sampleEnv], by simp [Normal, sampleEnv]⟩, hd,
    .died _ q _ hd rfl, rfl, rfl⟩

/-- Without a rule set, and under `general`, `golang` and `node`, a program that was started sends itself SIGUSR1 by `tgkill`, as `raise` does, and
`run()` reports SYSTEM_ERROR. -/
theorem C103_self_raised (name : Option CStr) (hn : name = none ∨ name = some c!"general" ∨ name = some c!"golang" ∨ name = some c!"node")
    (prior : Result) : ∃ ce p q t r effs, Started { sampleConfig with seccompRuleName := name } ce p q ∧
      Undisturbed { sampleConfig with seccompRuleName := name } ce p t ∧ Measured (sampleEnv 10) t ∧
      run { sampleConfig with seccompRuleName := name } prior (sampleEnv 10) = .returned r effs ∧ r.error = 0 ∧ r.result = 5 := by
  have hp : ∀ n, name = some n → n ∈ profileNames := by
    rcases hn with rfl | rfl | rfl | rfl <;> intro n h <;> cases h <;> decide
  obtain ⟨q, hq⟩ := C17_starts { sampleConfig with seccompRuleName := name } (sampleChild fun _ => false) sampleProc sampleConfig_ok
    (by simp [sampleConfig]) rfl rfl hp (fun _ _ => rfl)
  have hs : Started { sampleConfig with seccompRuleName := name } (sampleChild fun _ => false) sampleProc q := ⟨_, _, _, hq⟩
  have hf : evalAll q.filters (Req.mk' 234 [4242, 4242, 10]) = .allow := by
    rcases hn with rfl | rfl | rfl | rfl <;> (cases hq; decide)
  refine ⟨_, _, q, .signaled 10 false, _, _, hs, .program q (sampleWorld q.filters) _ hs rfl rfl
    (.signalled _ 10 4242 false ((Run.start _).call _ hf (.signalsThread _ _ rfl)) ?_),
    ⟨by decide, rfl, by simp [Normal, sampleEnv], by simp [Normal, sampleEnv], by simp [Normal, sampleEnv]⟩, rfl, rfl, rfl⟩
  exact List.mem_cons_self

/-- C103 is false of the code. -/
theorem C103_false : ¬ C103_full := by
  intro h
  obtain ⟨ce, p, q, t, r, effs, ⟨path, argv, envp, hs⟩, hu, hm, hr, _, h5⟩ := C103_self_raised none (.inl rfl) (noResult 0)
  obtain ⟨s, q', ⟨h1, h2, _⟩, _⟩ := h _ _ _ t ce p r effs hm hu hr h5
  rw [hs] at h1
  cases h1
  exact h2 _ _ _ rfl

end Judger
