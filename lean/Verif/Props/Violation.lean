import Verif.Props.Accepted
import Verif.Props.Family
import Verif.Spec.Threads

/-! # C105: a program that breaks its rules is not accepted -/

set_option autoImplicit false

namespace Judger

open Judger.Spec

/-- The program was started under a rule set as process `pid`, it and everything it started came to `B`, the process having ended as `t`, and some
call was refused on the way. -/
structure Broke (c : Config) (pid : Nat) (t : Termination) (B : Band) : Prop where
  rules : c.seccompRuleName ≠ none
  started : ∃ ce p q, Started c ce p q ∧ Toils pid q.filters B
  ended : (pid, t) ∈ B.ended
  broke : B.broke = true

/-- C105, the full claim: a program one of whose calls the rule set refused is not accepted. -/
def C105_full : Prop :=
  ∀ (c : Config) (prior : Result) (e : RunEnv) (pid : Nat) (t : Termination) (B : Band) (r : Result) (effs : List Eff), Broke c pid t B →
    Measured e t → run c prior e = .returned r effs → ¬(r.error = 0 ∧ r.result = 0)

/-- A program that starts nothing is one thread until it ends, and a refused call is its end. -/
theorem toils_single {pid : Nat} {fs : List Filter} {B : Band} (h : Toils pid fs B) (hs : B.spawned = false) :
    ((∃ x, B.tasks = [x] ∧ x.pid = pid) ∧ B.ended = [] ∧ B.broke = false) ∨
    (B.tasks = [] ∧ ∃ t, B.ended = [(pid, t)] ∧ (B.broke = true → ∃ core, t = .signaled 31 core)) := by
  induction h with
  | start => exact .inl ⟨⟨_, rfl, rfl⟩, rfl, rfl⟩
  | spawns => cases hs
  | installs h a b x f hx ih =>
    rcases ih hs with ⟨⟨y, h1, h2⟩, h3⟩ | ⟨h1, _⟩
    · rw [h1] at hx
      obtain ⟨rfl, h⟩ | ⟨rfl, h⟩ := List.singleton_eq_append_iff.1 hx
      · cases h; exact .inl ⟨⟨_, rfl, h2⟩, h3⟩
      · cases h
    · rw [h1] at hx; simp at hx
  | refused h a b x r hx hr ho ih =>
    rcases ih hs with ⟨⟨y, h1, h2⟩, h3⟩ | ⟨h1, _⟩
    · rw [h1] at hx
      obtain ⟨rfl, h⟩ | ⟨rfl, h⟩ := List.singleton_eq_append_iff.1 hx
      · cases h; obtain ⟨_, h, _⟩ := ho; cases h
      · cases h
    · rw [h1] at hx; simp at hx
  | refusedLast h a b x r core hx hr ho ih =>
    rcases ih hs with ⟨⟨y, h1, h2⟩, h3, h4⟩ | ⟨h1, _⟩
    · rw [h1] at hx
      obtain ⟨rfl, h⟩ | ⟨rfl, h⟩ := List.singleton_eq_append_iff.1 hx
      · cases h; exact .inr ⟨rfl, _, by rw [h3, h2], fun _ => ⟨core, rfl⟩⟩
      · cases h
    · rw [h1] at hx; simp at hx
  | leaves h a b x hx ho ih =>
    rcases ih hs with ⟨⟨y, h1, h2⟩, h3⟩ | ⟨h1, _⟩
    · rw [h1] at hx
      obtain ⟨rfl, h⟩ | ⟨rfl, h⟩ := List.singleton_eq_append_iff.1 hx
      · cases h; obtain ⟨_, h, _⟩ := ho; cases h
      · cases h
    · rw [h1] at hx; simp at hx
  | ends h x t hx ht ih =>
    rcases ih hs with ⟨⟨y, h1, h2⟩, h3, h4⟩ | ⟨h1, _⟩
    · rw [h1, List.mem_singleton] at hx
      subst hx
      exact .inr ⟨by simp [h1], _, by rw [h3, h2], fun hb => by rw [show _ = true from hb] at h4; cases h4⟩
    · rw [h1] at hx; cases hx

/-- Under a C/C++ rule set nothing is started. -/
theorem toils_cCpp {pid : Nat} {fs : List Filter} {B : Band} {exe : BitVec 64} (hf : cCppFilter exe ∈ fs ∨ cCppFileIoFilter exe ∈ fs)
    (h : Toils pid fs B) : B.spawned = false ∧ ∀ x ∈ B.tasks, cCppFilter exe ∈ x.filters ∨ cCppFileIoFilter exe ∈ x.filters := by
  induction h with
  | start => exact ⟨rfl, by simpa using hf⟩
  | spawns h x r pid' hx hn ha hp ih => exact absurd hn (cCpp_no_fork (ih.2 x hx) ha)
  | installs h a b x f hx ih =>
    refine ⟨ih.1, fun y hy => ?_⟩
    have := ih.2
    rw [hx] at this
    simp only [List.mem_append, List.mem_cons] at hy this
    rcases hy with hy | rfl | hy
    · exact this y (.inl hy)
    · rcases this x (.inr (.inl rfl)) with h | h <;> simp [h]
    · exact this y (.inr (.inr hy))
  | refused h a b x r hx hr ho ih =>
    refine ⟨ih.1, fun y hy => ih.2 y ?_⟩
    rw [hx]; simp only [List.mem_append, List.mem_cons] at hy ⊢; rcases hy with hy | hy <;> simp [hy]
  | refusedLast h a b x r core hx hr ho ih =>
    refine ⟨ih.1, fun y hy => ih.2 y ?_⟩
    rw [hx]; simp only [List.mem_append, List.mem_cons] at hy ⊢; rcases hy with hy | hy <;> simp [hy]
  | leaves h a b x hx ho ih =>
    refine ⟨ih.1, fun y hy => ih.2 y ?_⟩
    rw [hx]; simp only [List.mem_append, List.mem_cons] at hy ⊢; rcases hy with hy | hy <;> simp [hy]
  | ends h x t hx ht ih => exact ⟨ih.1, fun y hy => ih.2 y (List.mem_filter.1 hy).1⟩

/-- C105, the part that holds: under the rule sets `c_cpp` and `c_cpp_file_io`, and under any rule set for a program that starts no thread and no
process, the program dies of SIGSYS, is not accepted, and if there is a verdict it names that signal.  Missing: the other rule sets and programs with
several threads or processes, of which only the one that makes the call dies (`C105_witness`). -/
theorem C105_not_accepted_partial (c : Config) (prior : Result) (e : RunEnv) (pid : Nat) (t : Termination) (B : Band) (r : Result) (effs : List Eff)
    (h : Broke c pid t B)
    (hn : c.seccompRuleName = some c!"c_cpp" ∨ c.seccompRuleName = some c!"c_cpp_file_io" ∨ B.spawned = false) (hm : Measured e t)
    (hr : run c prior e = .returned r effs) :
    (∃ core, t = .signaled 31 core) ∧ ¬(r.error = 0 ∧ r.result = 0) ∧ (r.error = 0 → r.signal = 31) := by
  obtain ⟨ce, p, q, hs, ht⟩ := h.started
  have hsp : B.spawned = false := by
    rcases hn with hn | hn | hn
    · refine (toils_cCpp (exe := ce.exeAddr) ?_ ht).1
      exact .inl ((judged_filter (w := sampleWorld q.filters) (w' := sampleWorld q.filters) ⟨⟨c, p, q, hn, hs, rfl⟩, .start _⟩).1 rfl)
    · refine (toils_cCpp (exe := ce.exeAddr) ?_ ht).1
      exact .inr ((judged_filter (w := sampleWorld q.filters) (w' := sampleWorld q.filters) ⟨⟨c, p, q, hn, hs, rfl⟩, .start _⟩).2.1 rfl)
    · exact hn
  have h31 : ∃ core, t = .signaled 31 core := by
    rcases toils_single ht hsp with ⟨_, h1, _⟩ | ⟨_, t', h1, h2⟩
    · have := h.ended; rw [h1] at this; cases this
    · have := h.ended
      rw [h1, List.mem_singleton] at this
      cases this
      exact h2 h.broke
  refine ⟨h31, fun ha => ?_, fun he => ?_⟩
  · obtain ⟨_, _, _, _, _, h0, _⟩ := (C05_accepted_iff c prior e t hm.valid hm.status hm.normUtime hm.normStart hm.normFinish r effs hr).1 ha
    obtain ⟨core, rfl⟩ := h31
    cases h0
  · obtain ⟨h1, h2, h3, h4, hw⟩ := (C03_error_code c prior e r effs hr).2.2.2.2.2.1 he
    have hp : ∃ pid, e.fork = .parent pid := by
      match hf : e.fork with
      | .failed => exact absurd hf h3
      | .child => simp [run, h1, (configRejected_iff c).2 h2, hf] at hr
      | .parent pid => exact ⟨pid, rfl⟩
    obtain ⟨pid', hp⟩ := hp
    obtain ⟨r', effs', hr', _, hsig⟩ := C07_signal_exit_code c prior e pid' t h2
      ⟨h1, hp, h4, hw, hm.valid, hm.status, hm.normUtime, hm.normStart, hm.normFinish⟩
    rw [hr] at hr'
    cases hr'
    obtain ⟨core, rfl⟩ := h31
    exact (hsig 31 core rfl).2

/-- Non-vacuous: under `c_cpp` the program calls `fork`. -/
example : ∃ B, Broke sampleConfig 4242 (.signaled 31 true) B ∧ Measured (sampleEnv 159) (.signaled 31 true) ∧
    ∃ r effs, run sampleConfig (noResult 0) (sampleEnv 159) = .returned r effs ∧ r.error = 0 ∧ r.signal = 31 := by
  obtain ⟨q, hq⟩ := sampleAs_started c!"c_cpp" (by decide)
  have hf := sample_filters c!"c_cpp" (cCppFilter 0x7ffe1000) rfl q hq
  refine ⟨_, ⟨by simp [sampleConfig], ⟨_, _, q, hq, .refusedLast .start [] [] _ (Req.mk' 57 []) true rfl ?_ (by simp)⟩, List.mem_cons_self, rfl⟩,
    ⟨by decide, rfl, by simp [Normal, sampleEnv], by simp [Normal, sampleEnv], by simp [Normal, sampleEnv]⟩, _, _, rfl, rfl, rfl⟩
  rw [hf]
  decide

/-- Under `general`, `golang` and `node` the program starts a thread (by `clone3`), the thread calls `fork` and is killed, and the program exits with
0: it is accepted. -/
theorem C105_witness (name : CStr) (hn : name = c!"general" ∨ name = c!"golang" ∨ name = c!"node") (prior : Result) :
    ∃ B r effs, Broke (sampleAs name) 4242 (.exited 0) B ∧ Measured (sampleEnv 0) (.exited 0) ∧
      run (sampleAs name) prior (sampleEnv 0) = .returned r effs ∧ r.error = 0 ∧ r.result = 0 := by
  obtain ⟨q, hq⟩ := sampleAs_started name (by rcases hn with rfl | rfl | rfl <;> decide)
  have hf : evalAll q.filters (Req.mk' 435 [0x1000, 88]) = .allow ∧ evalAll q.filters (Req.mk' 57 []) = .kill := by
    rcases hn with rfl | rfl | rfl
    · rw [sample_filters c!"general" (generalFilter 0x7ffe1000 true) rfl q hq]; decide
    · rw [sample_filters c!"golang" (golangFilter true) rfl q hq]; decide
    · rw [sample_filters c!"node" (nodeFilter true) rfl q hq]; decide
  have h1 := Toils.start (pid := 4242) (fs := q.filters)
  have h2 := h1.spawns _ (Req.mk' 435 [0x1000, 88]) 4242 (List.mem_singleton.2 rfl) (by decide) hf.1 (.inl rfl)
  have h3 := h2.refused [⟨4242, q.filters⟩] [] _ (Req.mk' 57 []) rfl hf.2 ⟨_, List.mem_singleton.2 rfl, rfl⟩
  have h4 := h3.ends _ (.exited 0) (List.mem_singleton.2 rfl) trivial
  exact ⟨_, _, _, ⟨by simp [sampleAs], ⟨_, _, q, hq, h4⟩, List.mem_cons_self, rfl⟩,
    ⟨by decide, rfl, by simp [Normal, sampleEnv], by simp [Normal, sampleEnv], by simp [Normal, sampleEnv]⟩, rfl, rfl, rfl⟩

/-- C105 is false of the code. -/
theorem C105_false : ¬ C105_full := by
  intro h
  obtain ⟨B, r, effs, h1, h2, h3, h4⟩ := C105_witness c!"general" (.inl rfl) (noResult 0)
  exact h _ _ _ _ _ B r effs h1 h2 h3 h4

end Judger
