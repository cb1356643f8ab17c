import Verif.Props.Family
import Verif.Props.Own
import Verif.Spec.Peaks

/-! # C110: the memory of the program and its descendants together -/

set_option autoImplicit false

namespace Judger

open Judger.Spec

/-- A judging: the program was started as process `pid` with `n` KiB, everything happened as in `T` until it had ended, and `wait4` in `run()` reported
its memory, or the `setup` KiB that the copy of the caller had before it became the program (C92). -/
structure Weighed (c : Config) (e : RunEnv) (pid : Nat) (t : Termination) (setup : Nat) (T : Troop) : Prop where
  ok : ConfigOk c
  started : ∃ ce p q judger n, Started c ce p q ∧ Swells (Troop.initial pid judger n q.filters) T
  ended : ∃ m ∈ T.mates, m.pid = pid ∧ m.running = false ∧ e.usage.maxrss = max setup m.reported
  completed : Completed c e pid t
  fitsCpu : IsInt (micros e.usage.utime / 1000)
  fitsReal : IsInt (millis e.finish - millis e.start)

/-- C110, the full claim: the memory of an accepted program and its descendants together was never more than `max_memory`. -/
def C110_full : Prop :=
  ∀ (c : Config) (prior : Result) (e : RunEnv) (pid : Nat) (t : Termination) (setup : Nat) (T : Troop), Weighed c e pid t setup T →
    AcceptedRun c prior e → Within c.maxMemory (T.most * 1024 : Int)

theorem held_mem {ms : List Mate} {m : Mate} (h : m ∈ ms) : m.rss ≤ held ms := by
  induction ms with
  | nil => cases h
  | cons a l ih =>
    have hs : held (a :: l) = a.rss + held l := by simp [held]
    rw [hs]
    rcases List.mem_cons.1 h with rfl | h
    · omega
    · have := ih h; omega

/-- No single process is ever reported with more than they had together. -/
theorem swells_reported {pid judger n : Nat} {fs : List Filter} {T : Troop} (h : Swells (Troop.initial pid judger n fs) T) :
    ∀ m ∈ T.mates, m.reported ≤ T.most := by
  generalize hS : Troop.initial pid judger n fs = S at h
  induction h with
  | start =>
    intro m hm
    subst hS
    rw [List.mem_singleton.1 hm]
    simp [Mate.reported, Troop.initial]
  | uses a b x most k _ _ ih =>
    intro m hm
    have hh := held_mem hm
    dsimp only at *
    rcases List.mem_append.1 hm with h | h
    · have := ih m (List.mem_append_left _ h); omega
    · rcases List.mem_cons.1 h with rfl | h
      · have := ih x (List.mem_append_right _ List.mem_cons_self)
        unfold Mate.reported at *
        dsimp only at *
        omega
      · have := ih m (List.mem_append_right _ (List.mem_cons_of_mem _ h)); omega
  | installs a b x most f _ _ ih =>
    intro m hm
    rcases List.mem_append.1 hm with h | h
    · exact ih m (List.mem_append_left _ h)
    · rcases List.mem_cons.1 h with rfl | h
      · exact ih x (List.mem_append_right _ List.mem_cons_self)
      · exact ih m (List.mem_append_right _ (List.mem_cons_of_mem _ h))
  | forks _ x r p k _ _ _ _ _ _ ih =>
    intro m hm
    have hh := held_mem hm
    dsimp only at *
    rcases List.mem_append.1 hm with h | h
    · have := ih m h; omega
    · rw [List.mem_singleton.1 h] at hh ⊢
      unfold Mate.reported
      dsimp only at *
      omega
  | ends a b x most _ ih =>
    intro m hm
    rcases List.mem_append.1 hm with h | h
    · exact ih m (List.mem_append_left _ h)
    · rcases List.mem_cons.1 h with rfl | h
      · exact ih x (List.mem_append_right _ List.mem_cons_self)
      · exact ih m (List.mem_append_right _ (List.mem_cons_of_mem _ h))
  | waits _ a b x d hT _ _ _ ih =>
    intro m hm
    have hin : ∀ y ∈ a ++ x :: b, y ∈ _ := fun y hy => hT.mem_iff.2 (List.mem_cons_of_mem _ hy)
    rcases List.mem_append.1 hm with h | h
    · exact ih m (hin _ (List.mem_append_left _ h))
    · rcases List.mem_cons.1 h with rfl | h
      · have h1 := ih x (hin _ (List.mem_append_right _ List.mem_cons_self))
        have h2 := ih d (hT.mem_iff.2 List.mem_cons_self)
        unfold Mate.reported at *
        dsimp only at *
        omega
      · exact ih m (hin _ (List.mem_append_right _ (List.mem_cons_of_mem _ h)))
  | adopted a b d most _ _ _ ih =>
    intro m hm
    rcases List.mem_append.1 hm with h | h
    · exact ih m (List.mem_append_left _ h)
    · exact ih m (List.mem_append_right _ (List.mem_cons_of_mem _ h))

/-- Under a C/C++ rule set there is only one process, and what is reported of it is the most it had. -/
theorem swells_alone {pid judger n : Nat} {fs : List Filter} {exe : BitVec 64} {T : Troop} (hf : cCppFilter exe ∈ fs ∨ cCppFileIoFilter exe ∈ fs)
    (h : Swells (Troop.initial pid judger n fs) T) :
    ∃ m, T.mates = [m] ∧ m.peak = T.most ∧ m.waited = 0 ∧ (cCppFilter exe ∈ m.filters ∨ cCppFileIoFilter exe ∈ m.filters) := by
  have one : ∀ (a b : List Mate) (x : Mate) (most : Nat), (∃ m, a ++ x :: b = [m] ∧ m.peak = most ∧ m.waited = 0 ∧
      (cCppFilter exe ∈ m.filters ∨ cCppFileIoFilter exe ∈ m.filters)) →
      a = [] ∧ b = [] ∧ x.peak = most ∧ x.waited = 0 ∧ (cCppFilter exe ∈ x.filters ∨ cCppFileIoFilter exe ∈ x.filters) := by
    rintro a b x most ⟨y, h, h1⟩
    cases a with
    | nil =>
      simp only [List.nil_append, List.cons.injEq] at h
      obtain ⟨rfl, rfl⟩ := h
      exact ⟨rfl, rfl, h1⟩
    | cons z a => simp at h
  generalize hS : Troop.initial pid judger n fs = S at h
  induction h with
  | start => subst hS; exact ⟨_, rfl, rfl, rfl, hf⟩
  | uses a b x most k _ _ ih =>
    obtain ⟨rfl, rfl, h1, h2, h3⟩ := one _ _ _ _ ih
    exact ⟨_, rfl, by simp [held, h1], h2, h3⟩
  | installs a b x most f _ _ ih =>
    obtain ⟨rfl, rfl, h1, h2, h3⟩ := one _ _ _ _ ih
    exact ⟨_, rfl, h1, h2, by rcases h3 with h3 | h3 <;> simp [h3]⟩
  | forks _ x r p k hx _ hn ha _ _ ih =>
    obtain ⟨m, hm, _, _, h3⟩ := ih
    rw [hm, List.mem_singleton] at hx
    subst hx
    exact absurd hn (cCpp_no_fork h3 ha)
  | ends a b x most _ ih =>
    obtain ⟨rfl, rfl, h1, h2, h3⟩ := one _ _ _ _ ih
    exact ⟨_, rfl, h1, h2, h3⟩
  | waits _ a b x d hT _ _ _ ih =>
    obtain ⟨m, hm, _⟩ := ih
    have hlen := hT.length_eq
    rw [hm] at hlen
    simp at hlen
  | adopted a b d most _ _ hs ih =>
    obtain ⟨rfl, rfl, _⟩ := one _ _ _ _ ih
    obtain ⟨_, hy, _⟩ := hs
    simp at hy

/-- C110, the part that holds: the rule sets `c_cpp` and `c_cpp_file_io`; and `memory` is the most the program had (or the caller's copy, C92).
Missing: programs that can start processes (`C110_false`). -/
theorem C110_together_partial (c : Config) (prior : Result) (e : RunEnv) (pid : Nat) (t : Termination) (setup : Nat) (T : Troop)
    (h : Weighed c e pid t setup T) (hn : c.seccompRuleName = some c!"c_cpp" ∨ c.seccompRuleName = some c!"c_cpp_file_io") :
    (AcceptedRun c prior e → Within c.maxMemory (T.most * 1024 : Int)) ∧
    ∃ r effs, run c prior e = .returned r effs ∧ ((∀ core, t ≠ .signaled 10 core) → r.memory = 1024 * (max setup T.most : Nat)) := by
  obtain ⟨ce, p, q, judger, n, hs, hl⟩ := h.started
  have hprof := C23_profile_enforced c ce p q hs
  have hf : cCppFilter ce.exeAddr ∈ q.filters ∨ cCppFileIoFilter ce.exeAddr ∈ q.filters := by
    rcases hn with hn | hn <;> rw [hn] at hprof <;>
      rcases hprof.2 with ⟨h1, h2⟩ | ⟨h1, h2⟩ | ⟨h1, h2⟩ | ⟨h1, h2⟩ | ⟨h1, h2⟩ <;>
      first
      | (rw [h2]; simp; done)
      | exact absurd h1 (by decide)
  obtain ⟨x, hx, h1, h2, _⟩ := swells_alone hf hl
  obtain ⟨m, hm, _, _, hu⟩ := h.ended
  rw [hx, List.mem_singleton] at hm
  subst hm
  have hmax : e.usage.maxrss = ((max setup T.most : Nat) : Int) := by
    rw [hu, Mate.reported, h1, h2]
    simp
  refine ⟨fun hacc => ?_, ?_⟩
  · have := ((accepted_iff h.ok h.completed).1 hacc).2.2.2
    have hb : (usageOf e).memBytes = e.usage.maxrss * 1024 := rfl
    rw [hb, hmax] at this
    unfold Within at *
    omega
  · obtain ⟨r, effs, hr, hcpu, _⟩ := C08_measurements c prior e pid t h.ok h.completed h.fitsCpu h.fitsReal
    exact ⟨r, effs, hr, fun h' => by rw [(hcpu h').2, hmax]⟩

/-- C110, under every rule set and none: `memory` is never more than the program and its descendants had together (or the caller's copy, C92). -/
theorem C110_never_more (c : Config) (prior : Result) (e : RunEnv) (pid : Nat) (t : Termination) (setup : Nat) (T : Troop)
    (h : Weighed c e pid t setup T) :
    ∃ r effs, run c prior e = .returned r effs ∧ r.memory ≤ 1024 * (max setup T.most : Nat) := by
  obtain ⟨ce, p, q, judger, n, hs, hl⟩ := h.started
  obtain ⟨m, hm, _, _, hu⟩ := h.ended
  have hle := swells_reported hl m hm
  obtain ⟨r, effs, hr, h1, h2, _⟩ := C08_measurements c prior e pid t h.ok h.completed h.fitsCpu h.fitsReal
  refine ⟨r, effs, hr, ?_⟩
  by_cases hc : ∃ core, t = .signaled 10 core
  · rw [(h2 hc).2]; omega
  · rw [(h1 fun core hcore => hc ⟨core, hcore⟩).2, hu]
    omega

/-- The sample environment, with this much memory. -/
def heavyEnv (kib : Int) : RunEnv := { sampleEnv 0 with usage := ⟨⟨0, 12999⟩, kib⟩ }

theorem heavy_completed (c : Config) (kib : Int) : Completed c (heavyEnv kib) 4242 (.exited 0) :=
  ⟨rfl, rfl, .inr rfl, rfl, by simp [Termination.Valid], rfl, by simp [Normal, heavyEnv], by simp [Normal, heavyEnv, sampleEnv],
    by simp [Normal, heavyEnv, sampleEnv]⟩

/-- Sample judging: a program of 2000 KiB takes 40000 KiB and ends. -/
theorem weighed_sample : ∃ T, Weighed sampleConfig (heavyEnv 40000) 4242 (.exited 0) 1000 T ∧ T.most = 40000 := by
  have h1 := Swells.start (Troop.initial 4242 1 2000 (stateAtExec sampleConfig (sampleChild fun _ => false) sampleProc).filters)
  have h2 := Swells.uses [] [] _ _ 40000 h1 rfl
  have h3 := Swells.ends [] [] _ _ h2
  exact ⟨_, ⟨sampleConfig_ok, ⟨_, _, _, 1, 2000, sample_started, h3⟩, ⟨_, List.mem_singleton.2 rfl, rfl, rfl, by decide⟩,
    heavy_completed _ _, by decide, by decide⟩, by decide⟩

example : ∃ r effs, run sampleConfig (noResult 0) (heavyEnv 40000) = .returned r effs ∧ r.memory = 40960000 := by
  obtain ⟨T, hT, hm⟩ := weighed_sample
  obtain ⟨_, r, effs, hr, h⟩ := C110_together_partial _ (noResult 0) _ _ _ _ T hT (.inl rfl)
  exact ⟨r, effs, hr, by rw [h (by simp), hm]; decide⟩

/-- Without a rule set, and under `general`, `golang` and `node`: two processes of 40000 KiB each at the same time, under a limit of 64 MiB; the first
waits for the second, `memory` is that of one, and the program is accepted. -/
theorem C110_witness (name : Option CStr) (hn : name = none ∨ name = some c!"general" ∨ name = some c!"golang" ∨ name = some c!"node")
    (prior : Result) : ∃ T, Weighed { sampleConfig with seccompRuleName := name } (heavyEnv 40000) 4242 (.exited 0) 1000 T ∧
      AcceptedRun { sampleConfig with seccompRuleName := name } prior (heavyEnv 40000) ∧ T.most = 80000 ∧
      ¬Within sampleConfig.maxMemory (T.most * 1024 : Int) := by
  have hc : ConfigOk { sampleConfig with seccompRuleName := name } := sampleConfig_ok
  obtain ⟨q, hq⟩ := C17_starts { sampleConfig with seccompRuleName := name } (sampleChild fun _ => false) sampleProc hc
    (by simp [sampleConfig]) rfl rfl (by rcases hn with rfl | rfl | rfl | rfl <;> simp [profileNames]) (fun _ _ => rfl)
  have hs : Started { sampleConfig with seccompRuleName := name } (sampleChild fun _ => false) sampleProc q := ⟨_, _, _, hq⟩
  have hf := C23_profile_enforced _ _ _ _ hs
  have ha : evalAll q.filters (Req.mk' 435 [0x1000, 88]) = .allow := by
    rcases hn with rfl | rfl | rfl | rfl
    · rw [hf.1]; decide
    all_goals
      rcases hf.2 with ⟨h1, h2⟩ | ⟨h1, h2⟩ | ⟨h1, h2⟩ | ⟨h1, h2⟩ | ⟨h1, h2⟩ <;>
        first
        | (rw [h2]; decide)
        | exact absurd h1 (by decide)
  have h1 := Swells.start (Troop.initial 4242 1 2000 q.filters)
  have h2 := Swells.forks h1 _ (Req.mk' 435 [0x1000, 88]) 4243 1000 (List.mem_singleton.2 rfl) rfl (by decide) ha
    (by intro y hy; rw [List.mem_singleton.1 hy]; simp) (by simp)
  have h3 := Swells.uses [] _ _ _ 40000 h2 rfl
  have h4 := Swells.uses [_] [] _ _ 40000 h3 rfl
  have h5 := Swells.ends [_] [] _ _ h4
  have h6 := Swells.waits h5 [] [] _ _ (List.Perm.swap _ _ _) rfl rfl rfl
  have h7 := Swells.ends [] [] _ _ h6
  refine ⟨_, ⟨hc, ⟨_, _, _, 1, 2000, hs, h7⟩, ⟨_, List.mem_singleton.2 rfl, rfl, rfl, by simp [Mate.reported, heavyEnv]⟩, heavy_completed _ _, by decide, by decide⟩,
    (accepted_iff hc (heavy_completed _ _)).2 ⟨rfl, ?_, ?_, ?_⟩, by simp [held, Troop.initial], ?_⟩
  · show Within 1000 (usageOf (heavyEnv 40000)).cpuMs
    unfold Within; decide
  · show Within 2000 (usageOf (heavyEnv 40000)).realMs
    unfold Within; decide
  · show Within 67108864 (usageOf (heavyEnv 40000)).memBytes
    unfold Within; decide
  · simp [Within, sampleConfig, held, Troop.initial]

/-- C110 is false of the code. -/
theorem C110_false : ¬C110_full := by
  intro hfull
  obtain ⟨T, hT, hacc, _, hno⟩ := C110_witness none (.inl rfl) (noResult 0)
  exact hno (hfull { sampleConfig with seccompRuleName := none } _ _ _ _ _ T hT hacc)

end Judger
