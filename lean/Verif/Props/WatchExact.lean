import Verif.Props.Killer

/-! # For which limits the watchdog goes wrong (C37, C38, C39, C40, C41, C43) -/

set_option autoImplicit false

namespace Judger

open Spec

namespace WatchExact

/-- Nothing ever happened. -/
def Quiet (s : KState) : Prop := s.badRead = false ∧ s.kills = [] ∧ s.badCancel = false ∧ (s.watch = .absent ∨ s.watch = .cancelled)

/-- Without a limit there is no watchdog. -/
theorem untimed {k : Watchdog} (ht : ¬k.timed) {s : KState} (h : Reach k s) : Quiet s := by
  induction h with
  | init => exact ⟨rfl, rfl, rfl, .inl rfl⟩
  | step h hs ih =>
    obtain ⟨h1, h2, h3, h4⟩ := ih
    cases hs <;> first
      | exact ⟨h1, h2, h3, h4⟩
      | exact ⟨h1, h2, h3, .inr rfl⟩
      | (exfalso; exact ht ‹_›)
      | (exfalso; simp_all)

/-- The watchdog can read its arguments too late, and then signal anybody; for any limit. -/
theorem late (k : Watchdog) (ht : k.timed) : ∃ s, Reach k s ∧ s.badRead = true ∧ ∃ x ∈ s.kills, x.pid ≠ k.pid := by
  have s1 := (Reach.init (k := k) 0).step (.recordStart _ rfl)
  have s2 := s1.step (.forkOk _ rfl)
  have s3 := s2.step (.createOk _ rfl ht)
  have s4 := s3.step (.leaveBlock _ rfl)
  have s5 := s4.step (.readDead _ (k.pid + 1) 0 rfl rfl (by decide))
  have s6 := s5.step (.detachOk _ _ _ rfl)
  have s7 := s6.step (.sleeps _ _ _ 1 rfl (by decide))
  have s8 := s7.step (.tick _ 1000000)
  have s9 := s8.step (.wakes _ _ _ rfl (Nat.le_refl _) rfl)
  have s10 := s9.step (.kill _ _ rfl)
  exact ⟨_, s10, rfl, _, List.mem_cons_self, by simp⟩

/-- The limit is one whose sum with 1000 is still an `int`. -/
theorem sleeps_ok {t : Int} (h : 1 ≤ t) (h2 : t ≤ INT_MAX - 1000) : ∃ n, sleepSeconds t = .ok n := by
  unfold sleepSeconds
  have : addInt t 1000 = .ok (t + 1000) := by
    unfold addInt
    rw [if_pos]
    unfold IsInt INT_MIN
    unfold INT_MAX at *
    omega
  rw [this]
  exact ⟨_, rfl⟩

theorem sleeps_ub {t : Int} (h2 : INT_MAX - 1000 < t) : sleepSeconds t = .ub := by
  unfold sleepSeconds
  have : addInt t 1000 = .ub := by
    unfold addInt
    rw [if_neg]
    unfold IsInt INT_MIN
    unfold INT_MAX at *
    omega
  rw [this]

/-- With its arguments in time, the watchdog can still signal a pid that has been reaped, and be cancelled after its end. -/
theorem around (k : Watchdog) (ht : k.timed) (n : Nat) (hn : sleepSeconds k.limit = .ok n) :
    ∃ s, Reach k s ∧ s.badRead = false ∧ (∃ x ∈ s.kills, x.pid = k.pid ∧ x.afterReap = true) ∧ s.badCancel = true := by
  have s1 := (Reach.init (k := k) 0).step (.recordStart _ rfl)
  have s2 := s1.step (.forkOk _ rfl)
  have s3 := s2.step (.createOk _ rfl ht)
  have s4 := s3.step (.read _ rfl rfl)
  have s5 := s4.step (.leaveBlock _ rfl)
  have s6 := s5.step (.detachOk _ _ _ rfl)
  have s7 := s6.step (.sleeps _ _ _ n rfl hn)
  have s8 := s7.step (.tick _ (n * 1000000))
  have s9 := s8.step (.wakes _ _ _ rfl (Nat.le_refl _) rfl)
  have s10 := s9.step (.childEnds _ (.exited 0) rfl trivial)
  have s11 := s10.step (.waitEnded _ (.exited 0) false rfl rfl)
  have s12 := s11.step (.kill _ _ rfl)
  have s13 := s12.step (.recordEnd _ _ _ rfl)
  have s14 := s13.step (.cancel _ _ _ rfl ht)
  exact ⟨_, s14, rfl, ⟨_, List.mem_cons_self, rfl, by simp⟩, by simp⟩

/-- With a limit that overflows, a watchdog that has its arguments in time gets no further. -/
theorem stuck {k : Watchdog} (hq : k.quirks = false) (ho : sleepSeconds k.limit = .ub) {s : KState} (h : Reach k s) (hb : s.badRead = false) :
    s.kills = [] ∧ s.badCancel = false ∧ s.watch ≠ .ended ∧ (∀ p w, s.watch ≠ .asleep p w) ∧ ∀ p, s.watch ≠ .awake p := by
  induction h with
  | init => exact ⟨rfl, rfl, nofun, nofun, nofun⟩
  | @step a s s' h hs ih =>
    cases hs with
    | readDead => cases hb
    | sleeps _ p t n hw hn =>
      obtain ⟨_, rfl⟩ := (C40_read_in_time_partial k s h hb).1 p t (.inr hw)
      rw [ho] at hn; cases hn
    | cancel _ t b hm ht =>
      obtain ⟨h1, h2, h3, h4, h5⟩ := ih hb
      exact ⟨h1, by simp [h2, h3], h3, h4, h5⟩
    | detachFails _ p t hw hq' => rw [hq] at hq'; cases hq'
    | interrupted _ p w hw => exact absurd hw ((ih hb).2.2.2.1 _ _)
    | wakes _ p w hw => exact absurd hw ((ih hb).2.2.2.1 _ _)
    | kill _ p hw => exact absurd hw ((ih hb).2.2.2.2 _)
    | _ =>
      obtain ⟨h1, h2, h3, h4, h5⟩ := ih hb
      first
        | exact ⟨h1, h2, h3, h4, h5⟩
        | exact ⟨h1, h2, nofun, nofun, nofun⟩

end WatchExact

open WatchExact

/-- **C40**, settled: the watchdog cannot read its arguments too late exactly if there is no limit, and so no watchdog. -/
theorem C40_exact (k : Watchdog) : (∀ s, Reach k s → s.badRead = false) ↔ k.limit = -1 := by
  constructor
  · intro H
    refine Decidable.byContradiction fun ht => ?_
    obtain ⟨s, h1, h2, _⟩ := late k ht
    rw [H s h1] at h2; cases h2
  · intro h s hs
    exact (untimed (fun ht => ht h) hs).1

/-- **C39**, settled: the watchdog cannot signal a process that is not the judged one exactly if there is no limit. -/
theorem C39_exact (k : Watchdog) : (∀ s, Reach k s → ∀ x ∈ s.kills, x.pid = k.pid ∧ x.afterReap = false) ↔ k.limit = -1 := by
  constructor
  · intro H
    refine Decidable.byContradiction fun ht => ?_
    obtain ⟨s, h1, _, x, hx, h2⟩ := late k ht
    exact h2 (H s h1 x hx).1
  · intro h s hs x hx
    rw [(untimed (fun ht => ht h) hs).2.1] at hx
    cases hx

/-- **C39**, settled for a watchdog that has its arguments in time: it can signal a pid that has been reaped exactly if the limit leaves room for the
extra second (C42). -/
theorem C39_in_time_exact (k : Watchdog) (hl : RealLimitOk k.limit) (hq : k.quirks = false) :
    (∀ s, Reach k s → s.badRead = false → ∀ x ∈ s.kills, x.pid = k.pid ∧ x.afterReap = false) ↔ INT_MAX - 1000 < k.limit := by
  have ht : k.timed := by
    intro h
    have := hl.1
    rw [h] at this
    revert this; decide
  constructor
  · intro H
    refine Decidable.byContradiction fun hn => ?_
    obtain ⟨n, h0⟩ := sleeps_ok hl.1 (by omega)
    obtain ⟨s, h1, h2, ⟨x, hx, _, h3⟩, _⟩ := around k ht n h0
    rw [(H s h1 h2 x hx).2] at h3; cases h3
  · intro h s hs hb x hx
    rw [(stuck hq (sleeps_ub h) hs hb).1] at hx
    cases hx

/-- **C41**, settled for a watchdog that has its arguments in time: `run()` can cancel a thread that has ended exactly if the limit leaves room for the
extra second. -/
theorem C41_exact (k : Watchdog) (hl : RealLimitOk k.limit) (hq : k.quirks = false) :
    (∀ s, Reach k s → s.badRead = false → s.badCancel = false) ↔ INT_MAX - 1000 < k.limit := by
  have ht : k.timed := by
    intro h
    have := hl.1
    rw [h] at this
    revert this; decide
  constructor
  · intro H
    refine Decidable.byContradiction fun hn => ?_
    obtain ⟨n, h0⟩ := sleeps_ok hl.1 (by omega)
    obtain ⟨s, h1, h2, _, h3⟩ := around k ht n h0
    rw [H s h1 h2] at h3; cases h3
  · intro h s hs hb
    exact (stuck hq (sleeps_ub h) hs hb).2.1

/-- **C37**, settled: the watchdog cannot kill early exactly if there is no limit. -/
theorem C37_exact (k : Watchdog) (hl : k.limit = -1 ∨ RealLimitOk k.limit) :
    (∀ s, Reach k s → ∀ x ∈ s.kills, (s.start : Int) + ms k.limit < x.time) ↔ k.limit = -1 := by
  constructor
  · intro H
    rcases hl with hl | hl
    · exact hl
    · refine Decidable.byContradiction fun ht => ?_
      have s1 := (Reach.init (k := k) 0).step (.recordStart _ rfl)
      have s2 := s1.step (.forkOk _ rfl)
      have s3 := s2.step (.createOk _ rfl ht)
      have s4 := s3.step (.leaveBlock _ rfl)
      have s5 := s4.step (.readDead _ k.pid (-1000) rfl rfl (by decide))
      have s6 := s5.step (.detachOk _ _ _ rfl)
      have s7 := s6.step (.sleeps _ _ _ 0 rfl (by decide))
      have s8 := s7.step (.wakes _ _ _ rfl (Nat.le_refl _) rfl)
      have s9 := s8.step (.kill _ _ rfl)
      have h1 : ((0 : Nat) : Int) + ms k.limit < ((0 : Nat) : Int) := H _ s9 ⟨0, k.pid, false⟩ List.mem_cons_self
      have h2 := hl.1
      unfold ms at h1
      omega
  · intro h s hs x hx
    rw [(untimed (fun ht => ht h) hs).2.1] at hx
    cases hx

/-- **C43**, for every limit: some fair schedule in which `run()` waits for ever, because the watchdog read its arguments too late and signalled
another process. -/
theorem C43_every_limit (k : Watchdog) (ht : k.limit ≠ -1) :
    ∃ σ : Schedule k, Fair σ ∧ ∀ i r, (σ.state i).main ≠ .returned r ∧ (σ.state i).main ≠ .exited r := by
  have hs : ∃ s, Reach k s ∧ s.main = .waiting ∧ s.child = .running ∧ s.watch = .ended := by
    have s1 := (Reach.init (k := k) 0).step (.recordStart _ rfl)
    have s2 := s1.step (.forkOk _ rfl)
    have s3 := s2.step (.createOk _ rfl ht)
    have s4 := s3.step (.leaveBlock _ rfl)
    have s5 := s4.step (.readDead _ (k.pid + 1) (-1000) rfl rfl (by decide))
    have s6 := s5.step (.detachOk _ _ _ rfl)
    have s7 := s6.step (.sleeps _ _ _ 0 rfl (by decide))
    have s8 := s7.step (.wakes _ _ _ rfl (Nat.le_refl _) rfl)
    have s9 := s8.step (.kill _ _ rfl)
    exact ⟨_, s9, rfl, if_neg (by omega), rfl⟩
  obtain ⟨s, hr, hm, hc, hw⟩ := hs
  refine ⟨{ state := fun i => { s with now := s.now + i }, act := fun _ => .clock, first := hr,
            next := fun i => KStep.tick { s with now := s.now + i } 1 }, ⟨?_, ?_, ?_⟩, ?_⟩
  · intro i hall
    have := hall i (Nat.le_refl _)
    simp [MainCan, hm, hc] at this
  · intro i hall
    have := hall i (Nat.le_refl _)
    simp [WatchCan, hw] at this
  · exact fun t => ⟨t, by simp⟩
  · intro i r
    simp [hm]

/-- **C38**, for every request with a limit: some run in which the watchdog, having read its arguments too late, kills the program at once, and the
verdict is RUNTIME_ERROR. -/
theorem C38_every_request (c : Config) (prior : Result) (hc : ConfigOk c) (hl : RealLimitOk c.maxRealTime) :
    ∃ e s, Reach ⟨c.maxRealTime, 4242, false⟩ s ∧ Matches c e ⟨c.maxRealTime, 4242, false⟩ s (.signaled 9 false) true ∧
      ∃ r effs, run c prior e = .returned r effs ∧ r.error = 0 ∧ r.result = 4 := by
  have h1 := hl.1
  have ht : Watchdog.timed ⟨c.maxRealTime, 4242, false⟩ := by
    unfold Watchdog.timed UNLIMITED
    simp only
    omega
  have s1 := (Reach.init (k := ⟨c.maxRealTime, 4242, false⟩) 0).step (.recordStart _ rfl)
  have s2 := s1.step (.forkOk _ rfl)
  have s3 := s2.step (.createOk _ rfl ht)
  have s4 := s3.step (.leaveBlock _ rfl)
  have s5 := s4.step (.readDead _ 4242 (-1000) rfl rfl (by decide))
  have s6 := s5.step (.detachOk _ _ _ rfl)
  have s7 := s6.step (.sleeps _ _ _ 0 rfl (by decide))
  have s8 := s7.step (.wakes _ _ _ rfl (Nat.le_refl _) rfl)
  have s9 := s8.step (.kill _ _ rfl)
  have s10 := s9.step (.waitEnded _ (.signaled 9 false) true rfl rfl)
  have s11 := s10.step (.recordEnd _ _ _ rfl)
  have s12 := s11.step (.cancel _ _ _ rfl ht)
  have hm : Completed c { sampleEnv 9 with start := ⟨0, 0⟩, finish := ⟨0, 0⟩, usage := ⟨⟨0, 0⟩, 0⟩ } 4242 (.signaled 9 false) :=
    ⟨rfl, rfl, .inr rfl, rfl, by decide, rfl, by simp [Normal], by simp [Normal], by simp [Normal]⟩
  obtain ⟨r, effs, hr, he, hv⟩ := C04_verdict c prior _ 4242 _ hc hm
  refine ⟨_, _, s12, ⟨hc, rfl, hm, .inl rfl, rfl, rfl⟩, r, effs, hr, he, ?_⟩
  rw [hv]
  have z : ∀ x : Int, LimitOk x → ¬Exceeds x 0 := by
    intro x hx h
    unfold LimitOk at hx
    unfold Exceeds at h
    omega
  show (if Exceeds c.maxCpuTime 0 then 1 else if Exceeds c.maxRealTime 0 then 2 else if Exceeds c.maxMemory 0 then 3
    else if Termination.signaled 9 false = .exited 0 then 0 else 4 : Int) = 4
  rw [if_neg (z _ hc.1), if_neg (z _ hc.2.1), if_neg (z _ hc.2.2.1), if_neg nofun]

example : ConfigOk sampleConfig ∧ RealLimitOk sampleConfig.maxRealTime := ⟨sampleConfig_ok, by decide⟩

/-- Non-vacuous: both sides occur. -/
example : (∃ k : Watchdog, RealLimitOk k.limit ∧ k.quirks = false ∧ INT_MAX - 1000 < k.limit) ∧
    ∃ k : Watchdog, RealLimitOk k.limit ∧ k.quirks = false ∧ ¬INT_MAX - 1000 < k.limit :=
  ⟨⟨⟨INT_MAX, 4242, false⟩, by decide, rfl, by decide⟩, ⟨⟨2000, 4242, false⟩, by decide, rfl, by decide⟩⟩

example : (∃ k : Watchdog, k.limit = -1) ∧ ∃ k : Watchdog, k.limit ≠ -1 := ⟨⟨⟨-1, 4242, false⟩, rfl⟩, ⟨⟨2000, 4242, false⟩, by decide⟩⟩

end Judger
