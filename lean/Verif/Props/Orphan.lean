import Verif.Props.Remains
import Verif.Spec.Orphan

/-! # C129: what happens to the judged program when the judger is killed -/

set_option autoImplicit false

namespace Judger

open Judger.Spec

/-- C129, the full claim: wherever the judger is killed, one second after its real-time limit the judged program has ended. -/
def C129_full : Prop :=
  ∀ (k : Watchdog) (s s' : KState), RealLimitOk k.limit → k.quirks = false → Reach k s → Alone k (s.orphaned k) s' →
    (s.start : Int) + ms k.limit + 1000000 < s'.now → ¬Alive s'

theorem orphaned_child (k : Watchdog) (s : KState) : (s.orphaned k).child = s.child := rfl

/-- No signal of the judger comes any more. -/
theorem alone_kills {k : Watchdog} {s s' : KState} (h : Alone k s s') : s'.kills = s.kills ∧ s'.main = s.main ∧ s'.start = s.start := by
  induction h with
  | refl => exact ⟨rfl, rfl, rfl⟩
  | step _ ha hs ih =>
    rcases ha with rfl | rfl <;> cases hs <;> exact ih

/-- What has ended stays so. -/
theorem alone_ended {k : Watchdog} {s s' : KState} (h : Alone k s s') (hs : ¬Alive s) : ¬Alive s' := by
  induction h with
  | refl => exact hs
  | step _ ha hs ih =>
    rcases ha with rfl | rfl <;> cases hs <;> simp_all [Alive]

/-- C129, the part that holds: the judger is killed before it forks, or when it knows that the child has ended, or has killed it itself.
Missing: the time in between (`C129_exact`), and after a verdict on a stopped child. -/
theorem C129_settled_partial (k : Watchdog) (s s' : KState) (h : Reach k s) (hm : Settled s.main) (hd : Alone k (s.orphaned k) s') : ¬Alive s' := by
  refine alone_ended hd ?_
  unfold Alive
  rw [orphaned_child]
  have o := h.order
  have i := h.rest
  cases hmain : s.main with
  | init => simp [o.noChild (.inl hmain)]
  | started => simp [o.noChild (.inr hmain)]
  | forked => simp [hmain, Settled] at hm
  | inBlock => simp [hmain, Settled] at hm
  | waiting => simp [hmain, Settled] at hm
  | waited t b =>
    rw [hmain] at hm
    simp [(i.verdict t b (by simp [hmain])).2.1 hm]
  | timed t b =>
    rw [hmain] at hm
    simp [(i.verdict t b (by simp [hmain])).2.1 hm]
  | returned r | exited r =>
    cases r with
    | forkFailed => simp [i.fork (by simp [hmain])]
    | pthreadFailed => obtain ⟨t, b, hc⟩ := i.dead (by simp [hmain]); simp [hc]
    | waitFailed => obtain ⟨t, b, hc⟩ := i.dead (by simp [hmain]); simp [hc]
    | verdict t b =>
      rw [hmain] at hm
      simp [(i.verdict t b (by simp [hmain])).2.1 hm]

/-- C129, exactly: a program that has not ended when the judger is killed may run on for ever, and the judger sends it no signal. -/
theorem C129_exact (k : Watchdog) (s : KState) :
    (Alive s ↔ ∀ T : Nat, ∃ s', Alone k (s.orphaned k) s' ∧ T ≤ s'.now ∧ Alive s') ∧
    ∀ s', Alone k (s.orphaned k) s' → s'.kills = s.kills := by
  refine ⟨⟨fun h T => ⟨_, Alone.refl.step (.inl rfl) (.tick _ T), Nat.le_add_left _ _, h⟩, fun h => ?_⟩, fun s' h => (alone_kills h).1⟩
  obtain ⟨s', h1, -, h2⟩ := h 0
  exact Classical.byContradiction fun hn => alone_ended h1 hn h2

/-- The judger waits for a running program, with the watchdog asleep: so it is most of the time. -/
theorem sample_asleep : ∃ s, Reach ⟨2000, 4242, false⟩ s ∧ s.badRead = false ∧ s.main = .waiting ∧ s.watch = .asleep 4242 3000000 ∧ Alive s ∧ s.start = 0 := by
  have ht : Watchdog.timed ⟨2000, 4242, false⟩ := by simp [Watchdog.timed, UNLIMITED]
  have s1 := (Reach.init (k := ⟨2000, 4242, false⟩) 0).step (.recordStart _ rfl)
  have s2 := s1.step (.forkOk _ rfl)
  have s3 := s2.step (.createOk _ rfl ht)
  have s4 := s3.step (.read _ rfl rfl)
  have s5 := s4.step (.leaveBlock _ rfl)
  have s6 := s5.step (.detachOk _ _ _ rfl)
  have s7 := s6.step (.sleeps _ _ _ 3 rfl (by decide))
  exact ⟨_, s7, rfl, rfl, rfl, .inl rfl, rfl⟩

example : ∃ s, Reach ⟨2000, 4242, false⟩ s ∧ Settled s.main ∧ s.child = .reaped := by
  obtain ⟨s, h, _, hm, hc⟩ := sample_in_time
  exact ⟨s, h, by rw [hm]; trivial, (h.rest.verdict (.exited 0) false (by simp [hm])).2.1 trivial⟩

/-- A limit of two seconds; the judger is killed while it waits; the program is there an hour later. -/
theorem C129_witness : ∃ s s', Reach ⟨2000, 4242, false⟩ s ∧ s.start = 0 ∧ Alone ⟨2000, 4242, false⟩ (s.orphaned ⟨2000, 4242, false⟩) s' ∧
    3600000000 ≤ s'.now ∧ Alive s' := by
  obtain ⟨s, h, _, _, _, hc, h0⟩ := sample_asleep
  obtain ⟨s', h1, h2, h3⟩ := (C129_exact ⟨2000, 4242, false⟩ s).1.1 hc 3600000000
  exact ⟨s, s', h, h0, h1, h2, h3⟩

/-- C129 is false of the code. -/
theorem C129_false : ¬C129_full := by
  intro h
  obtain ⟨s, s', h1, h2, h3, h4, h5⟩ := C129_witness
  refine h _ s s' (by decide) rfl h1 h3 ?_ h5
  rw [h2]
  simp only [ms]
  omega

end Judger
