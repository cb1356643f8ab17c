import Verif.Props.Killer
import Verif.Spec.Remains

/-! # C104: what `run()` leaves behind in the calling process -/

set_option autoImplicit false

namespace Judger

open Judger.Spec

/-- C104, the full claim: when `run()` returns, the caller has no child more than before, and as time goes on no thread either. -/
def C104_full : Prop :=
  ∀ (k : Watchdog) (s : KState) (r : Ret), k.limit = -1 ∨ RealLimitOk k.limit → k.quirks = false → Reach k s → s.main = .returned r →
    NoChild s ∧ ∀ σ : Schedule k, Fair σ → σ.state 0 = s → ∃ i, NoThread (σ.state i)

/-- What the child and the thread are when `run()` has returned. -/
structure Rest (s : KState) : Prop where
  ended : ∀ t b, s.child = .ended t b → t.Ended
  verdict : ∀ t b, s.main = .waited t b ∨ s.main = .timed t b ∨ s.main = .returned (.verdict t b) ∨ s.main = .exited (.verdict t b) →
    s.child ≠ .none ∧ (t.Ended ↔ s.child = .reaped)
  fork : s.main = .returned .forkFailed ∨ s.main = .exited .forkFailed → s.child = .none
  noThread : s.main = .returned .forkFailed ∨ s.main = .returned .pthreadFailed → s.watch = .absent
  dead : s.main = .returned .pthreadFailed ∨ s.main = .exited .pthreadFailed ∨ s.main = .returned .waitFailed ∨ s.main = .exited .waitFailed →
    ∃ t b, s.child = .ended t b

theorem killChild_ended {k : Watchdog} {p : Nat} {b b' : Bool} {c : ChildState} {t : Termination} (hc : ∀ t b, c = .ended t b → t.Ended)
    (h : killChild k p b c = .ended t b') : t.Ended := by
  cases c <;> simp only [killChild, reduceCtorEq] at h
  · split at h <;> simp at h
    rw [← h.1]; trivial
  · split at h <;> simp at h
    rw [← h.1]; trivial
  · exact hc _ _ h

theorem killChild_own {k : Watchdog} {b : Bool} {c : ChildState} (h1 : c ≠ .none) (h2 : c ≠ .reaped) : ∃ t b', killChild k k.pid b c = .ended t b' := by
  cases c <;> simp_all [killChild]

theorem killChild_dead {k : Watchdog} {p : Nat} {b : Bool} {c : ChildState} (h : ∃ t b, c = .ended t b) : ∃ t b', killChild k p b c = .ended t b' := by
  obtain ⟨t, b, rfl⟩ := h
  exact ⟨t, b, rfl⟩

theorem Reach.rest {k : Watchdog} {s : KState} (h : Reach k s) : Rest s := by
  induction h with
  | init now => constructor <;> simp [KState.init]
  | @step a s s' hr hs ih =>
    have o := hr.order
    obtain ⟨i1, i2, i3, i4, i5⟩ := ih
    have hkill : ∀ p b t b', killChild k p b s.child = .ended t b' → t.Ended := fun p b t b' => killChild_ended i1
    cases hs with
    | createFails _ h ht =>
      obtain ⟨o1, o2⟩ := o.noneReaped (.inl h)
      have := (o.noWatch (.inr (.inr h))).1
      refine ⟨fun t b => hkill _ _ t b, by simp, by simp, by simp [this], fun _ => killChild_own o1 o2⟩
    | waitFails _ h =>
      obtain ⟨o1, o2⟩ := o.noneReaped (.inr (.inr h))
      exact ⟨fun t b => hkill _ _ t b, by simp, by simp, by simp, fun _ => killChild_own o1 o2⟩
    | waitEnded _ t b h hc =>
      refine ⟨by simp, ?_, by simp, by simp, by simp⟩
      intro t' b' h'
      simp only [MainPc.waited.injEq, reduceCtorEq, or_false] at h'
      obtain ⟨rfl, rfl⟩ := h'
      simp [i1 t b hc]
    | waitStopped _ sig h hc =>
      refine ⟨i1, ?_, by simp, by simp, by simp⟩
      intro t' b' h'
      simp only [MainPc.waited.injEq, reduceCtorEq, or_false] at h'
      obtain ⟨rfl, rfl⟩ := h'
      simp [hc, Termination.Ended]
    | kill _ pid h =>
      refine ⟨fun t b => hkill _ _ t b, ?_, ?_, ?_, ?_⟩
      · intro t b h'
        have := i2 t b h'
        exact ⟨by simpa [killChild_none] using this.1, by simpa [killChild_reaped] using this.2⟩
      · intro h'
        simpa [killChild_none] using i3 h'
      · intro h'
        have := i4 h'
        simp_all
      · exact fun h' => killChild_dead (i5 h')
    | forkFails _ h =>
      have o1 := o.noChild (.inr h)
      have o2 := (o.noWatch (.inr (.inl h))).1
      exact ⟨i1, by simp, fun _ => o1, fun _ => o2, by simp⟩
    | childEnds _ t h ht =>
      clear hkill o hr
      refine ⟨?_, ?_, ?_, i4, ?_⟩
      · intro t' b' h'
        cases h'
        exact ht
      · intro t' b' h'
        have := i2 t' b' h'
        simpa [h] using this
      · intro h'
        have := i3 h'
        simp [h] at this
      · exact fun _ => ⟨_, _, rfl⟩
    | _ =>
      clear hkill o hr
      constructor <;> first
        | assumption
        | grind

/-- C104, the child: when `run()` has returned, and ever after, the child is gone without a trace exactly if `run()` could not fork or gives its
verdict on a process that has ended.  After PTHREAD_FAILED and WAIT_FAILED a dead child is left that nobody has waited for; after a verdict on a
stopped one, a child that may still run. -/
theorem C104_child (k : Watchdog) (s : KState) (r : Ret) (h : Reach k s) (hm : s.main = .returned r ∨ s.main = .exited r) :
    (NoChild s ↔ r = .forkFailed ∨ ∃ t b, r = .verdict t b ∧ t.Ended) ∧
    (r = .pthreadFailed ∨ r = .waitFailed → ∃ t b, s.child = .ended t b) ∧
    (∀ t b, r = .verdict t b → ¬t.Ended → ¬NoChild s) := by
  have i := h.rest
  unfold NoChild
  match r with
  | .forkFailed => simp [i.fork hm]
  | .pthreadFailed =>
    obtain ⟨t, b, hc⟩ := i.dead (by rcases hm with hm | hm <;> simp [hm])
    simp [hc]
  | .waitFailed =>
    obtain ⟨t, b, hc⟩ := i.dead (by rcases hm with hm | hm <;> simp [hm])
    simp [hc]
  | .verdict t b =>
    obtain ⟨h1, h2⟩ := i.verdict t b (by rcases hm with hm | hm <;> simp [hm])
    refine ⟨⟨?_, ?_⟩, by simp, ?_⟩
    · rintro (h3 | h3)
      · exact absurd h3 h1
      · exact .inr ⟨t, b, rfl, h2.2 h3⟩
    · rintro (h3 | ⟨t', b', h3, h4⟩)
      · cases h3
      · cases h3
        exact .inr (h2.1 h4)
    · rintro t' b' h3 h4 (h5 | h5)
      · exact h1 h5
      · cases h3
        exact h4 (h2.2 h5)

theorem noThread_untimed {k : Watchdog} {s : KState} (hk : ¬k.timed) (h : Reach k s) : NoThread s := by
  unfold NoThread
  have : s.watch = .absent ∨ s.watch = .cancelled := by
    induction h with
    | init now => exact .inl rfl
    | step _ hs ih => cases hs <;> simp_all
  rcases this with h | h <;> simp [h]

theorem noThread_stays {k : Watchdog} {s s' : KState} {a : Actor} {r : Ret} (hm : s.main = .returned r ∨ s.main = .exited r) (h : NoThread s)
    (hs : KStep k a s s') : NoThread s' := by
  unfold NoThread at h ⊢
  cases hs <;> simp_all

theorem later_index {k : Watchdog} (σ : Schedule k) (i d : Nat) : Later k (σ.state i) (σ.state (i + d)) := by
  induction d with
  | zero => exact .refl
  | succ d ih => exact ih.step (σ.next (i + d))

/-- C104, the thread: in every fair schedule in which the watchdog got its arguments in time, some time after `run()` has returned there is no thread
any more, for ever.  (For limits up to INT_MAX - 1000, or none.) -/
theorem C104_thread_gone_partial (k : Watchdog) (hl : k.limit = -1 ∨ (RealLimitOk k.limit ∧ k.limit ≤ INT_MAX - 1000)) (σ : Schedule k) (hf : Fair σ)
    (hb : ∀ i, (σ.state i).badRead = false) (i : Nat) (r : Ret) (hm : (σ.state i).main = .returned r) :
    ∃ j, i ≤ j ∧ ∀ j', j ≤ j' → NoThread (σ.state j') := by
  have hback : ∀ j, i ≤ j → (σ.state j).main = .returned r ∨ (σ.state j).main = .exited r := fun j hj => by
    have := later_index σ i (j - i)
    rw [show i + (j - i) = j by omega] at this
    exact C43_stays_ended k _ _ r (.inl hm) this
  suffices h : ∃ j, i ≤ j ∧ NoThread (σ.state j) by
    obtain ⟨j, hj, hn⟩ := h
    refine ⟨j, hj, fun j' hj' => ?_⟩
    have : ∀ d, NoThread (σ.state (j + d)) := by
      intro d
      induction d with
      | zero => exact hn
      | succ d ih => exact noThread_stays (hback (j + d) (by omega)) ih (σ.next (j + d))
    have := this (j' - j)
    rwa [show j + (j' - j) = j' by omega] at this
  by_cases ht : k.timed
  · obtain ⟨hl, hu⟩ : RealLimitOk k.limit ∧ k.limit ≤ INT_MAX - 1000 := by
      rcases hl with hl | hl
      · exact absurd hl ht
      · exact hl
    apply Classical.byContradiction
    intro hn
    have hn : ∀ j, i ≤ j → ¬NoThread (σ.state j) := fun j hj h => hn ⟨j, hj, h⟩
    have hw : ∀ j, i ≤ j → (σ.state j).main = .returned r := by
      intro j hj
      have : ∀ d, (σ.state (i + d)).main = .returned r := by
        intro d
        induction d with
        | zero => exact hm
        | succ d ih =>
          have h1 := hn (i + d + 1) (by omega)
          have hs := σ.next (i + d)
          generalize σ.act (i + d) = a at hs
          rw [← Nat.add_assoc]
          generalize σ.state (i + d + 1) = s' at hs h1 ⊢
          cases hs <;> simp_all [NoThread]
      have := this (j - i)
      rwa [show i + (j - i) = j by omega] at this
    have hend : ∀ m j, i ≤ j → 6 ≤ m + watchRank (σ.state j).watch → False := by
      intro m
      induction m with
      | zero =>
        intro j hj hr
        have h1 := hn j hj
        have h2 := noOverflow hl.1 hu (σ.reach j) (hb j)
        unfold NoThread at h1
        cases hc : (σ.state j).watch <;> simp_all [watchRank]
      | succ m ih =>
        intro j hj hr
        by_cases h6 : 6 ≤ m + watchRank (σ.state j).watch
        · exact ih j hj h6
        · have h0 : watchRank (σ.state j).watch ≠ 0 ∧ watchRank (σ.state j).watch < 6 := by
            have h1 := hn j hj
            have h2 := noOverflow hl.1 hu (σ.reach j) (hb j)
            unfold NoThread at h1
            cases hc : (σ.state j).watch <;> simp_all [watchRank]
          obtain ⟨j', hj', hlt⟩ := watch_advances σ hf j (.returned r) (fun j' h' => hw j' (Nat.le_trans hj h')) _ rfl h0.1 h0.2
          exact ih j' (Nat.le_trans hj hj') (by omega)
    exact hend 6 i (Nat.le_refl _) (by omega)
  · exact ⟨i, Nat.le_refl _, noThread_untimed ht (σ.reach i)⟩

/-- Non-vacuous: the child has exited, `run()` has cancelled the watchdog and returned; the thread is still in `sleep`; then it is gone. -/
example : ∃ (σ : Schedule ⟨2000, 4242, false⟩), Fair σ ∧ (∀ i, (σ.state i).badRead = false) ∧
    (σ.state 0).main = .returned (.verdict (.exited 0) false) ∧ ¬NoThread (σ.state 0) ∧ NoChild (σ.state 0) := by
  have ht : Watchdog.timed ⟨2000, 4242, false⟩ := by simp [Watchdog.timed, UNLIMITED]
  have s1 := (Reach.init (k := ⟨2000, 4242, false⟩) 0).step (.recordStart _ rfl)
  have s2 := s1.step (.forkOk _ rfl)
  have s3 := s2.step (.createOk _ rfl ht)
  have s4 := s3.step (.read _ rfl rfl)
  have s5 := s4.step (.leaveBlock _ rfl)
  have s6 := s5.step (.detachOk _ _ _ rfl)
  have s7 := s6.step (.sleeps _ _ _ 3 rfl (by decide))
  have s8 := s7.step (.childEnds _ (.exited 0) rfl trivial)
  have s9 := s8.step (.waitEnded _ _ _ rfl rfl)
  have s10 := s9.step (.recordEnd _ _ _ rfl)
  have s11 := s10.step (.cancel _ _ _ rfl ht)
  have hs : ∃ s, Reach ⟨2000, 4242, false⟩ s ∧ s.main = .returned (.verdict (.exited 0) false) ∧ s.watch = .asleep 4242 (0 + 3 * 1000000) ∧
      s.child = .reaped ∧ s.cancelReq = true ∧ s.badRead = false := ⟨_, s11, rfl, rfl, rfl, rfl, rfl⟩
  obtain ⟨s, hr, hm, hw, hc, hq, hb⟩ := hs
  let st : Nat → KState
    | 0 => s
    | n + 1 => { s with watch := .cancelled, now := s.now + n }
  let act : Nat → Actor
    | 0 => .watch
    | _ + 1 => .clock
  refine ⟨⟨st, act, hr, ?_⟩, ⟨?_, ?_, ?_⟩, ?_, hm, by simp [st, NoThread, hw], .inr hc⟩
  · intro i
    match i with
    | 0 => exact .cancelled s _ _ hw hq
    | n + 1 => exact .tick { s with watch := .cancelled, now := s.now + n } 1
  · intro i hall
    have := hall (i + 1) (by omega)
    simp [st, MainCan, hm] at this
  · intro i hall
    have := hall (i + 1) (by omega)
    simp [st, WatchCan] at this
  · intro t
    refine ⟨t + 1, ?_⟩
    show t ≤ s.now + t
    omega
  · intro i
    match i with
    | 0 => exact hb
    | n + 1 => exact hb

/-- `pthread_create` fails: the child is killed and stays a zombie. -/
theorem C104_witness_zombie : ∃ s, Reach ⟨2000, 4242, false⟩ s ∧ s.main = .returned .pthreadFailed ∧ ¬NoChild s := by
  have ht : Watchdog.timed ⟨2000, 4242, false⟩ := by simp [Watchdog.timed, UNLIMITED]
  have s1 := (Reach.init (k := ⟨2000, 4242, false⟩) 0).step (.recordStart _ rfl)
  have s2 := s1.step (.forkOk _ rfl)
  have s3 := s2.step (.createFails _ rfl ht)
  exact ⟨_, s3, rfl, by simp [NoChild, killChild]⟩

/-- `wait4` fails: the watchdog is not cancelled, and three seconds after `run()` has returned it sends its signal, to a child that is a zombie. -/
theorem C104_witness_thread : ∃ s s', Reach ⟨2000, 4242, false⟩ s ∧ s.badRead = false ∧ s.main = .returned .waitFailed ∧ ¬NoChild s ∧ ¬NoThread s ∧
    s.now = 0 ∧ Later ⟨2000, 4242, false⟩ s s' ∧ s'.main = .returned .waitFailed ∧ s'.kills = [⟨3000000, 4242, false⟩] := by
  have ht : Watchdog.timed ⟨2000, 4242, false⟩ := by simp [Watchdog.timed, UNLIMITED]
  have s1 := (Reach.init (k := ⟨2000, 4242, false⟩) 0).step (.recordStart _ rfl)
  have s2 := s1.step (.forkOk _ rfl)
  have s3 := s2.step (.createOk _ rfl ht)
  have s4 := s3.step (.read _ rfl rfl)
  have s5 := s4.step (.leaveBlock _ rfl)
  have s6 := s5.step (.detachOk _ _ _ rfl)
  have s7 := s6.step (.sleeps _ _ _ 3 rfl (by decide))
  have s8 := s7.step (.waitFails _ rfl)
  exact ⟨_, _, s8, rfl, rfl, by simp [NoChild, killChild], by simp [NoThread], rfl,
    ((Later.refl.step (.tick _ 3000000)).step (.wakes _ _ _ rfl (by decide) rfl)).step (.kill _ _ rfl), rfl, rfl⟩

/-- C104 is false of the code. -/
theorem C104_false : ¬ C104_full := by
  intro h
  obtain ⟨s, h1, h2, h3⟩ := C104_witness_zombie
  exact h3 (h _ s _ (.inr (by decide)) rfl h1 h2).1

end Judger
