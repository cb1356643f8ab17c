import Verif.Spec.Watchdog

/-! # Invariants of the watchdog system -/

set_option autoImplicit false

namespace Judger

open Judger.Spec

theorem sleepSeconds_ok {t : Int} {n : Nat} (h1 : 1 ≤ t) (h : sleepSeconds t = .ok n) :
    (n : Int) = t / 1000 + 1 ∧ t ≤ INT_MAX - 1000 := by
  unfold sleepSeconds addInt at h
  by_cases hi : IsInt (t + 1000)
  · rw [if_pos hi] at h
    simp only [CRes.ok.injEq] at h
    unfold IsInt INT_MAX INT_MIN at hi
    have hnn : 0 ≤ t + 1000 := by omega
    rw [Int.tdiv_eq_ediv_of_nonneg hnn] at h
    unfold castU32 at h
    unfold INT_MAX
    omega
  · rw [if_neg hi] at h
    cases h

theorem sleepSeconds_eq {t : Int} (h1 : 1 ≤ t) (h2 : t ≤ INT_MAX - 1000) : sleepSeconds t = .ok (t / 1000 + 1).toNat := by
  have hi : IsInt (t + 1000) := by unfold IsInt INT_MAX INT_MIN; unfold INT_MAX at h2; omega
  unfold sleepSeconds addInt
  rw [if_pos hi]
  simp only
  have hnn : 0 ≤ t + 1000 := by omega
  rw [Int.tdiv_eq_ediv_of_nonneg hnn]
  unfold castU32
  congr 1
  unfold INT_MAX at h2
  omega

theorem sleepSeconds_ub {t : Int} (h1 : INT_MAX - 1000 < t) : sleepSeconds t = .ub := by
  have hi : ¬ IsInt (t + 1000) := by unfold IsInt INT_MAX INT_MIN; unfold INT_MAX at h1; omega
  unfold sleepSeconds addInt
  rw [if_neg hi]

/-- Facts about the order of things that hold in every schedule. -/
structure Order (k : Watchdog) (s : KState) : Prop where
  startLe : s.start ≤ s.now
  noWatch : s.main = .init ∨ s.main = .started ∨ s.main = .forked → s.watch = .absent ∧ s.kills = []
  noChild : s.main = .init ∨ s.main = .started → s.child = .none
  hasWatch : k.timed → s.main = .inBlock ∨ s.main = .waiting → s.watch ≠ .absent ∧ s.watch ≠ .cancelled
  noCancel : (∀ r, s.main ≠ .returned r) → (∀ r, s.main ≠ .exited r) → s.cancelReq = false
  noneReaped : s.main = .forked ∨ s.main = .inBlock ∨ s.main = .waiting → s.child ≠ .none ∧ s.child ≠ .reaped

theorem killChild_none {k : Watchdog} {p : Nat} {b : Bool} {c : ChildState} : killChild k p b c = .none ↔ c = .none := by
  cases c <;> simp only [killChild, reduceCtorEq] <;> split <;> simp

theorem killChild_reaped {k : Watchdog} {p : Nat} {b : Bool} {c : ChildState} : killChild k p b c = .reaped ↔ c = .reaped := by
  cases c <;> simp only [killChild, reduceCtorEq] <;> split <;> simp

set_option linter.unusedSimpArgs false in
theorem Reach.order {k : Watchdog} {s : KState} (h : Reach k s) : Order k s := by
  induction h with
  | init now => constructor <;> simp [KState.init]
  | step _ hs ih =>
    obtain ⟨i1, i2, i3, i4, i5, i6⟩ := ih
    cases hs <;> constructor <;> first
      | assumption
      | (simp_all [killChild_none, killChild_reaped]; done)
      | (simp_all [killChild_none, killChild_reaped]; omega)
      | (simp_all [killChild_none, killChild_reaped]; grind)

/-- What holds in schedules where the watchdog got its arguments and its own calls work. -/
structure Punctual (k : Watchdog) (s : KState) : Prop where
  ready : ∀ p t, s.watch = .ready p t ∨ s.watch = .detached p t → p = k.pid ∧ t = k.limit
  asleep : ∀ p w, s.watch = .asleep p w → p = k.pid ∧ (s.start : Int) + ms (k.limit + 1) ≤ w
  awake : ∀ p, s.watch = .awake p → p = k.pid ∧ (s.start : Int) + ms (k.limit + 1) ≤ s.now
  watchEnded : s.watch = .ended → (s.start : Int) + ms (k.limit + 1) ≤ s.now
  kills : ∀ x ∈ s.kills, x.pid = k.pid ∧ (s.start : Int) + ms (k.limit + 1) ≤ x.time
  child : ∀ t, s.child = .ended t true → t = .signaled SIGKILL false ∧ (s.start : Int) + ms (k.limit + 1) ≤ s.now
  waited : ∀ t, s.main = .waited t true → t = .signaled SIGKILL false ∧ (s.start : Int) + ms (k.limit + 1) ≤ s.now
  timed : ∀ t, s.main = .timed t true → t = .signaled SIGKILL false ∧ (s.start : Int) + ms (k.limit + 1) ≤ s.finish
  returned : ∀ t, s.main = .returned (.verdict t true) ∨ s.main = .exited (.verdict t true) →
    t = .signaled SIGKILL false ∧ (s.start : Int) + ms (k.limit + 1) ≤ s.finish

theorem killChild_timer {k : Watchdog} {p : Nat} {b : Bool} {c : ChildState} {t : Termination}
    (h : killChild k p b c = .ended t true) : c = .ended t true ∨ (t = .signaled SIGKILL false ∧ b = true ∧ p = k.pid) := by
  cases c with
  | none => simp [killChild] at h
  | running =>
    simp only [killChild] at h
    split at h
    · cases h; exact .inr ⟨rfl, rfl, by assumption⟩
    · cases h
  | stopped =>
    simp only [killChild] at h
    split at h
    · cases h; exact .inr ⟨rfl, rfl, by assumption⟩
    · cases h
  | ended => exact .inl h
  | reaped => simp [killChild] at h

theorem KStep.badRead_mono {k : Watchdog} {a : Actor} {s s' : KState} (h : KStep k a s s') (hb : s'.badRead = false) :
    s.badRead = false := by
  cases h <;> simp_all

theorem Reach.punctual {k : Watchdog} {s : KState} (hl : 1 ≤ k.limit) (hq : k.quirks = false) (h : Reach k s)
    (hb : s.badRead = false) : Punctual k s := by
  induction h with
  | init now => constructor <;> simp [KState.init]
  | @step a s s' hr hs ih =>
    obtain ⟨i1, i2, i3, i4, i5, i6, i7, i8, i9⟩ := ih (hs.badRead_mono hb)
    have o := hr.order
    have hk : ∀ {p b c t}, killChild k p b c = .ended t true → c = .ended t true ∨ (t = .signaled SIGKILL false ∧ b = true ∧ p = k.pid) :=
      killChild_timer
    have hst := o.startLe
    cases hs with
    | tick _ d =>
      refine ⟨i1, i2, fun p h => ?_, fun h => ?_, i5, fun t h => ?_, fun t h => ?_, i8, i9⟩
      · have := i3 p h; exact ⟨this.1, by simp only; omega⟩
      · have := i4 h; simp only; omega
      · have := i6 t h; exact ⟨this.1, by simp only; omega⟩
      · have := i7 t h; exact ⟨this.1, by simp only; omega⟩
    | recordStart _ h =>
      have hw := o.noWatch (.inl h)
      have hc := o.noChild (.inl h)
      constructor <;> simp [hw, hc]
    | waitEnded _ t b h hc =>
      refine ⟨i1, i2, i3, i4, i5, by simp, fun t' h' => ?_, by simp, by simp⟩
      cases h'
      exact i6 _ hc
    | waitStopped _ sig h hc => exact ⟨i1, i2, i3, i4, i5, i6, by simp, by simp, by simp⟩
    | recordEnd _ t b h =>
      refine ⟨i1, i2, i3, i4, i5, i6, by simp, fun t' h' => ?_, by simp⟩
      cases h'
      exact i7 _ h
    | cancel _ t b h ht =>
      refine ⟨i1, i2, i3, i4, i5, i6, by simp, by simp, fun t' h' => ?_⟩
      rcases h' with h' | h'
      · cases h'; exact i8 _ h
      · cases h'
    | noCancel _ t b h ht =>
      refine ⟨i1, i2, i3, i4, i5, i6, by simp, by simp, fun t' h' => ?_⟩
      rcases h' with h' | h'
      · cases h'; exact i8 _ h
      · cases h'
    | exits _ r h =>
      refine ⟨by simp, by simp, by simp, by simp, i5, i6, by simp, by simp, fun t' h' => ?_⟩
      rcases h' with h' | h'
      · cases h'
      · cases h'; exact i9 _ (.inl h)
    | sleeps _ pid t n h hs =>
      have hp := i1 pid t (.inr h)
      have hn := sleepSeconds_ok (by omega) hs
      refine ⟨by simp, fun p w h' => ?_, by simp, by simp, i5, i6, i7, i8, i9⟩
      simp only [Watch.asleep.injEq] at h'
      refine ⟨h'.1.symm.trans hp.1, ?_⟩
      have := h'.2
      simp only [ms]
      omega
    | kill _ pid h =>
      have hp := i3 pid h
      refine ⟨by simp, by simp, by simp, fun _ => hp.2, ?_, fun t h' => ?_, i7, i8, i9⟩
      · intro x hx
        rcases List.mem_cons.1 hx with hx | hx
        · rw [hx]; exact hp
        · exact i5 x hx
      · rcases hk h' with h' | h'
        · exact i6 t h'
        · exact ⟨h'.1, hp.2⟩
    | createFails _ h ht =>
      refine ⟨i1, i2, i3, i4, i5, fun t h' => ?_, by simp, by simp, by simp⟩
      rcases hk h' with h' | h'
      · exact i6 t h'
      · cases h'.2.1
    | waitFails _ h =>
      refine ⟨i1, i2, i3, i4, i5, fun t h' => ?_, by simp, by simp, by simp⟩
      rcases hk h' with h' | h'
      · exact i6 t h'
      · cases h'.2.1
    | wakes _ pid w h hw hc =>
      have hp := i2 pid w h
      refine ⟨by simp, by simp, fun p h' => ?_, by simp, i5, i6, i7, i8, i9⟩
      cases h'
      exact ⟨hp.1, by simp only; omega⟩
    | detachFails _ _ _ _ hq' => rw [hq] at hq'; cases hq'
    | interrupted _ _ _ _ hq' => rw [hq] at hq'; cases hq'
    | readDead => simp at hb
    | read _ h ha =>
      refine ⟨fun p t h' => ?_, by simp, by simp, by simp, i5, i6, i7, i8, i9⟩
      simpa [eq_comm] using h'
    | detachOk _ pid t h =>
      have hp := i1 pid t (.inl h)
      refine ⟨fun p t h' => ?_, by simp, by simp, by simp, i5, i6, i7, i8, i9⟩
      simp at h'
      rw [← h'.1, ← h'.2]
      exact hp
    | _ => constructor <;> first | assumption | (simp; done)

/-- Once the watchdog has struck, the child is gone. -/
theorem Reach.struck {k : Watchdog} {s : KState} (h : Reach k s) (hb : s.badRead = false) :
    (∀ p t, s.watch = .ready p t ∨ s.watch = .detached p t → p = k.pid ∧ t = k.limit) ∧
    (∀ p w, s.watch = .asleep p w → p = k.pid) ∧ (∀ p, s.watch = .awake p → p = k.pid) ∧
    (s.watch = .ended → (∃ t b, s.child = .ended t b) ∨ s.child = .reaped) ∧
    (s.watch ≠ .absent → s.watch ≠ .cancelled → s.child ≠ .none) := by
  induction h with
  | init now => simp [KState.init]
  | @step a s s' hr hs ih =>
    obtain ⟨i1, i2, i3, i4, i5⟩ := ih (hs.badRead_mono hb)
    have o := hr.order
    cases hs with
    | kill _ pid h =>
      have hp := i3 pid h
      have hnone : s.child ≠ .none := i5 (by simp [h]) (by simp [h])
      refine ⟨by simp, by simp, by simp, fun _ => ?_, fun _ _ => ?_⟩
      · cases hc : s.child with
        | none => exact absurd hc hnone
        | running => left; simp [killChild, hp]
        | stopped => left; simp [killChild, hp]
        | ended t b => left; simp [killChild]
        | reaped => right; simp [killChild]
      · rw [Ne, killChild_none]
        exact hnone
    | createOk _ h ht =>
      have := o.noneReaped (.inl h)
      simp [this]
    | forkOk _ h =>
      have := o.noWatch (.inr (.inl h))
      simp [this]
    | createFails _ h ht =>
      have := o.noWatch (.inr (.inr h))
      simp [this]
    | waitFails _ h =>
      refine ⟨i1, i2, i3, fun hw => ?_, fun hw hc => ?_⟩
      · rcases i4 hw with ⟨t, b, hc⟩ | hc
        · left; simp [hc, killChild]
        · right; simp [hc, killChild]
      · simp only [ne_eq, killChild_none]
        exact i5 hw hc
    | waitEnded _ t b h hc =>
      exact ⟨i1, i2, i3, fun _ => .inr rfl, by simp⟩
    | read _ h ha =>
      have := i5 (by simp [h]) (by simp [h])
      refine ⟨?_, by simp, by simp, by simp, fun _ _ => this⟩
      intro p t h'
      simpa [eq_comm] using h'
    | readDead => simp at hb
    | detachOk _ pid t h =>
      have := i5 (by simp [h]) (by simp [h])
      have hp := i1 pid t (.inl h)
      refine ⟨?_, by simp, by simp, by simp, fun _ _ => this⟩
      intro p t h'
      simp at h'
      rw [← h'.1, ← h'.2]
      exact hp
    | detachFails _ pid t h hq =>
      have := i5 (by simp [h]) (by simp [h])
      have hp := i1 pid t (.inl h)
      refine ⟨by simp, by simp, fun p h' => ?_, by simp, fun _ _ => this⟩
      cases h'
      exact hp.1
    | sleeps _ pid t n h hs =>
      have := i5 (by simp [h]) (by simp [h])
      have hp := i1 pid t (.inr h)
      refine ⟨by simp, fun p w h' => ?_, by simp, by simp, fun _ _ => this⟩
      cases h'
      exact hp.1
    | overflows _ pid t h hs =>
      have := i5 (by simp [h]) (by simp [h])
      exact ⟨by simp, by simp, by simp, by simp, fun _ _ => this⟩
    | wakes _ pid w h hw hc =>
      have := i5 (by simp [h]) (by simp [h])
      have hp := i2 pid w h
      refine ⟨by simp, by simp, fun p h' => ?_, by simp, fun _ _ => this⟩
      cases h'
      exact hp
    | interrupted _ pid w h hq hc =>
      have := i5 (by simp [h]) (by simp [h])
      have hp := i2 pid w h
      refine ⟨by simp, by simp, fun p h' => ?_, by simp, fun _ _ => this⟩
      cases h'
      exact hp
    | cancelled => exact ⟨by simp, by simp, by simp, by simp, by simp⟩
    | exits => exact ⟨by simp, by simp, by simp, by simp, by simp⟩
    | childEnds _ t h ht => exact ⟨i1, i2, i3, fun _ => .inl ⟨_, _, rfl⟩, by simp⟩
    | childStops _ sig h =>
      refine ⟨i1, i2, i3, fun hw => ?_, by simp⟩
      have := i4 hw
      simp [h] at this
    | childContinues _ sig h =>
      refine ⟨i1, i2, i3, fun hw => ?_, by simp⟩
      have := i4 hw
      simp [h] at this
    | _ => exact ⟨i1, i2, i3, i4, i5⟩

end Judger
