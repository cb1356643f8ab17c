import Verif.Props.Killer
import Verif.Spec.Prompt

/-! # C106: how long `run()` takes at most -/

set_option autoImplicit false

namespace Judger

open Judger.Spec

/-- C106, the full claim: with a limit, on a machine that answers within `d` microseconds, `run()` returns within the limit, one second and ten
times `d`; and the time it records between start and end is at most the limit, one second and nine times `d`. -/
def C106_full : Prop :=
  ∀ (k : Watchdog), RealLimitOk k.limit → ∀ (σ : Schedule k) (d : Nat), (σ.state 0).main = .init → Prompt σ d → ∀ i,
    (UnderWay (σ.state i) → ((σ.state i).now : Int) ≤ (σ.state i).start + ms k.limit + 1000000 + 10 * d) ∧
    (∀ t b, (σ.state i).main = .returned (.verdict t b) ∨ (σ.state i).main = .exited (.verdict t b) →
      ((σ.state i).finish : Int) ≤ (σ.state i).start + ms k.limit + 1000000 + 9 * d)

/-- When the caller must have come to where it is, counted from the start time; `N` is the time slept. -/
def mainBy (N d : Nat) : MainPc → Nat
  | .init | .started => 0
  | .forked => d
  | .inBlock => 2 * d
  | .waiting => 3 * d
  | .waited _ _ => N + 8 * d
  | .timed _ _ => N + 9 * d
  | .returned _ | .exited _ => N + 10 * d

/-- The same for the watchdog. -/
def watchBy (N d : Nat) : Watch → Nat
  | .created => 2 * d
  | .ready _ _ => 3 * d
  | .detached _ _ => 4 * d
  | .awake _ => N + 6 * d
  | _ => 0

section

variable {k : Watchdog} (σ : Schedule k)

/-- Since a moment no later than `b` the states are as `Q` says and `a` has not moved. -/
def Since (a : Actor) (b : Nat) (Q : KState → Prop) (i : Nat) : Prop :=
  ∃ c, c ≤ i ∧ (σ.state c).now ≤ b ∧ (∀ m, c ≤ m → m ≤ i → Q (σ.state m)) ∧ ∀ m, c ≤ m → m < i → σ.act m ≠ a

variable {σ}

theorem Since.extend {a : Actor} {b i : Nat} {Q : KState → Prop} (h : Since σ a b Q i) (ha : σ.act i ≠ a) (hq : Q (σ.state (i + 1))) :
    Since σ a b Q (i + 1) := by
  obtain ⟨c, h1, h2, h3, h4⟩ := h
  refine ⟨c, by omega, h2, fun m hm hm' => ?_, fun m hm hm' => ?_⟩
  · by_cases h : m = i + 1
    · rw [h]; exact hq
    · exact h3 m hm (by omega)
  · by_cases h : m = i
    · rw [h]; exact ha
    · exact h4 m hm (by omega)

theorem Since.fresh {a : Actor} {b i : Nat} {Q : KState → Prop} (hb : (σ.state i).now ≤ b) (hq : Q (σ.state i)) : Since σ a b Q i :=
  ⟨i, Nat.le_refl _, hb, fun m h1 h2 => by rw [show m = i by omega]; exact hq, fun m h1 h2 => by omega⟩

theorem Since.main {b i d : Nat} {Q : KState → Prop} (hp : Prompt σ d) (h : Since σ .main b Q i) (hq : ∀ s, Q s → MainCan s) :
    (σ.state i).now ≤ b + d := by
  obtain ⟨c, h1, h2, h3, h4⟩ := h
  have := hp.main c i h1 (fun m hm hm' => hq _ (h3 m hm hm')) h4
  omega

theorem Since.watch {b i d : Nat} {Q : KState → Prop} (hp : Prompt σ d) (h : Since σ .watch b Q i) (hq : ∀ s, Q s → WatchCan s) :
    (σ.state i).now ≤ b + d := by
  obtain ⟨c, h1, h2, h3, h4⟩ := h
  have := hp.watch c i h1 (fun m hm hm' => hq _ (h3 m hm hm')) h4
  omega

/-- `run()` has a child that it has not waited for. -/
def Waits (s : KState) : Prop := s.main = .forked ∨ s.main = .inBlock ∨ s.main = .waiting

/-- The watchdog has something to do that needs no waiting. -/
def Busy (w : Watch) : Prop := w = .created ∨ (∃ p t, w = .ready p t) ∨ (∃ p t, w = .detached p t) ∨ ∃ p, w = .awake p

/-- Where everybody is at step `i`, and since when at the latest. -/
structure OnTime (σ : Schedule k) (N d i : Nat) : Prop where
  main : Since σ .main ((σ.state i).start + mainBy N d (σ.state i).main) (fun s => s.main = (σ.state i).main) i
  watch : Busy (σ.state i).watch → Since σ .watch ((σ.state i).start + watchBy N d (σ.state i).watch) (fun s => s.watch = (σ.state i).watch) i
  asleep : ∀ p w, (σ.state i).watch = .asleep p w → w ≤ (σ.state i).start + N + 5 * d
  child : Waits (σ.state i) → ∀ t b, (σ.state i).child = .ended t b → ∃ c, c ≤ i ∧ (σ.state c).now ≤ (σ.state i).start + N + 7 * d ∧
    ∀ m, c ≤ m → m ≤ i → ∃ t b, (σ.state m).child = .ended t b

variable {N d : Nat}

theorem OnTime.mainDue {i : Nat} (h : OnTime σ N d i) (hp : Prompt σ d) (hu : UnderWay (σ.state i)) (hw : (σ.state i).main ≠ .waiting) :
    (σ.state i).now ≤ (σ.state i).start + mainBy N d (σ.state i).main + d := by
  refine h.main.main hp fun s hs => ?_
  unfold MainCan
  rw [show s.main = _ from hs]
  have h2 := hu.2
  split <;> simp_all

theorem OnTime.watchDue {i : Nat} (h : OnTime σ N d i) (hp : Prompt σ d) (hb : Busy (σ.state i).watch) :
    (σ.state i).now ≤ (σ.state i).start + watchBy N d (σ.state i).watch + d := by
  refine (h.watch hb).watch hp fun s hs => ?_
  unfold WatchCan
  rw [show s.watch = _ from hs]
  rcases hb with hb | ⟨_, _, hb⟩ | ⟨_, _, hb⟩ | ⟨_, hb⟩ <;> rw [hb] <;> trivial

/-- A child that has not ended: the watchdog's time is not over. -/
theorem OnTime.alive {i : Nat} (h : OnTime σ N d i) (hp : Prompt σ d) (ht : k.timed) (hl : 1 ≤ k.limit) (hm : k.limit ≤ INT_MAX - 1000)
    (hb : (σ.state i).badRead = false) (hw : Waits (σ.state i)) (hc : ∀ t b, (σ.state i).child ≠ .ended t b) :
    (σ.state i).now ≤ (σ.state i).start + N + 7 * d := by
  have hr := σ.reach i
  have ho := hr.order
  have hs := hr.struck hb
  by_cases hf : (σ.state i).main = .forked
  · have := h.mainDue hp ⟨by simp [hf], by simp [hf]⟩ (by simp [hf])
    simp only [hf, mainBy] at this
    omega
  · have hiw : (σ.state i).main = .inBlock ∨ (σ.state i).main = .waiting := by
      rcases hw with h | h
      · exact absurd h hf
      · exact h
    have h1 := ho.hasWatch ht hiw
    have h2 := ho.noneReaped hw
    have h3 := noOverflow hl hm hr hb
    have hdue := h.watchDue hp
    match hwt : (σ.state i).watch with
    | .absent => exact absurd hwt h1.1
    | .cancelled => exact absurd hwt h1.2
    | .ub => exact absurd hwt h3
    | .ended =>
      rcases hs.2.2.2.1 hwt with ⟨t, b, h⟩ | h
      · exact absurd h (hc t b)
      · exact absurd h h2.2
    | .created => rw [hwt] at hdue; have := hdue (.inl rfl); simp only [watchBy] at this; omega
    | .ready p t => rw [hwt] at hdue; have := hdue (.inr (.inl ⟨p, t, rfl⟩)); simp only [watchBy] at this; omega
    | .detached p t => rw [hwt] at hdue; have := hdue (.inr (.inr (.inl ⟨p, t, rfl⟩))); simp only [watchBy] at this; omega
    | .awake p => rw [hwt] at hdue; have := hdue (.inr (.inr (.inr ⟨p, rfl⟩))); simp only [watchBy] at this; omega
    | .asleep p w =>
      have h4 := h.asleep p w hwt
      have h5 := hp.sleep i p w hwt
      omega

/-- A child that has ended is waited for. -/
theorem OnTime.endedDue {i : Nat} (h : OnTime σ N d i) (hp : Prompt σ d) (hm : (σ.state i).main = .waiting) {t : Termination} {b : Bool}
    (hc : (σ.state i).child = .ended t b) : (σ.state i).now ≤ (σ.state i).start + N + 8 * d := by
  obtain ⟨c, h1, h2, h3⟩ := h.child (.inr (.inr hm)) t b hc
  obtain ⟨a, g1, g2, g3, g4⟩ := h.main
  rw [hm] at g2 g3
  simp only [mainBy] at g2
  have can : ∀ m, a ≤ m → c ≤ m → m ≤ i → MainCan (σ.state m) := by
    intro m m1 m2 m3
    unfold MainCan
    rw [g3 m m1 m3]
    exact .inl (h3 m m2 m3)
  rcases Nat.le_total a c with hac | hac
  · have := hp.main c i h1 (fun m m1 m2 => can m (by omega) m1 m2) (fun m m1 m2 => g4 m (by omega) m2)
    omega
  · have := hp.main a i g1 (fun m m1 m2 => can m m1 (by omega) m2) (fun m m1 m2 => g4 m m1 m2)
    omega

theorem OnTime.due {i : Nat} (h : OnTime σ N d i) (hp : Prompt σ d) (ht : k.timed) (hl : 1 ≤ k.limit) (hm : k.limit ≤ INT_MAX - 1000)
    (hb : (σ.state i).badRead = false) (hu : UnderWay (σ.state i)) : (σ.state i).now ≤ (σ.state i).start + N + 10 * d := by
  by_cases hw : (σ.state i).main = .waiting
  · by_cases hc : ∃ t b, (σ.state i).child = .ended t b
    · obtain ⟨t, b, hc⟩ := hc
      have := h.endedDue hp hw hc
      omega
    · have := h.alive hp ht hl hm hb (.inr (.inr hw)) (fun t b h => hc ⟨t, b, h⟩)
      omega
  · have h1 := h.mainDue hp hu hw
    have h2 : mainBy N d (σ.state i).main ≤ N + 9 * d := by
      match hx : (σ.state i).main with
      | .init | .started | .forked | .inBlock | .waiting | .waited _ _ | .timed _ _ => simp only [mainBy]; omega
      | .returned r => exact absurd hx (hu.2 r).1
      | .exited r => exact absurd hx (hu.2 r).2
    omega

theorem main_now {s s' : KState} (h : KStep k .main s s') : s'.now = s.now := by cases h <;> rfl

theorem watch_now {s s' : KState} (h : KStep k .watch s s') : s'.now = s.now ∧ s'.start = s.start ∧ s'.main = s.main := by
  cases h <;> exact ⟨rfl, rfl, rfl⟩

theorem start_same {a : Actor} {s s' : KState} (h : KStep k a s s') (hm : s.main ≠ .init) : s'.start = s.start := by
  cases h <;> first | rfl | contradiction

/-- The caller goes on in time. -/
theorem onTime_main {i : Nat} (h : OnTime σ N d i) (hp : Prompt σ d) (ht : k.timed) (hl : 1 ≤ k.limit) (hm : k.limit ≤ INT_MAX - 1000)
    (hb : (σ.state i).badRead = false) (hu : UnderWay (σ.state i)) (hu' : UnderWay (σ.state (i + 1))) (ha : σ.act i = .main) :
    (σ.state (i + 1)).now ≤ (σ.state (i + 1)).start + mainBy N d (σ.state (i + 1)).main := by
  have hs := σ.next i
  rw [ha] at hs
  rw [main_now hs, start_same hs hu.1]
  have h1 := h.mainDue hp hu
  have h2 := fun t b hm => h.endedDue hp (t := t) (b := b) hm
  have h3 := h.alive hp ht hl hm hb
  have hu2 := hu'.2
  generalize σ.state (i + 1) = s' at hs hu2
  cases hs with
  | recordStart _ h => exact absurd h hu.1
  | forkOk _ h => simp only [h, mainBy, ne_eq, reduceCtorEq, not_false_eq_true, true_implies] at h1 ⊢; omega
  | createOk _ h => simp only [h, mainBy, ne_eq, reduceCtorEq, not_false_eq_true, true_implies] at h1 ⊢; omega
  | leaveBlock _ h => simp only [h, mainBy, ne_eq, reduceCtorEq, not_false_eq_true, true_implies] at h1 ⊢; omega
  | skipTimer _ h hn => exact absurd ht hn
  | waitEnded _ t b h hc => have := h2 t b h hc; simp only [mainBy]; omega
  | waitStopped _ sig h hc => have := h3 (.inr (.inr h)) (by simp [hc]); simp only [mainBy]; omega
  | recordEnd _ t b h => simp only [h, mainBy, ne_eq, reduceCtorEq, not_false_eq_true, true_implies] at h1 ⊢; omega
  | forkFails => exact absurd rfl (hu2 _).1
  | createFails => exact absurd rfl (hu2 _).1
  | waitFails => exact absurd rfl (hu2 _).1
  | cancel => exact absurd rfl (hu2 _).1
  | noCancel => exact absurd rfl (hu2 _).1
  | exits => exact absurd rfl (hu2 _).2

theorem onTime_step {i n : Nat} (h : OnTime σ (n * 1000000) d i) (hp : Prompt σ d) (ht : k.timed) (hl : 1 ≤ k.limit) (hm : k.limit ≤ INT_MAX - 1000)
    (hn : sleepSeconds k.limit = .ok n) (hb : (σ.state i).badRead = false) (hb' : (σ.state (i + 1)).badRead = false) (hu : UnderWay (σ.state i))
    (hu' : UnderWay (σ.state (i + 1))) : OnTime σ (n * 1000000) d (i + 1) := by
  have hs := σ.next i
  have hst := start_same hs hu.1
  have hr := σ.reach i
  have hk := hr.struck hb
  constructor
  · by_cases ha : σ.act i = .main
    · exact .fresh (onTime_main h hp ht hl hm hb hu hu' ha) rfl
    · have he := other_step hs ha
      rw [hst, he]
      exact h.main.extend ha he
  · intro hbusy
    by_cases ha : σ.act i = .watch
    · refine .fresh ?_ rfl
      rw [ha] at hs
      have hdue := h.watchDue hp
      have hsl := hp.sleep i
      have hsl' := h.asleep
      rw [hst, (watch_now hs).1]
      generalize σ.state (i + 1) = s' at hs hbusy hb'
      cases hs with
      | read _ h => rw [h] at hdue; have := hdue (.inl rfl); simp only [watchBy] at this ⊢; omega
      | readDead => cases hb'
      | detachOk _ p t h => rw [h] at hdue; have := hdue (.inr (.inl ⟨p, t, rfl⟩)); simp only [watchBy] at this ⊢; omega
      | detachFails _ p t h => rw [h] at hdue; have := hdue (.inr (.inl ⟨p, t, rfl⟩)); simp only [watchBy] at this ⊢; omega
      | sleeps => simp [Busy] at hbusy
      | overflows => simp [Busy] at hbusy
      | wakes _ p w h => have := hsl p w h; have := hsl' p w h; simp only [watchBy]; omega
      | interrupted _ p w h => have := hsl p w h; have := hsl' p w h; simp only [watchBy]; omega
      | cancelled => simp [Busy] at hbusy
      | kill => simp [Busy] at hbusy
    · by_cases he : (σ.state (i + 1)).watch = (σ.state i).watch
      · rw [hst, he]
        exact (h.watch (he ▸ hbusy)).extend ha he
      · refine .fresh ?_ rfl
        have hdue := h.mainDue hp hu
        have hnow : σ.act i = .main → (σ.state (i + 1)).now = (σ.state i).now := fun h => main_now (h ▸ hs)
        rw [hst]
        have hu2 := hu'.2
        generalize σ.act i = a at hs ha hnow
        generalize σ.state (i + 1) = s' at hs hbusy he hnow hu2
        cases hs with
        | createOk _ h => simp only [h, mainBy, ne_eq, reduceCtorEq, not_false_eq_true, true_implies, watchBy] at hdue ⊢; omega
        | exits => exact absurd rfl (hu2 _).2
        | _ => first | exact absurd rfl he | exact absurd rfl ha
  · intro p w hw
    by_cases he : (σ.state i).watch = .asleep p w
    · rw [hst]; exact h.asleep p w he
    · have hdue := h.watchDue hp
      rw [hst]
      generalize σ.act i = a at hs
      generalize σ.state (i + 1) = s' at hs hw
      cases hs with
      | sleeps _ p' t n' hd hsec =>
        obtain ⟨_, rfl⟩ := hk.1 p' t (.inr hd)
        rw [hn] at hsec
        cases hsec
        rw [hd] at hdue
        have := hdue (.inr (.inr (.inl ⟨p', _, rfl⟩)))
        simp only [watchBy] at this
        cases hw
        omega
      | _ => first | exact absurd hw he | cases hw
  · intro hw t b hc
    by_cases hd : ∃ t b, (σ.state i).child = .ended t b
    · obtain ⟨t', b', hd⟩ := hd
      have hwi : Waits (σ.state i) := by
        generalize σ.act i = a at hs
        generalize σ.state (i + 1) = s' at hs hw hc
        clear hst hr hk hb' hu'
        unfold Waits at hw ⊢
        cases hs <;> simp_all
      obtain ⟨c, h1, h2, h3⟩ := h.child hwi t' b' hd
      refine ⟨c, by omega, by rw [hst]; exact h2, fun m m1 m2 => ?_⟩
      by_cases hmi : m = i + 1
      · rw [hmi]; exact ⟨t, b, hc⟩
      · exact h3 m m1 (by omega)
    · refine ⟨i + 1, Nat.le_refl _, ?_, fun m m1 m2 => by rw [show m = i + 1 by omega]; exact ⟨t, b, hc⟩⟩
      have hal := fun hw => h.alive hp ht hl hm hb hw (fun t b h => hd ⟨t, b, h⟩)
      rw [hst]
      have hn := hr.order.noneReaped
      have hnow : σ.act i ≠ .clock → (σ.state (i + 1)).now = (σ.state i).now ∧ (Waits (σ.state i)) := by
        intro ha
        generalize σ.act i = a at hs ha
        generalize σ.state (i + 1) = s' at hs hw hc
        clear hst hr hk hb' hu' hal
        unfold Waits at hw ⊢
        cases hs <;> simp_all
      by_cases ha : σ.act i = .clock
      · exfalso
        rw [ha] at hs
        generalize σ.state (i + 1) = s' at hs hc
        cases hs
        exact hd ⟨t, b, hc⟩
      · rw [(hnow ha).1]; exact hal (hnow ha).2

theorem onTime {n : Nat} (hp : Prompt σ d) (ht : k.timed) (hl : 1 ≤ k.limit) (hm : k.limit ≤ INT_MAX - 1000)
    (hn : sleepSeconds k.limit = .ok n) (hb : ∀ i, (σ.state i).badRead = false) (h0 : (σ.state 0).main = .init) :
    ∀ i, UnderWay (σ.state i) → OnTime σ (n * 1000000) d i := by
  intro i
  induction i with
  | zero => exact fun h => absurd h0 h.1
  | succ i ih =>
    intro hu
    have hs := σ.next i
    by_cases hi : (σ.state i).main = .init
    · have ho := (σ.reach i).order
      have hw := ho.noWatch (.inl hi)
      have hc := ho.noChild (.inl hi)
      have hx : (σ.state (i + 1)).main = .started ∧ (σ.state (i + 1)).watch = .absent ∧ (σ.state (i + 1)).start = (σ.state (i + 1)).now := by
        have h1 := hu.1
        generalize σ.act i = a at hs
        generalize σ.state (i + 1) = s' at hs h1
        cases hs <;> simp_all
      refine ⟨.fresh (by omega) rfl, fun h => ?_, fun p w h => ?_, fun h => ?_⟩
      · rw [hx.2.1] at h; simp [Busy] at h
      · rw [hx.2.1] at h; cases h
      · rw [Waits, hx.1] at h; simp at h
    · refine onTime_step (ih ⟨hi, fun r => ?_⟩) hp ht hl hm hn (hb i) (hb _) ⟨hi, fun r => ?_⟩ hu
      all_goals
        refine ⟨fun h => ?_, fun h => ?_⟩
        · rcases C43_stays_ended k _ _ r (.inl h) (.step .refl hs) with h | h
          · exact (hu.2 r).1 h
          · exact (hu.2 r).2 h
        · rcases C43_stays_ended k _ _ r (.inr h) (.step .refl hs) with h | h
          · exact (hu.2 r).1 h
          · exact (hu.2 r).2 h

/-- The end time is recorded in time. -/
theorem finish_due {n : Nat} (hp : Prompt σ d) (ht : k.timed) (hl : 1 ≤ k.limit) (hm : k.limit ≤ INT_MAX - 1000)
    (hn : sleepSeconds k.limit = .ok n) (hb : ∀ i, (σ.state i).badRead = false) (h0 : (σ.state 0).main = .init) (t : Termination) (b : Bool) :
    ∀ i, (σ.state i).main = .timed t b ∨ (σ.state i).main = .returned (.verdict t b) ∨ (σ.state i).main = .exited (.verdict t b) →
      (σ.state i).finish ≤ (σ.state i).start + n * 1000000 + 9 * d := by
  intro i
  induction i with
  | zero => simp [h0]
  | succ i ih =>
    intro hmi
    have hs := σ.next i
    have ht' := onTime hp ht hl hm hn hb h0 i
    generalize n * 1000000 = N at ih ht' ⊢
    have hdue := fun hu hw => (ht' hu).mainDue hp hu hw
    generalize σ.act i = a at hs
    generalize σ.state (i + 1) = s' at hs hmi
    cases hs with
    | recordEnd _ t' b' h =>
      have := hdue ⟨by simp [h], by simp [h]⟩ (by simp [h])
      simp only [h, mainBy] at this
      dsimp only
      omega
    | cancel _ t' b' h => simp only [reduceCtorEq, MainPc.returned.injEq, Ret.verdict.injEq, false_or, or_false] at hmi; exact ih (.inl (by rw [h, hmi.1, hmi.2]))
    | noCancel _ t' b' h => exact absurd ht ‹¬ k.timed›
    | exits _ r h => simp only [reduceCtorEq, MainPc.exited.injEq, false_or] at hmi; exact ih (.inr (.inl (by rw [h, hmi])))
    | tick => exact ih hmi
    | read => exact ih hmi
    | readDead => exact ih hmi
    | detachOk => exact ih hmi
    | detachFails => exact ih hmi
    | sleeps => exact ih hmi
    | overflows => exact ih hmi
    | wakes => exact ih hmi
    | interrupted => exact ih hmi
    | cancelled => exact ih hmi
    | kill => exact ih hmi
    | childEnds => exact ih hmi
    | childStops => exact ih hmi
    | childContinues => exact ih hmi
    | _ => simp at hmi

end

/-- C106, the part that holds: for limits up to INT_MAX - 1000 and schedules in which the watchdog got its arguments in time.  Missing: the late
read (C40) and the overflowing limits (C42). -/
theorem C106_returns_in_time_partial (k : Watchdog) (hl : RealLimitOk k.limit) (hm : k.limit ≤ INT_MAX - 1000) (σ : Schedule k) (d : Nat)
    (h0 : (σ.state 0).main = .init) (hp : Prompt σ d) (hb : ∀ i, (σ.state i).badRead = false) (i : Nat) :
    (UnderWay (σ.state i) → ((σ.state i).now : Int) ≤ (σ.state i).start + ms k.limit + 1000000 + 10 * d) ∧
    (∀ t b, (σ.state i).main = .returned (.verdict t b) ∨ (σ.state i).main = .exited (.verdict t b) →
      ((σ.state i).finish : Int) ≤ (σ.state i).start + ms k.limit + 1000000 + 9 * d) := by
  have h1 := hl.1
  have ht : k.timed := by unfold Watchdog.timed UNLIMITED; omega
  have hn := sleepSeconds_eq h1 hm
  unfold ms
  refine ⟨fun hu => ?_, fun t b hi => ?_⟩
  · have := (onTime hp ht h1 hm hn hb h0 i hu).due hp ht h1 hm (hb i) hu
    omega
  · have := finish_due hp ht h1 hm hn hb h0 t b i (.inr hi)
    omega

/-- C106, as reported: `real_time` exceeds the limit by at most a second, nine times `d`, and the rounding to milliseconds. -/
theorem C106_real_time_partial (c : Config) (prior : Result) (e : RunEnv) (k : Watchdog) (hl : RealLimitOk k.limit) (hm : k.limit ≤ INT_MAX - 1000)
    (σ : Schedule k) (d : Nat) (h0 : (σ.state 0).main = .init) (hp : Prompt σ d) (hb : ∀ i, (σ.state i).badRead = false) (i : Nat)
    (t : Termination) (b : Bool) (he : Matches c e k (σ.state i) t b) (hcpu : IsInt (micros e.usage.utime / 1000))
    (hfit : IsInt (millis e.finish - millis e.start)) :
    ∃ r effs, run c prior e = .returned r effs ∧ 1000 * r.realTime < ms c.maxRealTime + 1000000 + 9 * d + 1000 := by
  have h1 := (C106_returns_in_time_partial k hl hm σ d h0 hp hb i).2 t b he.returned
  obtain ⟨r, effs, hr, _, _, _, h4⟩ := C08_measurements c prior e k.pid t he.config he.completed hcpu hfit
  have h2 := he.start
  have h3 := he.finish
  rw [← he.limit]
  exact ⟨r, effs, hr, by omega⟩

/-- A schedule from the call of `run()` over the timeout to the return, in which nobody is ever late. -/
def promptStates : Nat → KState
  | 0 => ⟨0, 0, 0, .init, .absent, .none, false, false, [], false, false⟩
  | 1 => ⟨0, 0, 0, .started, .absent, .none, false, false, [], false, false⟩
  | 2 => ⟨0, 0, 0, .forked, .absent, .running, false, false, [], false, false⟩
  | 3 => ⟨0, 0, 0, .inBlock, .created, .running, false, true, [], false, false⟩
  | 4 => ⟨0, 0, 0, .inBlock, .ready 4242 2000, .running, false, true, [], false, false⟩
  | 5 => ⟨0, 0, 0, .waiting, .ready 4242 2000, .running, false, false, [], false, false⟩
  | 6 => ⟨0, 0, 0, .waiting, .detached 4242 2000, .running, false, false, [], false, false⟩
  | 7 => ⟨0, 0, 0, .waiting, .asleep 4242 3000000, .running, false, false, [], false, false⟩
  | 8 => ⟨3000000, 0, 0, .waiting, .asleep 4242 3000000, .running, false, false, [], false, false⟩
  | 9 => ⟨3000000, 0, 0, .waiting, .awake 4242, .running, false, false, [], false, false⟩
  | 10 => ⟨3000000, 0, 0, .waiting, .ended, .ended (.signaled 9 false) true, false, false, [⟨3000000, 4242, false⟩], false, false⟩
  | 11 => ⟨3000000, 0, 0, .waited (.signaled 9 false) true, .ended, .reaped, false, false, [⟨3000000, 4242, false⟩], false, false⟩
  | 12 => ⟨3000000, 0, 3000000, .timed (.signaled 9 false) true, .ended, .reaped, false, false, [⟨3000000, 4242, false⟩], false, false⟩
  | _ => ⟨3000000, 0, 3000000, .returned (.verdict (.signaled 9 false) true), .ended, .reaped, true, false, [⟨3000000, 4242, false⟩], false, true⟩

def promptActs : Nat → Actor
  | 3 | 5 | 6 | 8 | 9 => .watch
  | 0 | 1 | 2 | 4 | 10 | 11 | 12 => .main
  | _ => .clock

def promptSchedule : Schedule ⟨2000, 4242, false⟩ where
  state := promptStates
  act := promptActs
  first := .init 0
  next
    | 0 => .recordStart (promptStates 0) rfl
    | 1 => .forkOk (promptStates 1) rfl
    | 2 => .createOk (promptStates 2) rfl (by simp [Watchdog.timed, UNLIMITED])
    | 3 => .read (promptStates 3) rfl rfl
    | 4 => .leaveBlock (promptStates 4) rfl
    | 5 => .detachOk (promptStates 5) 4242 2000 rfl
    | 6 => .sleeps (promptStates 6) 4242 2000 3 rfl (by decide)
    | 7 => .tick (promptStates 7) 3000000
    | 8 => .wakes (promptStates 8) 4242 3000000 rfl (by decide) rfl
    | 9 => .kill (promptStates 9) 4242 rfl
    | 10 => .waitEnded (promptStates 10) (.signaled 9 false) true rfl rfl
    | 11 => .recordEnd (promptStates 11) (.signaled 9 false) true rfl
    | 12 => .cancel (promptStates 12) (.signaled 9 false) true rfl (by simp [Watchdog.timed, UNLIMITED])
    | n + 13 => .tick (promptStates (n + 13)) 0

/-- Non-vacuous: with a limit of 2 s the run takes exactly 3 s, on a machine without any delay: the second is not to be had for less. -/
theorem C106_sharp : (promptSchedule.state 0).main = .init ∧ Prompt promptSchedule 0 ∧ (∀ i, (promptSchedule.state i).badRead = false) ∧
    (promptSchedule.state 13).main = .returned (.verdict (.signaled 9 false) true) ∧
    ((promptSchedule.state 13).finish : Int) = (promptSchedule.state 13).start + ms 2000 + 1000000 := by
  have early : ∀ i, i ≤ 7 → (promptStates i).now = 0 := by
    intro i hi
    match i with
    | 0 | 1 | 2 | 3 | 4 | 5 | 6 | 7 => rfl
    | n + 8 => omega
  have late : ∀ i, (promptStates i).now ≤ 3000000 ∧ (8 ≤ i → (promptStates i).now = 3000000) := by
    intro i
    match i with
    | 0 | 1 | 2 | 3 | 4 | 5 | 6 | 7 => exact ⟨Nat.zero_le _, by omega⟩
    | 8 | 9 | 10 | 11 | 12 => exact ⟨Nat.le_refl _, fun _ => rfl⟩
    | n + 13 => exact ⟨Nat.le_refl _, fun _ => rfl⟩
  have go : ∀ i j, i ≤ j → (i ≤ 7 → 8 ≤ j → False) → (promptStates j).now ≤ (promptStates i).now + 0 := by
    intro i j hij h
    rcases Nat.lt_or_ge i 8 with hi | hi
    · rcases Nat.lt_or_ge j 8 with hj | hj
      · rw [early i (by omega), early j (by omega)]; exact Nat.le_refl _
      · exact (h (by omega) hj).elim
    · rw [(late i).2 hi, (late j).2 (by omega)]; exact Nat.le_refl _
  refine ⟨rfl, ⟨fun i j hij hc _ => go i j hij fun h1 h2 => ?_, fun i j hij hc _ => go i j hij fun h1 h2 => ?_, fun i p w h => ?_⟩, fun i => ?_, rfl, by decide⟩
  · have := hc 7 h1 (by omega)
    simp [promptSchedule, promptStates, MainCan] at this
  · have := hc 7 h1 (by omega)
    simp [promptSchedule, promptStates, WatchCan] at this
  · have h7 := (late i).1
    match i, h with
    | 7, h => cases h; exact h7
    | 8, h => cases h; exact h7
    | 0, h | 1, h | 2, h | 3, h | 4, h | 5, h | 6, h | 9, h | 10, h | 11, h | 12, h => cases h
    | n + 13, h => cases h
  · match i with
    | 0 | 1 | 2 | 3 | 4 | 5 | 6 | 7 | 8 | 9 | 10 | 11 | 12 => rfl
    | n + 13 => rfl

/-- Non-vacuous: that schedule matches a run of `run()`, which reports 3000 ms. -/
example : ∃ e : RunEnv, Matches sampleConfig e ⟨2000, 4242, false⟩ (promptSchedule.state 13) (.signaled 9 false) true ∧
    IsInt (micros e.usage.utime / 1000) ∧ IsInt (millis e.finish - millis e.start) ∧
    ∃ r effs, run sampleConfig (noResult 0) e = .returned r effs ∧ r.realTime = 3000 :=
  ⟨{ sampleEnv 9 with start := ⟨0, 0⟩, finish := ⟨3, 0⟩ },
    ⟨sampleConfig_ok, rfl, ⟨rfl, rfl, .inr rfl, rfl, by decide, rfl, by simp [Normal, sampleEnv], by simp [Normal], by simp [Normal]⟩, .inl rfl, rfl, rfl⟩,
    by decide, by decide, _, _, rfl, rfl⟩

/-- The start of a schedule in which the block of `killer_args` ends before the watchdog has read them; it reads another pid and a time that is over,
and has killed somebody else before the child has done anything. -/
def lateStates (limit : Int) : Nat → KState
  | 0 => ⟨0, 0, 0, .init, .absent, .none, false, false, [], false, false⟩
  | 1 => ⟨0, 0, 0, .started, .absent, .none, false, false, [], false, false⟩
  | 2 => ⟨0, 0, 0, .forked, .absent, .running, false, false, [], false, false⟩
  | 3 => ⟨0, 0, 0, .inBlock, .created, .running, false, true, [], false, false⟩
  | 4 => ⟨0, 0, 0, .waiting, .created, .running, false, false, [], false, false⟩
  | 5 => ⟨0, 0, 0, .waiting, .ready 1 (-1000), .running, false, false, [], true, false⟩
  | 6 => ⟨0, 0, 0, .waiting, .detached 1 (-1000), .running, false, false, [], true, false⟩
  | 7 => ⟨0, 0, 0, .waiting, .asleep 1 0, .running, false, false, [], true, false⟩
  | 8 => ⟨0, 0, 0, .waiting, .awake 1, .running, false, false, [], true, false⟩
  | n + 9 => ⟨n * (limit.toNat * 1000), 0, 0, .waiting, .ended, .running, false, false, [⟨0, 1, false⟩], true, false⟩

def lateActs : Nat → Actor
  | 4 | 5 | 6 | 7 | 8 => .watch
  | 0 | 1 | 2 | 3 => .main
  | _ => .clock

/-- After a late read `run()` is still under way at any time whatever, for every limit. -/
theorem C106_witness_late_read (limit : Int) (hl : RealLimitOk limit) (T : Nat) : ∃ (σ : Schedule ⟨limit, 4242, false⟩) (i : Nat),
    (σ.state 0).main = .init ∧ Prompt σ 0 ∧ UnderWay (σ.state i) ∧ (σ.state i).start = 0 ∧ T ≤ (σ.state i).now := by
  have ht : Watchdog.timed ⟨limit, 4242, false⟩ := by have := hl.1; simp only [Watchdog.timed, UNLIMITED]; omega
  let σ : Schedule ⟨limit, 4242, false⟩ :=
    { state := lateStates limit, act := lateActs, first := .init 0,
      next := fun i => match i with
        | 0 => .recordStart (lateStates limit 0) rfl
        | 1 => .forkOk (lateStates limit 1) rfl
        | 2 => .createOk (lateStates limit 2) rfl ht
        | 3 => .leaveBlock (lateStates limit 3) rfl
        | 4 => .readDead (lateStates limit 4) 1 (-1000) rfl rfl (by decide)
        | 5 => .detachOk (lateStates limit 5) 1 (-1000) rfl
        | 6 => .sleeps (lateStates limit 6) 1 (-1000) 0 rfl (by decide)
        | 7 => .wakes (lateStates limit 7) 1 0 rfl (Nat.le_refl _) rfl
        | 8 => by
          have h : lateStates limit 9 = { lateStates limit 8 with watch := .ended, child := killChild ⟨limit, 4242, false⟩ 1 true .running, kills := [⟨0, 1, false⟩] } := by
            simp [lateStates, killChild]
          rw [h]
          exact .kill (lateStates limit 8) 1 rfl
        | n + 9 => by
          have h : lateStates limit (n + 9 + 1) = { lateStates limit (n + 9) with now := (lateStates limit (n + 9)).now + limit.toNat * 1000 } := by
            simp [lateStates, Nat.succ_mul]
          rw [h]
          exact .tick _ _ }
  have early : ∀ i, i ≤ 9 → (lateStates limit i).now = 0 := by
    intro i hi
    match i with
    | 0 | 1 | 2 | 3 | 4 | 5 | 6 | 7 | 8 => rfl
    | 9 => simp [lateStates]
    | n + 10 => omega
  have quiet : ∀ i, 9 ≤ i → ¬MainCan (lateStates limit i) ∧ ¬WatchCan (lateStates limit i) := by
    intro i hi
    obtain ⟨n, rfl⟩ := Nat.exists_eq_add_of_le' hi
    simp [lateStates, MainCan, WatchCan]
  have go : ∀ i j, i ≤ j → (9 ≤ j → False) → (lateStates limit j).now ≤ (lateStates limit i).now + 0 := by
    intro i j hij h
    have := Nat.lt_of_not_le h
    rw [early j (by omega)]
    exact Nat.zero_le _
  refine ⟨σ, T + 9, rfl, ⟨fun i j hij hc _ => go i j hij fun h => ?_, fun i j hij hc _ => go i j hij fun h => ?_, fun i p w h => ?_⟩, ?_, rfl, ?_⟩
  · exact (quiet j h).1 (hc j hij (Nat.le_refl _))
  · exact (quiet j h).2 (hc j hij (Nat.le_refl _))
  · rcases Nat.lt_or_ge i 9 with hi | hi
    · show (lateStates limit i).now ≤ _
      rw [early i (by omega)]
      exact Nat.zero_le _
    · obtain ⟨n, rfl⟩ := Nat.exists_eq_add_of_le' hi
      cases h
  · simp [UnderWay, σ, lateStates]
  · show T ≤ T * (limit.toNat * 1000)
    have := hl.1
    exact Nat.le_mul_of_pos_right _ (by omega)

/-- C106 is false of the code. -/
theorem C106_false : ¬ C106_full := by
  intro h
  obtain ⟨σ, i, h0, hp, hu, hs, hT⟩ := C106_witness_late_read 1000 (by decide) 5000000
  have := (h _ (by decide) σ 0 h0 hp i).1 hu
  rw [hs] at this
  simp only [ms] at this
  omega

end Judger
