import Verif.Props.Signals
import Verif.Props.Starved
import Verif.Spec.StackUse

/-! # C139: the stack a program may use -/

set_option autoImplicit false

namespace Judger

open Judger.Spec

/-- C139, the full claim: the stack grows up to `max_stack`, and a program whose stack would grow further dies of SIGSEGV and is not accepted. -/
def C139_full : Prop :=
  (∀ (c : Config) (ce : ChildEnv) (p q : Proc) (space stack : Nat) (x : Climber), ConfigOk c → c.InRange → Started c ce p q → stack ≤ space →
    Climbs (Climber.start q space stack) x → ∀ o ∈ x.overflows, c.maxStack < 4096 * ((o.stack + o.wanted : Nat) : Int)) ∧
  (∀ (c : Config) (prior : Result) (ce : ChildEnv) (p q : Proc) (space stack : Nat) (x : Climber) (e : RunEnv) (pid : Nat) (t : Termination),
    ConfigOk c → c.InRange → Started c ce p q → stack ≤ space → Climbs (Climber.start q space stack) x → x.overflows ≠ [] → x.ended = some t →
    Completed c e pid t → (∃ core, t = .signaled 11 core) ∧ ∃ r effs, run c prior e = .returned r effs ∧ r.result ≠ 0)

/-- The limits stay as they are, and each overflow was one. -/
structure Climbed (s a : Int) (x : Climber) : Prop where
  stackLimit : x.stackLimit = s
  asLimit : x.asLimit = a
  overflows : ∀ o ∈ x.overflows, ¬(Fits s (o.stack + o.wanted) ∧ Fits a (o.space + o.wanted))

theorem climbed {s a : Int} {x y : Climber} (h : Climbs x y) (hx : Climbed s a x) : Climbed s a y := by
  induction h with
  | start => exact hx
  | call _ _ r _ hk ih => cases hk <;> exact ⟨ih.stackLimit, ih.asLimit, ih.overflows⟩
  | grows _ _ n _ ih => exact ⟨ih.stackLimit, ih.asLimit, ih.overflows⟩
  | overflows _ _ n core hn ih =>
    refine ⟨ih.stackLimit, ih.asLimit, fun o ho => ?_⟩
    rcases List.mem_cons.1 ho with rfl | ho
    · unfold Climber.CanGrow at hn
      rw [ih.stackLimit, ih.asLimit] at hn
      exact hn
    · exact ih.overflows o ho
  | dies _ _ sig core ih => exact ⟨ih.stackLimit, ih.asLimit, ih.overflows⟩

/-- C139, the part that holds of the room: growth within `max_stack` is refused only if it would make the address space larger than the limit on that: twice
`max_memory`, where it is in force, and otherwise what the judger's caller has.  Missing: that it is not refused then (`C139_witness_room`). -/
theorem C139_room_partial (c : Config) (ce : ChildEnv) (p q : Proc) (space stack : Nat) (x : Climber) (hc : ConfigOk c) (hr : c.InRange)
    (hs : Started c ce p q) (h : Climbs (Climber.start q space stack) x) (o : Overflow) (ho : o ∈ x.overflows) :
    c.maxStack < 4096 * ((o.stack + o.wanted : Nat) : Int) ∨
      (if c.memoryLimitCheckOnly ≠ 0 ∨ c.maxMemory = -1 then (p.limits .as).cur else 2 * c.maxMemory) < 4096 * ((o.space + o.wanted : Nat) : Int) := by
  have h1 := C14_limits c ce p q hc hr hs .stack
  have h2 := C14_limits c ce p q hc hr hs .as
  have h3 := (climbed h (s := (q.limits .stack).cur) (a := (q.limits .as).cur) ⟨rfl, rfl, by simp [Climber.start]⟩).overflows o ho
  simp only [wantedLimit] at h1 h2
  unfold Fits at h3
  rw [h1] at h3
  by_cases hm : c.memoryLimitCheckOnly ≠ 0 ∨ c.maxMemory = -1
  · rw [if_pos hm] at h2 ⊢
    rw [h2] at h3
    simp only at h3
    omega
  · rw [if_neg hm] at h2 ⊢
    rw [h2] at h3
    simp only at h3
    omega

/-- Under the C/C++ rules nothing can be done about SIGSEGV, and an overflow is the end. -/
structure Falls (exe : BitVec 64) (x : Climber) : Prop where
  filter : cCppFilter exe ∈ x.filters ∨ cCppFileIoFilter exe ∈ x.filters
  handled : x.handled = false
  overflows : x.overflows ≠ [] → ∃ core, x.ended = some (.signaled 11 core)

theorem falls {exe : BitVec 64} {x y : Climber} (h : Climbs x y) (hx : Falls exe x) : Falls exe y := by
  induction h with
  | start => exact hx
  | call _ he r ha hk ih =>
    have hal := cCppFileIoAnswer_allow (underCCpp_allow (w := sampleWorld _) ih.filter ha).2
    simp only [List.mem_cons, List.not_mem_nil, or_false] at hal
    have hno : ∀ {P : Prop}, _ ≠ [] → P := fun hr => by
      obtain ⟨core, hc⟩ := ih.overflows hr
      rw [he] at hc; cases hc
    cases hk with
    | plain => exact ih
    | maps n hr hn => exact ⟨ih.filter, ih.handled, hno⟩
    | unmaps n hr hn hs => exact ⟨ih.filter, ih.handled, hno⟩
    | handles b hr => omega
    | alternates b hr => omega
    | installs f hr => omega
    | execs sp st hr hs => exact ⟨ih.filter, rfl, hno⟩
    | exits code hr hc => exact ⟨ih.filter, ih.handled, hno⟩
  | grows _ he n _ ih => exact ⟨ih.filter, ih.handled, ih.overflows⟩
  | overflows _ _ n core hn ih => exact ⟨ih.filter, ih.handled, fun _ => ⟨core, by simp [ih.handled]⟩⟩
  | dies _ he sig core ih =>
    refine ⟨ih.filter, ih.handled, fun hr => ?_⟩
    obtain ⟨core, hc⟩ := ih.overflows hr
    rw [he] at hc; cases hc

/-- C139, the part that holds of the end: under `c_cpp` and `c_cpp_file_io` a program whose stack overflows dies of SIGSEGV there and then, and is reported with that
signal, as MEMORY_LIMIT_EXCEEDED if it used more than `max_memory` and otherwise as RUNTIME_ERROR.  Missing: other rules (`C139_witness_caught`). -/
theorem C139_end_partial (c : Config) (prior : Result) (ce : ChildEnv) (p q : Proc) (space stack : Nat) (x : Climber) (e : RunEnv) (pid : Nat) (t : Termination)
    (hc : ConfigOk c) (hs : Started c ce p q) (hn : c.seccompRuleName = some c!"c_cpp" ∨ c.seccompRuleName = some c!"c_cpp_file_io")
    (h : Climbs (Climber.start q space stack) x) (ho : x.overflows ≠ []) (ht : x.ended = some t) (hcomp : Completed c e pid t) :
    (∃ core, t = .signaled 11 core) ∧ ∃ r effs, run c prior e = .returned r effs ∧ r.error = 0 ∧ r.signal = 11 ∧
      r.result = if Exceeds c.maxMemory (usageOf e).memBytes then 3 else 4 := by
  have hf : cCppFilter ce.exeAddr ∈ q.filters ∨ cCppFileIoFilter ce.exeAddr ∈ q.filters := by
    have hp := C23_profile_enforced c ce p q hs
    rcases hn with hn | hn <;> rw [hn] at hp <;>
      rcases hp.2 with ⟨h1, h2⟩ | ⟨h1, h2⟩ | ⟨h1, h2⟩ | ⟨h1, h2⟩ | ⟨h1, h2⟩ <;>
      first
      | (rw [h2]; exact .inl List.mem_cons_self)
      | (rw [h2]; exact .inr List.mem_cons_self)
      | exact absurd h1 (by decide)
  obtain ⟨core, hcore⟩ := (falls h ⟨hf, rfl, by simp [Climber.start]⟩).overflows ho
  rw [ht] at hcore
  cases hcore
  refine ⟨⟨core, rfl⟩, ?_⟩
  obtain ⟨r, effs, h1, h2, h3⟩ := C04_verdict c prior e pid _ hc hcomp
  obtain ⟨r', effs', h1', _, h4⟩ := C07_signal_exit_code c prior e pid _ hc hcomp
  rw [h1] at h1'
  cases h1'
  exact ⟨r, effs, h1, h2, (h4 11 core rfl).2, by rw [h3]; rfl⟩

/-- The sample under `name`. -/
theorem sample_climber (name : CStr) (f : Filter) (hn : name ∈ profileNames) (hp : profileOf (sampleChild fun _ => false) name = some f) :
    ∃ q, Started (sampleAs name) (sampleChild fun _ => false) sampleProc q ∧
      Climber.start q 1000 33 = ⟨[f], 134217728, 16777216, 1000, 33, false, false, [], none⟩ := by
  obtain ⟨q, hq, hw⟩ := sample_writer name f (fun _ => false) hn hp
  refine ⟨q, hq, ?_⟩
  have hc : ConfigOk (sampleAs name) := by simp [ConfigOk, LimitOk, sampleAs, sampleConfig]
  have hr : (sampleAs name).InRange := by constructor <;> simp [sampleAs, sampleConfig, IsInt, IsLong, INT_MIN, INT_MAX, LONG_MIN, LONG_MAX]
  have h1 := C14_limits _ _ _ _ hc hr hq .stack
  have h2 := C14_limits _ _ _ _ hc hr hq .as
  have h3 : q.filters = [f] := by
    have := congrArg Writer.filters hw
    exact this
  replace h1 : q.limits .stack = ⟨16777216, 16777216⟩ := h1
  replace h2 : q.limits .as = ⟨134217728, 134217728⟩ := h2
  unfold Climber.start
  rw [h1, h2, h3]

/-- Growth within `max_stack` that is refused: a program that has mapped 130 of the 134 MB it may have wants 2 MB of its 16 MB of stack. -/
theorem C139_witness_room : ∃ q x, Started (sampleAs c!"c_cpp") (sampleChild fun _ => false) sampleProc q ∧ Climbs (Climber.start q 1000 33) x ∧
    ⟨32500, 33, 500⟩ ∈ x.overflows ∧ (4096 * (33 + 500) : Int) ≤ (sampleAs c!"c_cpp").maxStack ∧ x.ended = some (.signaled 11 true) := by
  obtain ⟨q, hq, hw⟩ := sample_climber c!"c_cpp" _ (by decide) rfl
  have hr : Climbs (Climber.start q 1000 33) ⟨[cCppFilter 0x7ffe1000], 134217728, 16777216, 32500, 33, false, false, [⟨32500, 33, 500⟩], some (.signaled 11 true)⟩ := by
    rw [hw]
    exact .overflows (.call (.start _) rfl (Req.mk' 9 [0, 0, 0, 0, 0, 0]) (by decide +kernel) (.maps _ _ 31500 (.inl rfl) (by unfold Spec.Fits; decide))) rfl 500 true
      (fun h => absurd h.2 (by unfold Spec.Fits; decide))
  exact ⟨q, _, hq, hr, List.mem_singleton.2 rfl, by decide, rfl⟩

/-- An overflow that is survived: under `general` a program sets a handler and an alternate stack, overflows its stack, and exits with 0; it is accepted. -/
theorem C139_witness_caught : ∃ q x, Started (sampleAs c!"general") (sampleChild fun _ => false) sampleProc q ∧ Climbs (Climber.start q 1000 33) x ∧
    x.overflows = [⟨1000, 33, 5000⟩] ∧ x.ended = some (.exited 0) ∧
    ∃ r effs, run (sampleAs c!"general") (noResult 0) (sampleEnv 0) = .returned r effs ∧ r.error = 0 ∧ r.result = 0 := by
  obtain ⟨q, hq, hw⟩ := sample_climber c!"general" _ (by decide) rfl
  have hr : Climbs (Climber.start q 1000 33) ⟨[generalFilter 0x7ffe1000 true], 134217728, 16777216, 1000, 33, true, true, [⟨1000, 33, 5000⟩], some (.exited 0)⟩ := by
    rw [hw]
    refine .call (.overflows (.call (.call (.start _) rfl (Req.mk' 13 [11, 0, 0, 8]) ?_ (.handles _ _ true rfl)) rfl (Req.mk' 131 [0, 0]) ?_
      (.alternates _ _ true rfl)) rfl 5000 true (fun h => absurd h.1 (by unfold Spec.Fits; decide))) rfl (Req.mk' 231 [0]) ?_ (.exits _ _ 0 (.inr rfl) (by decide)) <;>
      decide +kernel
  exact ⟨q, _, hq, hr, rfl, rfl, _, _, rfl, rfl, rfl⟩

/-- C139 is false of the code, on both counts. -/
theorem C139_false : ¬C139_full := by
  intro h
  obtain ⟨q, x, hq, hx, ho, hl, _⟩ := C139_witness_room
  have := h.1 _ _ _ q 1000 33 x (by simp [ConfigOk, LimitOk, sampleAs, sampleConfig])
    (by constructor <;> simp [sampleAs, sampleConfig, IsInt, IsLong, INT_MIN, INT_MAX, LONG_MIN, LONG_MAX]) hq (by decide) hx _ ho
  simp only at this
  omega

/-- `C139_end_partial` is not empty: the witness above is reported as RUNTIME_ERROR. -/
example : ∃ q x r effs, Started (sampleAs c!"c_cpp") (sampleChild fun _ => false) sampleProc q ∧ Climbs (Climber.start q 1000 33) x ∧
    run (sampleAs c!"c_cpp") (noResult 0) (sampleEnv (Termination.signaled 11 true).waitStatus) = .returned r effs ∧ r.signal = 11 ∧ r.result = 4 := by
  obtain ⟨q, x, hq, hx, ho, _, he⟩ := C139_witness_room
  obtain ⟨_, r, effs, h1, _, h2, h3⟩ := C139_end_partial (sampleAs c!"c_cpp") (noResult 0) _ _ q 1000 33 x (sampleEnv (Termination.signaled 11 true).waitStatus) 4242 _
    (by simp [ConfigOk, LimitOk, sampleAs, sampleConfig]) hq (.inl rfl) hx (fun h => by rw [h] at ho; cases ho) he
    ⟨rfl, rfl, .inr rfl, rfl, by decide, rfl, by simp [Normal, sampleEnv], by simp [Normal, sampleEnv], by simp [Normal, sampleEnv]⟩
  exact ⟨q, x, r, effs, hq, hx, h1, h2, h3⟩

end Judger
