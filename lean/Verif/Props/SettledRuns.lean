import Verif.Props.Settled
import Verif.Props.Blame
import Verif.Props.Peaks
import Verif.Props.Violation
import Verif.Props.Signals
import Verif.Props.Disc
import Verif.Props.Forged
import Verif.Props.Ordinary
import Verif.Props.Names
import Verif.Props.StackUse

/-!
# C88, C95, C100, C102, C103, C105, C110, C118, C122, C128 and C139 settled

Most of these are claims about whole judgings.  They are false of the code in general; here it is said for every configuration with which a program can be
started, by a caller under no filter of its own, exactly where they hold.
-/

set_option autoImplicit false

namespace Judger

open Judger.Spec

/-- Outside the two C/C++ rule sets clone3 gets through. -/
theorem clone3_passes {c : Config} {ce : ChildEnv} {p q : Proc} (hf : p.filters = []) (hs : Started c ce p q) (hw : ¬UnderWhitelist c) :
    evalAll q.filters (Req.mk' 435 [0x1000, 88]) = .allow := by
  refine others_pass hf hs hw _ rfl ?_ ?_ ?_ <;> intros <;> simp [generalAnswer, golangAnswer, nodeAnswer, Req.mk']

/-- C15, settled for a root caller without filters whose first two limits can be set: nothing overflows in the child exactly for the values up to INT_MAX - 1000. -/
theorem C15_exact (c : Config) (e : ChildEnv) (p : Proc) (hc : ConfigOk c) (hr : c.InRange) (hu : c.maxCpuTime ≠ -1) (hroot : p.uid.e = 0) (hflt : p.filters = [])
    (hs : e.fails (.rlimit .stack) = false) (ha : e.fails (.rlimit .as) = false) :
    (∀ q, childProcess c e p ≠ .stop .ub q) ↔ c.maxCpuTime ≤ 2147483647 - 1000 := by
  constructor
  · intro h
    refine Classical.byContradiction fun hn => ?_
    obtain ⟨q, hq⟩ := C15_top c e p (by omega) hroot hflt hs ha
    exact h q hq
  · exact fun h => (C15_cpu_seconds_partial c e p hc hr hu h).1

/-- The sample, and the same with the largest CPU time. -/
example : (∀ q, childProcess sampleConfig (sampleChild fun _ => false) sampleProc ≠ .stop .ub q) ∧
    ∃ q, childProcess { sampleConfig with maxCpuTime := 2147483647 } (sampleChild fun _ => false) sampleProc = .stop .ub q :=
  ⟨(C15_exact _ _ _ sampleConfig_ok sampleConfig_range (by decide) rfl rfl rfl rfl).2 (by decide), C15_top _ _ _ (by decide) rfl rfl rfl rfl⟩

/-- C88, settled: nothing is left running and all CPU time is reported, in every judging, exactly under the two C/C++ rule sets. -/
theorem C88_exact (c : Config) (ce : ChildEnv) (p q : Proc) (hc : ConfigOk c) (hs : Started c ce p q) (hf : p.filters = []) :
    (∀ prior e pid t F, Ended c e pid t F →
      ∃ r effs, run c prior e = .returned r effs ∧ (∀ m ∈ F.members, m.running = false) ∧ r.cpuTime = F.spent / 1000) ↔ UnderWhitelist c := by
  constructor
  · intro hall
    refine Classical.byContradiction fun hw => ?_
    have hd := sampleEnv_completed (.exited 0) (by simp [Termination.Valid])
    have hd' : Completed c (sampleEnv 0) 4242 (.exited 0) :=
      ⟨hd.root, hd.fork, .inr rfl, hd.wait, hd.valid, hd.status, hd.normUtime, hd.normStart, hd.normFinish⟩
    obtain ⟨F, hF, _, m, hm, hr⟩ := left_behind c ce p q hc hd' hs (clone3_passes hf hs hw) 0
    obtain ⟨_, _, _, h, _⟩ := hall (noResult 0) _ _ _ F hF
    rw [h m hm] at hr
    cases hr
  · exact fun hw prior e pid t F h => C88_accounted_partial c prior e pid t F h hw

/-- C103, settled: SYSTEM_ERROR means that the child could not be set up exactly under the two C/C++ rule sets (if the program can be started at all). -/
theorem C103_exact (c : Config) (hc : ConfigOk c) (hst : ∃ ce p q, Started c ce p q ∧ p.filters = []) :
    (∀ prior e t ce p r effs, Measured e t → Undisturbed c ce p t → run c prior e = .returned r effs → r.result = 5 →
      ∃ s q, Died c ce p s q ∧ Reports s t) ↔ UnderWhitelist c := by
  constructor
  · intro hall
    refine Classical.byContradiction fun hw => ?_
    obtain ⟨ce, p, q, hs, hf⟩ := hst
    have ha : evalAll q.filters (Req.mk' 234 [4242, 4242, 10]) = .allow := by
      refine others_pass hf hs hw _ rfl ?_ ?_ ?_ <;> intros <;> simp [generalAnswer, golangAnswer, nodeAnswer, Req.mk']
    have hm : Measured (sampleEnv 10) (.signaled 10 false) :=
      ⟨by decide, rfl, by simp [Normal, sampleEnv], by simp [Normal, sampleEnv], by simp [Normal, sampleEnv]⟩
    obtain ⟨r, effs, hr, _, hv⟩ := C04_verdict c (noResult 0) (sampleEnv 10) 4242 (.signaled 10 false) hc
      ⟨rfl, rfl, .inr rfl, rfl, hm.valid, hm.status, hm.normUtime, hm.normStart, hm.normFinish⟩
    have hu : Undisturbed c ce p (.signaled 10 false) := .program q (sampleWorld q.filters) _ hs rfl rfl
      (.signalled _ 10 4242 false ((Run.start _).call _ ha (.signalsThread _ _ rfl)) List.mem_cons_self)
    obtain ⟨s, q', ⟨h1, h2, _⟩, _⟩ := hall _ _ _ ce p r effs hm hu hr hv
    obtain ⟨path, argv, envp, hs⟩ := hs
    rw [hs] at h1
    cases h1
    exact h2 _ _ _ rfl
  · exact fun hw prior e t ce p r effs hm hu hr h5 => C103_not_the_program_partial c prior e t ce p r effs hw hm hu hr h5

/-- A run that takes no time, with this much memory. -/
def idleEnv (kib : Int) : RunEnv := { sampleEnv 0 with usage := ⟨⟨0, 0⟩, kib⟩, finish := (sampleEnv 0).start }

theorem idle_completed (c : Config) (kib : Int) : Completed c (idleEnv kib) 4242 (.exited 0) :=
  ⟨rfl, rfl, .inr rfl, rfl, by simp [Termination.Valid], rfl, by simp [Normal, idleEnv], by simp [Normal, idleEnv, sampleEnv],
    by simp [Normal, idleEnv, sampleEnv]⟩

theorem idle_accepted {c : Config} (prior : Result) (kib : Int) (hc : ConfigOk c) (hk : Within c.maxMemory (kib * 1024)) :
    AcceptedRun c prior (idleEnv kib) := by
  refine (accepted_iff hc (idle_completed _ _)).2 ⟨rfl, ?_, ?_, hk⟩
  · have h : (usageOf (idleEnv kib)).cpuMs = 0 := (by decide : (usageOf (idleEnv 0)).cpuMs = 0)
    have := hc.1; rw [h]; unfold Within; simp only [LimitOk] at this; omega
  · have h : (usageOf (idleEnv kib)).realMs = 0 := (by decide : (usageOf (idleEnv 0)).realMs = 0)
    have := hc.2.1; rw [h]; unfold Within; simp only [LimitOk] at this; omega

/-- C105, settled: a program one of whose calls was refused is never accepted exactly under the two C/C++ rule sets, or where nothing is refused. -/
theorem C105_exact (c : Config) (ce : ChildEnv) (p q : Proc) (hc : ConfigOk c) (hs : Started c ce p q) (hf : p.filters = []) :
    (∀ prior e pid t B r effs, Broke c pid t B → Measured e t → run c prior e = .returned r effs → ¬(r.error = 0 ∧ r.result = 0)) ↔
      c.seccompRuleName = none ∨ UnderWhitelist c := by
  constructor
  · intro hall
    refine Classical.byContradiction fun hno => ?_
    have hw : ¬UnderWhitelist c := fun h => hno (.inr h)
    have hn : c.seccompRuleName ≠ none := fun h => hno (.inl h)
    have hk : evalAll q.filters (Req.mk' 57 []) = .kill := by
      have hp := C23_profile_enforced c ce p q hs
      have one : ∀ f : Filter, f.eval (Req.mk' 57 []) = .kill → evalAll [f] (Req.mk' 57 []) = .kill := by
        intro f h
        show Action.min (f.eval _) .allow = .kill
        rw [h]
        rfl
      cases hname : c.seccompRuleName with
      | none => exact absurd hname hn
      | some name =>
        rw [hname] at hp
        rcases hp.2 with ⟨h, _⟩ | ⟨h, _⟩ | ⟨_, h⟩ | ⟨_, h⟩ | ⟨_, h⟩
        · exact absurd (.inl (by rw [hname, h])) hw
        · exact absurd (.inr (by rw [hname, h])) hw
        · rw [h, hf]; apply one; rw [general_eval _ _ rfl]; simp [generalAnswer, Req.mk']
        · rw [h, hf]; apply one; rw [golang_eval _ rfl]; simp [golangAnswer, Req.mk']
        · rw [h, hf]; apply one; rw [node_eval _ rfl]; simp [nodeAnswer, Req.mk']
    have h1 := Toils.start (pid := 4242) (fs := q.filters)
    have h2 := h1.spawns _ (Req.mk' 435 [0x1000, 88]) 4242 (List.mem_singleton.2 rfl) (by decide) (clone3_passes hf hs hw) (.inl rfl)
    have h3 := h2.refused [⟨4242, q.filters⟩] [] _ (Req.mk' 57 []) rfl hk ⟨_, List.mem_singleton.2 rfl, rfl⟩
    have h4 := h3.ends _ (.exited 0) (List.mem_singleton.2 rfl) trivial
    obtain ⟨r, effs, hr, he⟩ := idle_accepted (noResult 0) 0 hc (by have := hc.2.2.1; unfold Within; simp only [LimitOk] at this; omega)
    have hd := idle_completed c 0
    exact hall _ _ _ _ _ r effs ⟨hn, ⟨_, _, q, hs, h4⟩, List.mem_cons_self, rfl⟩
      ⟨hd.valid, hd.status, hd.normUtime, hd.normStart, hd.normFinish⟩ hr he
  · rintro (hn | hw) prior e pid t B r effs hb hm hr
    · exact absurd hn hb.rules
    · refine (C105_not_accepted_partial c prior e pid t B r effs hb ?_ hm hr).2.1
      rcases hw with hw | hw
      · exact .inl hw
      · exact .inr (.inl hw)

/-- C110, settled: with a limit on memory of a page at least, an accepted program and its descendants together never had more exactly under the two C/C++ rule sets. -/
theorem C110_exact (c : Config) (ce : ChildEnv) (p q : Proc) (hc : ConfigOk c) (hs : Started c ce p q) (hf : p.filters = []) (hm : 4096 ≤ c.maxMemory) :
    (∀ prior e pid t setup T, Weighed c e pid t setup T → AcceptedRun c prior e → Within c.maxMemory (T.most * 1024 : Int)) ↔ UnderWhitelist c := by
  constructor
  · intro hall
    refine Classical.byContradiction fun hw => ?_
    obtain ⟨k, hk⟩ : ∃ k : Nat, (k : Int) = c.maxMemory / 1024 := ⟨(c.maxMemory / 1024).toNat, by omega⟩
    have h1 := Swells.start (Troop.initial 4242 1 0 q.filters)
    have h2 := Swells.forks h1 _ (Req.mk' 435 [0x1000, 88]) 4243 0 (List.mem_singleton.2 rfl) rfl (by decide) (clone3_passes hf hs hw)
      (by intro y hy; rw [List.mem_singleton.1 hy]; simp) (by simp)
    have h3 := Swells.uses [] _ _ _ k h2 rfl
    have h4 := Swells.uses [_] [] _ _ k h3 rfl
    have h5 := Swells.ends [_] [] _ _ h4
    have h6 := Swells.waits h5 [] [] _ _ (List.Perm.swap _ _ _) rfl rfl rfl
    have h7 := Swells.ends [] [] _ _ h6
    have := hall (noResult 0) (idleEnv k) 4242 (.exited 0) 0 _
      ⟨hc, ⟨_, _, _, 1, 0, hs, h7⟩, ⟨_, List.mem_singleton.2 rfl, rfl, rfl, by simp [Mate.reported, idleEnv]⟩, idle_completed _ _,
        (by decide : IsInt (micros (idleEnv 0).usage.utime / 1000)), (by decide : IsInt (millis (idleEnv 0).finish - millis (idleEnv 0).start))⟩
      (idle_accepted _ _ hc (by unfold Within; omega))
    simp [held, Troop.initial, Within] at this
    omega
  · exact fun hw prior e pid t setup T h => (C110_together_partial c prior e pid t setup T h hw).1

/-- C122, settled: where there is a free name that the program's user may use and a file to lead it to, no name can be made to lead to another existing file
exactly under the two C/C++ rule sets. -/
theorem C122_exact (c : Config) (ce : ChildEnv) (p q : Proc) (may : CStr → Prop) (d : Names) (n : Nat) (hs : Started c ce p q) (hf : p.filters = [])
    (name target : CStr) (i : Nat) (hm : may name) (hd : d name = none) (ht : Denotes d target i) (hi : i < n) :
    (∀ u, Renames may ⟨d, n, [q.filters]⟩ u → ∀ path i, Denotes u.names path i → i < n → Denotes d path i) ↔ UnderWhitelist c := by
  constructor
  · intro hall
    refine Classical.byContradiction fun hw => ?_
    have ha : evalAll q.filters (Req.mk' 88 [0x1000, 0x2000]) = .allow := by
      refine others_pass hf hs hw _ rfl ?_ ?_ ?_ <;> intros <;> simp [generalAnswer, golangAnswer, nodeAnswer, Req.mk']
    have hr := Renames.links (may := may) (.start ⟨d, n, [q.filters]⟩) _ (List.mem_singleton.2 rfl) (Req.mk' 88 [0x1000, 0x2000])
      (.inr (.inl rfl)) ha name target hm hd
    have keep : ∀ {m : CStr} {j : Nat}, Denotes d m j → Denotes (d.put name (some (.link target))) m j := by
      intro m j h
      have hne : ∀ {m : CStr} {e : Spec.Entry}, d m = some e → d.put name (some (.link target)) m = some e := fun {m e} hm => by
        unfold Names.put
        rw [if_neg (fun h => by rw [h, hd] at hm; cases hm)]
        exact hm
      induction h with
      | file m i h => exact .file m i (hne h)
      | link m t i h _ ih => exact .link m t i (hne h) ih
    have := hall _ hr name i (.link _ target _ (by simp [Names.put]) (keep ht)) hi
    cases this with
    | file _ _ h => rw [hd] at h; cases h
    | link _ _ _ h _ => rw [hd] at h; cases h
  · exact fun hw u hu => (C122_c_cpp_partial c ce p q may d n u hw hs hu).1

/-- C139, settled as to the end: a program whose stack overflows ends by SIGSEGV and is not accepted exactly under the two C/C++ rule sets. -/
theorem C139_end_exact (c : Config) (ce : ChildEnv) (p q : Proc) (hc : ConfigOk c) (hr : c.InRange) (hs : Started c ce p q) (hf : p.filters = []) :
    (∀ prior space stack x e pid t, stack ≤ space → Climbs (Climber.start q space stack) x → x.overflows ≠ [] → x.ended = some t → Completed c e pid t →
      (∃ core, t = .signaled 11 core) ∧ ∃ r effs, run c prior e = .returned r effs ∧ r.result ≠ 0) ↔ UnderWhitelist c := by
  constructor
  · intro hall
    refine Classical.byContradiction fun hw => ?_
    have pass : ∀ r : Req, r.native = true → r.nr = 13 ∨ r.nr = 131 ∨ r.nr = 231 → evalAll q.filters r = .allow := by
      intro r hn h
      refine others_pass hf hs hw _ hn ?_ ?_ ?_ <;> intros <;> rcases h with h | h | h <;> simp [generalAnswer, golangAnswer, nodeAnswer, h]
    have hl := C14_limits c ce p q hc hr hs .stack
    simp only [wantedLimit] at hl
    have h1 := Climbs.call (.start (Climber.start q 1000 33)) rfl (Req.mk' 13 [11, 0, 0, 8]) (pass _ rfl (.inl rfl)) (.handles _ _ true rfl)
    have h2 := Climbs.call h1 rfl (Req.mk' 131 [0, 0]) (pass _ rfl (.inr (.inl rfl))) (.alternates _ _ true rfl)
    have h3 := Climbs.overflows h2 rfl c.maxStack.toNat true (fun h => by
      have h4 := h.1
      unfold Spec.Fits at h4
      simp only [Climber.start, hl] at h4
      have := hc.2.2.2.2.2
      omega)
    have h5 := Climbs.call h3 rfl (Req.mk' 231 [0]) (pass _ rfl (.inr (.inr rfl))) (.exits _ _ 0 (.inr rfl) (by decide))
    obtain ⟨⟨core, h⟩, _⟩ := hall (noResult 0) 1000 33 _ (idleEnv 0) 4242 (.exited 0) (by decide) h5 (by simp) rfl (idle_completed _ _)
    cases h
  · intro hw prior space stack x e pid t _ h ho ht hcomp
    obtain ⟨h1, r, effs, hr, _, _, hres⟩ := C139_end_partial c prior ce p q space stack x e pid t hc hs hw h ho ht hcomp
    refine ⟨h1, r, effs, hr, ?_⟩
    rw [hres]
    split <;> decide

/-- A run that takes nothing and ends with exit code 1. -/
def failEnv : RunEnv := { idleEnv 0 with status := 256 }

/-- What `run()` stores for it. -/
def failResult : Result := ⟨0, 0, 0, 0, 1, 0, 4⟩

/-- Where clone3 gets through, a process can be left behind by a program that fails with exit code 1, whatever the limits are. -/
theorem fails_leaving {c : Config} {ce : ChildEnv} {p q : Proc} (hc : ConfigOk c) (hs : Started c ce p q)
    (ha : evalAll q.filters (Req.mk' 435 [0x1000, 88]) = .allow) (prior : Result) :
    ∃ F effs, Ended c failEnv 4242 (.exited 1) F ∧ (∃ m ∈ F.members, m.running = true) ∧ run c prior failEnv = .returned failResult effs := by
  have h1 := Lives.start ⟨[⟨4242, 1, true, 0, 0, q.filters⟩], 0⟩
  have h3 := Lives.forks h1 _ (Req.mk' 435 [0x1000, 88]) 4243 (List.mem_singleton.2 rfl) rfl (by decide) ha
    (by intro x hx; rw [List.mem_singleton.1 hx]; simp)
  have h4 := Lives.ends h3 _ (List.mem_append_left _ (List.mem_singleton.2 rfl))
  have hd : Completed c failEnv 4242 (.exited 1) :=
    ⟨rfl, rfl, .inr rfl, rfl, by simp [Termination.Valid], rfl, by simp [Normal, failEnv, idleEnv], by simp [Normal, failEnv, idleEnv, sampleEnv],
      by simp [Normal, failEnv, idleEnv, sampleEnv]⟩
  obtain ⟨r, effs, hr, he, hv⟩ := C04_verdict c prior failEnv 4242 (.exited 1) hc hd
  obtain ⟨r', effs', hr', hx, _⟩ := C07_signal_exit_code c prior failEnv 4242 (.exited 1) hc hd
  rw [hr] at hr'
  cases hr'
  obtain ⟨r', effs', hr', hm, _, ht1, ht2⟩ := C08_measurements c prior failEnv 4242 (.exited 1) hc hd (by decide) (by decide)
  rw [hr] at hr'
  cases hr'
  have hm := hm (by simp)
  have hx := hx 1 rfl
  have hv4 : r.result = 4 := by
    have hcpu : (usageOf failEnv).cpuMs = 0 := by decide
    have hreal : (usageOf failEnv).realMs = 0 := by decide
    have hmem : (usageOf failEnv).memBytes = 0 := by decide
    rw [hv]
    have := hc.1; have := hc.2.1; have := hc.2.2.1
    simp only [LimitOk] at *
    simp only [verdict, Exceeds, hcpu, hreal, hmem]
    rw [if_neg (by omega), if_neg (by omega), if_neg (by omega), if_neg (by simp)]
  refine ⟨_, effs, ⟨hc, ⟨_, _, _, 1, hs, h4⟩, ⟨⟨4242, 1, false, 0, 0, q.filters⟩, by simp [Family.update], rfl, rfl, rfl⟩, hd, by simp, by decide,
    by decide⟩, ⟨⟨4243, 4242, true, 0, 0, q.filters⟩, by simp [Family.update], rfl⟩, ?_⟩
  rw [hr]
  have e1 : (micros failEnv.finish - micros failEnv.start) = 0 := by decide
  have e2 : micros failEnv.usage.utime / 1000 = 0 := by decide
  have e3 : 1024 * failEnv.usage.maxrss = 0 := by decide
  rw [e1] at ht1 ht2
  rw [e2, e3] at hm
  obtain ⟨a, b, d, f, g, h, k⟩ := r
  simp only at *
  obtain ⟨rfl, rfl⟩ := hm
  obtain ⟨rfl, rfl⟩ := hx
  subst he hv4
  have : b = 0 := by omega
  subst this
  rfl

/-- C100, settled: what the Node binding returns is what `run()` found, whatever is printed, exactly under the two C/C++ rule sets. -/
theorem C100_exact (c : Config) (ce : ChildEnv) (p q : Proc) (hc : ConfigOk c) (hs : Started c ce p q) (hf : p.filters = []) :
    (∀ prior e pid t F r effs early late printed v, Ended c e pid t F → run c prior e = .returned r effs → (late ≠ [] → ∃ m ∈ F.members, m.running = true) →
      Node.finish (early ++ (resultText r ++ late)) = .returns printed v → ∀ m ∈ sevenMembers r, v.get m.1 = some (.num (showInt m.2))) ↔ UnderWhitelist c := by
  constructor
  · intro hall
    refine Classical.byContradiction fun hw => ?_
    obtain ⟨F, effs, hF, hm, hr⟩ := fails_leaving hc hs (clone3_passes hf hs hw) (noResult 0)
    have ht : resultText failResult = c!"{\n    \"cpu_time\": 0,\n    \"real_time\": 0,\n    \"memory\": 0,\n    \"signal\": 0,\n    \"exit_code\": 1,\n    \"error\": 0,\n    \"result\": 4\n}" := by
      simp [resultText, failResult, showInt, showNat, digitChar]
    have hfin : Node.finish (resultText failResult ++ resultText (noResult 0)) = .returns (resultText failResult) (.ofInts (sevenMembers (noResult 0))) :=
      C62_result_found_partial _ _ (resultText_noNul _) (by rw [ht, forged_text]; decide +kernel)
    have := hall _ _ _ _ F _ effs [] (resultText (noResult 0)) _ (.ofInts (sevenMembers (noResult 0))) hF hr (fun _ => hm)
      (by rw [List.nil_append]; exact hfin) (c!"result", 4) (by simp [sevenMembers, failResult])
    have h4 : (JsonText.Value.ofInts (sevenMembers (noResult 0))).get c!"result" = some (.num (showInt 0)) := ofInts_get (c!"result", 0) (by simp [sevenMembers, noResult])
    rw [h4] at this
    simp [showInt, showNat, digitChar] at this
  · exact fun hw prior e pid t F r effs early late printed v h hr hl hn => C100_unforgeable_partial c prior e pid t F r effs early late printed v h hw hr hl hn

/-- C102, settled: what the Python binding returns is what `run()` found, whatever is printed, exactly under the two C/C++ rule sets. -/
theorem C102_exact (c : Config) (ce : ChildEnv) (p q : Proc) (hc : ConfigOk c) (hs : Started c ce p q) (hf : p.filters = []) :
    (∀ prior e pid t F r effs early late err v, Ended c e pid t F → run c prior e = .returned r effs → (late ≠ [] → ∃ m ∈ F.members, m.running = true) →
      Py.finish (early ++ (resultText r ++ late)) err = .value v → v = .ofInts (sevenMembers r)) ↔ UnderWhitelist c := by
  constructor
  · intro hall
    refine Classical.byContradiction fun hw => ?_
    obtain ⟨F, effs, hF, hm, hr⟩ := fails_leaving hc hs (clone3_passes hf hs hw) (noResult 0)
    have := hall _ _ _ _ F _ effs c!"{\"a\":" (',' :: JsonText.lines (sevenMembers (noResult 0))) []
      (.obj ((c!"a", .ofInts (sevenMembers failResult)) :: JsonText.shown (sevenMembers (noResult 0)))) hF hr (fun _ => hm)
      (finish_value.2 ⟨rfl, forged_utf8 failResult (noResult 0), forged_dict failResult (noResult 0)⟩)
    have h6 := (last_accepted (r := noResult 0) (List.suffix_cons (c!"a", JsonText.Value.ofInts (sevenMembers failResult)) _)).2 ⟨rfl, rfl⟩
    rw [this] at h6
    exact absurd ((last_accepted (List.suffix_refl _)).1 h6) (by decide)
  · exact fun hw prior e pid t F r effs early late err v h hr hl hn => C102_unforgeable_partial c prior e pid t F r effs early late err v h (.inl hw) hr hl hn

/-- C128, settled: an ordinary action of a program passes with all its calls outside the two C/C++ rule sets, and there exactly if it is none of those that are stopped. -/
theorem C128_exact (c : Config) (e : ChildEnv) (p q : Proc) (d : Deed) (hp : p.filters = []) (hs : Started c e p q) :
    (∀ r, d.Makes r → evalAll q.filters r = .allow) ↔ ¬UnderWhitelist c ∨ d.stopped = false := by
  by_cases hw : UnderWhitelist c
  · rw [C128_c_cpp_partial c e p q d hp hs hw]
    exact ⟨.inr, fun h => h.resolve_left fun hn => hn hw⟩
  · exact ⟨fun _ => .inl hw, fun _ r hr => C128_others_partial c e p q d r hp hs ⟨fun h => hw (.inl h), fun h => hw (.inr h)⟩ hr⟩

/-- write and exit_group pass under every rule set and without one. -/
theorem plain_pass {c : Config} {ce : ChildEnv} {p q : Proc} (hf : p.filters = []) (hs : Started c ce p q) (r : Req) (hr : r.native = true)
    (hn : r.nr = 1 ∨ r.nr = 231) : evalAll q.filters r = .allow := by
  by_cases hw : UnderWhitelist c
  · have hp := C23_profile_enforced c ce p q hs
    rcases hw with hw | hw <;> rw [hw] at hp <;> rcases hp.2 with ⟨h1, h2⟩ | ⟨h1, h2⟩ | ⟨h1, h2⟩ | ⟨h1, h2⟩ | ⟨h1, h2⟩ <;>
      first
      | exact absurd h1 (by decide)
      | (rw [h2, hf, evalAll_one, cCpp_eval _ hr]; rcases hn with hn | hn <;> simp [cCppAnswer, hn])
      | (rw [h2, hf, evalAll_one, cCppFileIo_eval _ hr]; rcases hn with hn | hn <;> simp [cCppFileIoAnswer, cCppAnswer, hn])
  · refine others_pass hf hs hw _ hr ?_ ?_ ?_ <;> intros <;> rcases hn with hn | hn <;> simp [generalAnswer, golangAnswer, nodeAnswer, hn]

/-- C95, settled for writes that are refused: output beyond the limit that was refused is never accepted exactly under the two C/C++ rule sets with a caller that
neither ignores nor blocks SIGXFSZ. -/
theorem C95_refused_exact (c : Config) (ce : ChildEnv) (p q : Proc) (hc : ConfigOk c) (hr : c.InRange) (hs : Started c ce p q) (hf : p.filters = [])
    (ho : c.maxOutputSize ≠ -1) :
    (∀ prior w e pid t, Wrote (Writer.start q) w → w.refused = true → w.ended = some t → Completed c e pid t →
      ∃ r effs, run c prior e = .returned r effs ∧ r.result ≠ 0) ↔ UnderWhitelist c ∧ p.ignored 25 = false ∧ p.blocked 25 = false := by
  have hsig := C95_signals_inherited c ce p q hs
  constructor
  · intro hall
    have hl := C14_limits c ce p q hc hr hs .fsize
    simp only [wantedLimit, ho, if_false] at hl
    have hpos : 1 ≤ c.maxOutputSize := by have := hc.2.2.2.2.1; simp only [LimitOk] at this; omega
    have key : ∀ w, Wrote (Writer.start q) w → w.filters = q.filters → w.limit = q.limits .fsize → w.pos = 0 → w.ended = none → w.diesOfXfsz = false → False := by
      intro w hw h1 h2 h3 h4 h5
      have a1 := Wrote.call hw h4 (Req.mk' 1 [1, 0, 1]) (by rw [h1]; exact plain_pass hf hs _ rfl (.inl rfl))
        (.whole _ _ c.maxOutputSize.toNat (.inl rfl) (by rw [h2, h3, hl]; simp only; omega))
      have a2 := Wrote.call a1 h4 (Req.mk' 1 [1, 0, 1]) (by rw [h1]; exact plain_pass hf hs _ rfl (.inl rfl))
        (.refused _ _ 1 true (.inl rfl) (by decide) (by simp only [h2, h3, hl]; omega))
      have a3 := Wrote.call a2 (by
          have : ({ w with pos := w.pos + c.maxOutputSize.toNat } : Writer).diesOfXfsz = false := h5
          simp only [this]; exact h4)
        (Req.mk' 231 [0]) (by rw [h1]; exact plain_pass hf hs _ rfl (.inr rfl)) (.exits _ _ 0 (.inr rfl) (by decide))
      obtain ⟨r, effs, h6, h7⟩ := hall (noResult 0) _ (idleEnv 0) 4242 (.exited 0) a3 rfl rfl (idle_completed _ _)
      obtain ⟨r', effs', h8, _, h9⟩ := idle_accepted (noResult 0) 0 hc (by have := hc.2.2.1; unfold Within; simp only [LimitOk] at this; omega)
      rw [h6] at h8
      cases h8
      exact h7 h9
    refine ⟨Classical.byContradiction fun hw => ?_, ?_, ?_⟩
    · have ha : evalAll q.filters (Req.mk' 13 [25, 0, 0, 8]) = .allow := by
        refine others_pass hf hs hw _ rfl ?_ ?_ ?_ <;> intros <;> simp [generalAnswer, golangAnswer, nodeAnswer, Req.mk']
      exact key _ (.call (.start _) rfl (Req.mk' 13 [25, 0, 0, 8]) ha (.acts _ _ (· == 25) (fun _ => false) rfl)) rfl rfl rfl rfl rfl
    · cases h : p.ignored 25 with
      | false => rfl
      | true => exact (key _ (.start _) rfl rfl rfl rfl (by simp [Writer.diesOfXfsz, Writer.start, hsig.1, h])).elim
    · cases h : p.blocked 25 with
      | false => rfl
      | true => exact (key _ (.start _) rfl rfl rfl rfl (by simp [Writer.diesOfXfsz, Writer.start, hsig.2, h])).elim
  · rintro ⟨hw, hi, hb⟩ prior w e pid t h1 h2 h3 h4
    obtain ⟨_, r, effs, h5, _, h6, _⟩ := C95_refused_partial c prior ce p q w e pid t hc hs hw hi hb h1 h2 h3 h4
    exact ⟨r, effs, h5, h6⟩

/-- C118, settled: what the program and its descendants store in files has a bound exactly under `c_cpp`. -/
theorem C118_exact (core : Nat) (c : Config) (ce : ChildEnv) (p q : Proc) (h : Judging c q) (hs : Started c ce p q) (hf : p.filters = []) (ho : c.maxOutputSize ≠ -1) :
    (∃ B : Int, ∀ k fs, Stores core ⟨[⟨q, writableFiles q⟩], fun _ => 0, 0⟩ k → fs.Nodup → (grownBy (fun _ => 0) k.size fs : Int) ≤ B) ↔
      c.seccompRuleName = some c!"c_cpp" := by
  constructor
  · rintro ⟨B, hB⟩
    refine Classical.byContradiction fun hn => ?_
    have ha : ∃ r, MayOpen r ∧ evalAll q.filters r = .allow := by
      by_cases hw : UnderWhitelist c
      · have hp := C23_profile_enforced c ce p q hs
        have hw := hw.resolve_left hn
        rw [hw] at hp
        rcases hp.2 with ⟨h1, h2⟩ | ⟨h1, h2⟩ | ⟨h1, h2⟩ | ⟨h1, h2⟩ | ⟨h1, h2⟩ <;>
          first
          | exact absurd h1 (by decide)
          | (refine ⟨Req.mk' 257 [0, 0x1000, 1, 0], .inr (.inr (.inl ⟨rfl, by decide⟩)), ?_⟩
             rw [h2, hf, evalAll_one, cCppFileIo_eval _ rfl]; simp [cCppFileIoAnswer, Req.mk'])
      · refine ⟨Req.mk' 437 [0, 0x1000, 0x2000, 24], .inr (.inr (.inr ⟨by decide, by decide, by decide⟩)), ?_⟩
        refine others_pass hf hs hw _ rfl ?_ ?_ ?_ <;> intros <;> simp [generalAnswer, golangAnswer, nodeAnswer, Req.mk']
    obtain ⟨r, hr, ha⟩ := ha
    have hl := C14_limits c ce p q h.ok h.range hs .fsize
    simp only [wantedLimit, ho, if_false] at hl
    have hpos : 1 ≤ c.maxOutputSize := by have := h.ok.2.2.2.2.1; simp only [LimitOk] at this; omega
    obtain ⟨k, files, hk, _, hz⟩ := many_files (core := core) hr ha 1 (by rw [hl]; exact hpos) (B.toNat + 1)
    have hnd : ((List.range (B.toNat + 1)).map nameOf).Nodup := List.Pairwise.map _ (fun a b hne h => hne (nameOf_inj h)) List.nodup_range
    have hg : ∀ l : List CStr, (∀ f ∈ l, f ∈ (List.range (B.toNat + 1)).map nameOf) → grownBy (fun _ => 0) k.size l = l.length := by
      intro l
      induction l with
      | nil => intro _; rfl
      | cons a l ih =>
        intro hl
        have h1 := ih fun f hf => hl f (List.mem_cons_of_mem _ hf)
        have h2 := hz a
        rw [if_pos (hl a List.mem_cons_self)] at h2
        unfold grownBy at *
        rw [List.map_cons, List.sum_cons, h1, h2, List.length_cons]
        dsimp only
        omega
    have := hB k _ hk hnd
    rw [hg _ fun f hf => hf] at this
    simp at this
    omega
  · intro hn
    exact ⟨_, fun k fs hk hfs => (C118_each_partial core c ce p q (fun _ => 0) k (writableFiles q) fs h hs hn ho (fun _ h => h) hk hfs).1⟩

/-- The sample under `node`, where C105 and C88 fail; below, under `c_cpp`, where C110 and C103 hold. -/
example : ¬(∀ prior e pid t B r effs, Broke { sampleConfig with seccompRuleName := some c!"node" } pid t B → Measured e t →
    run { sampleConfig with seccompRuleName := some c!"node" } prior e = .returned r effs → ¬(r.error = 0 ∧ r.result = 0)) ∧
    ¬(∀ prior e pid t F, Ended { sampleConfig with seccompRuleName := some c!"node" } e pid t F →
      ∃ r effs, run { sampleConfig with seccompRuleName := some c!"node" } prior e = .returned r effs ∧ (∀ m ∈ F.members, m.running = false) ∧
        r.cpuTime = F.spent / 1000) := by
  obtain ⟨q, hj, hs⟩ := sample_any (some c!"node") (fun n h => by cases h; simp [profileNames])
  exact ⟨fun h => absurd ((C105_exact _ _ _ q hj.ok hs rfl).1 h) (by simp [UnderWhitelist]),
    fun h => absurd ((C88_exact _ _ _ q hj.ok hs rfl).1 h) (by simp [UnderWhitelist])⟩

example (prior : Result) (e : RunEnv) (pid : Nat) (t : Termination) (setup : Nat) (T : Troop) (h : Weighed sampleConfig e pid t setup T)
    (ha : AcceptedRun sampleConfig prior e) : Within 67108864 (T.most * 1024 : Int) :=
  (C110_exact _ _ _ _ sampleConfig_ok sample_started rfl (by decide)).2 (.inl rfl) prior e pid t setup T h ha

example : (∀ prior e t ce p r effs, Measured e t → Undisturbed sampleConfig ce p t → run sampleConfig prior e = .returned r effs → r.result = 5 →
    ∃ s q, Died sampleConfig ce p s q ∧ Reports s t) :=
  (C103_exact _ sampleConfig_ok ⟨_, _, _, sample_started, rfl⟩).2 (.inl rfl)

/-- The sample: no stack overflow is survived, and no name made to lead elsewhere. -/
example (prior : Result) (x : Climber) (e : RunEnv) (pid : Nat) (t : Termination)
    (h : Climbs (Climber.start (stateAtExec sampleConfig (sampleChild fun _ => false) sampleProc) 1000 33) x) (ho : x.overflows ≠ []) (ht : x.ended = some t)
    (hcomp : Completed sampleConfig e pid t) : ∃ core, t = .signaled 11 core :=
  ((C139_end_exact _ _ _ _ sampleConfig_ok sampleConfig_range sample_started rfl).2 (.inl rfl) prior 1000 33 x e pid t (by decide) h ho ht hcomp).1

example (u : Tree) (h : Renames (· = c!"/next") ⟨sampleNames, 2, [(stateAtExec sampleConfig (sampleChild fun _ => false) sampleProc).filters]⟩ u) :
    ¬Denotes u.names c!"/next" 0 := fun hd => sample_undenoted
  ((C122_exact _ _ _ _ (· = c!"/next") sampleNames 2 sample_started rfl c!"/next" c!"/etc/passwd" 0 rfl (by decide) (.file _ _ rfl) (by decide)).2 (.inl rfl) u h _ _ hd (by decide))

/-- The sample: neither binding can be made to return anything else; under `golang` both can; and under `c_cpp` large blocks cannot be enlarged. -/
example (prior : Result) (e : RunEnv) (pid : Nat) (t : Termination) (F : Family) (r : Result) (effs : List Eff) (early late err : CStr) (v : JsonText.Value)
    (h : Ended sampleConfig e pid t F) (hr : run sampleConfig prior e = .returned r effs) (hl : late ≠ [] → ∃ m ∈ F.members, m.running = true)
    (hv : Py.finish (early ++ (resultText r ++ late)) err = .value v) : v = .ofInts (sevenMembers r) :=
  (C102_exact _ _ _ _ sampleConfig_ok sample_started rfl).2 (.inl rfl) prior e pid t F r effs early late err v h hr hl hv

example : ¬∀ prior e pid t F r effs early late printed v, Ended { sampleConfig with seccompRuleName := some c!"golang" } e pid t F →
    run { sampleConfig with seccompRuleName := some c!"golang" } prior e = .returned r effs → (late ≠ [] → ∃ m ∈ F.members, m.running = true) →
    Node.finish (early ++ (resultText r ++ late)) = .returns printed v → ∀ m ∈ sevenMembers r, v.get m.1 = some (.num (showInt m.2)) := by
  obtain ⟨q, hj, hs⟩ := sample_any (some c!"golang") (fun n h => by cases h; simp [profileNames])
  exact fun h => absurd ((C100_exact _ _ _ q hj.ok hs rfl).1 h) (by simp [UnderWhitelist])

example : ¬∀ r, Deed.enlarge.Makes r → evalAll (stateAtExec sampleConfig (sampleChild fun _ => false) sampleProc).filters r = .allow := by
  rw [C128_exact sampleConfig _ _ _ _ rfl sample_started]
  exact fun h => h.elim (fun hn => hn (.inl rfl)) (by decide)

/-- The sample: a refused write is never accepted, but is if the caller ignores SIGXFSZ; and what is stored is bounded, but not under `c_cpp_file_io`. -/
example (prior : Result) (w : Writer) (e : RunEnv) (pid : Nat) (t : Termination)
    (h : Wrote (Writer.start (stateAtExec sampleConfig (sampleChild fun _ => false) sampleProc)) w) (hr : w.refused = true) (ht : w.ended = some t)
    (hd : Completed sampleConfig e pid t) : ∃ r effs, run sampleConfig prior e = .returned r effs ∧ r.result ≠ 0 :=
  (C95_refused_exact _ _ _ _ sampleConfig_ok sampleConfig_range sample_started rfl (by decide)).2 ⟨.inl rfl, rfl, rfl⟩ prior w e pid t h hr ht hd

example : ∃ q, Started (sampleAs c!"c_cpp") (sampleChild fun _ => false) { sampleProc with ignored := (· == 25) } q ∧
    ¬∀ prior w e pid t, Wrote (Writer.start q) w → w.refused = true → w.ended = some t → Completed (sampleAs c!"c_cpp") e pid t →
      ∃ r effs, run (sampleAs c!"c_cpp") prior e = .returned r effs ∧ r.result ≠ 0 := by
  obtain ⟨q, hs, _⟩ := sample_writer c!"c_cpp" _ (· == 25) (by decide) rfl
  refine ⟨q, hs, fun h => ?_⟩
  have := ((C95_refused_exact _ _ _ q (by simp [ConfigOk, LimitOk, sampleAs, sampleConfig])
    (by constructor <;> simp [sampleAs, sampleConfig, IsInt, IsLong, INT_MIN, INT_MAX, LONG_MIN, LONG_MAX]) hs rfl (by decide)).1 h).2.1
  cases this

example : (∃ q, Judging { sampleConfig with seccompRuleName := some c!"c_cpp_file_io" } q ∧ ¬∃ B : Int, ∀ k fs,
      Stores 0 ⟨[⟨q, writableFiles q⟩], fun _ => 0, 0⟩ k → fs.Nodup → (grownBy (fun _ => 0) k.size fs : Int) ≤ B) ∧
    ∃ B : Int, ∀ k fs, Stores 0 ⟨[⟨stateAtExec sampleConfig (sampleChild fun _ => false) sampleProc,
      writableFiles (stateAtExec sampleConfig (sampleChild fun _ => false) sampleProc)⟩], fun _ => 0, 0⟩ k → fs.Nodup →
      (grownBy (fun _ => 0) k.size fs : Int) ≤ B := by
  obtain ⟨q, hj, hs⟩ := sample_any (some c!"c_cpp_file_io") (fun n h => by cases h; simp [profileNames])
  exact ⟨⟨q, hj, fun h => absurd ((C118_exact 0 _ _ _ q hj hs rfl (by decide)).1 h) (by simp)⟩,
    (C118_exact 0 _ _ _ _ judging_sample sample_started rfl (by decide)).2 rfl⟩

end Judger
