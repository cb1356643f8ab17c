import Verif.Props.Seccomp
import Verif.Spec.Signals
import Verif.Spec.Wait

/-!
# C95: cut-off output is not accepted; C96: a program that was started gets a verdict

Both depend on signal settings that the judged program and `run()` inherit from the caller.
-/

set_option autoImplicit false

namespace Judger

open Judger.Spec

/-- `child_process` leaves the signal settings as they are. -/
theorem C95_signals_inherited (c : Config) (e : ChildEnv) (p q : Proc) (h : Started c e p q) : q.ignored = p.ignored ∧ q.blocked = p.blocked := by
  obtain ⟨rfl, _⟩ := started_inv h
  rw [stateAtExec_eq]
  have hs : ∀ p, (afterSeccomp c e p).ignored = p.ignored ∧ (afterSeccomp c e p).blocked = p.blocked := by
    intro p; unfold afterSeccomp; split
    · exact ⟨rfl, rfl⟩
    · split <;> exact ⟨rfl, rfl⟩
  have hu : ∀ p, (afterUid c p).ignored = p.ignored ∧ (afterUid c p).blocked = p.blocked := by
    intro p; unfold afterUid; split
    · exact ⟨rfl, rfl⟩
    · split <;> exact ⟨rfl, rfl⟩
  have hg : ∀ p, (afterGid c p).ignored = p.ignored ∧ (afterGid c p).blocked = p.blocked := by
    intro p; unfold afterGid; split <;> exact ⟨rfl, rfl⟩
  have hi : ∀ p, (afterInput c p).2.ignored = p.ignored ∧ (afterInput c p).2.blocked = p.blocked := by
    intro p; unfold afterInput; split <;> exact ⟨rfl, rfl⟩
  have ho : ∀ p, (afterOutput c p).2.ignored = p.ignored ∧ (afterOutput c p).2.blocked = p.blocked := by
    intro p; unfold afterOutput; split <;> exact ⟨rfl, rfl⟩
  have he : ∀ o p, (afterError c o p).2.ignored = p.ignored ∧ (afterError c o p).2.blocked = p.blocked := by
    intro o p; unfold afterError; split
    · exact ⟨rfl, rfl⟩
    · split <;> exact ⟨rfl, rfl⟩
  rw [(hs _).1, (hs _).2, (hu _).1, (hu _).2, (hg _).1, (hg _).2]
  unfold redirections
  exact ⟨by rw [(he _ _).1, (ho _).1, (hi _).1], by rw [(he _ _).2, (ho _).2, (hi _).2]⟩

example : Started sampleConfig (sampleChild fun _ => false) sampleProc (stateAtExec sampleConfig (sampleChild fun _ => false) sampleProc) :=
  sample_started

/-! ## C95 -/

/-- C95 as users would have it: whatever the caller's signal settings are, a run in which a write to the output file was cut short or refused
at the limit is not accepted. -/
def C95_full : Prop :=
  ∀ (c : Config) (prior : Result) (ce : ChildEnv) (p q : Proc) (w : Writer) (e : RunEnv) (pid : Nat) (t : Termination),
    ConfigOk c → c.InRange → Started c ce p q → Wrote (Writer.start q) w → (w.short = true ∨ w.refused = true) → w.ended = some t →
    Completed c e pid t →
    ∃ r effs, run c prior e = .returned r effs ∧ r.result ≠ 0

/-- What holds of a program under one of the two C/C++ rules until it ends: SIGXFSZ stays deadly. -/
structure XfszDeadly (exe : BitVec 64) (w : Writer) : Prop where
  filter : cCppFilter exe ∈ w.filters ∨ cCppFileIoFilter exe ∈ w.filters
  ignored : w.ignored 25 = false
  handled : w.handled 25 = false
  blocked : w.blocked 25 = false
  refused : w.refused = true → ∃ core, w.ended = some (.signaled 25 core)

theorem xfszDeadly_call {exe : BitVec 64} {w w' : Writer} {r : Req} (h : XfszDeadly exe w) (he : w.ended = none)
    (ha : evalAll w.filters r = .allow) (hk : WriterCall r w w') : XfszDeadly exe w' := by
  have hal := cCppFileIoAnswer_allow (underCCpp_allow (w := sampleWorld w.filters) h.filter ha).2
  simp only [List.mem_cons, List.not_mem_nil, or_false] at hal
  have hnr : ¬ w.refused = true := fun hr => by
    obtain ⟨core, hc⟩ := h.refused hr
    rw [he] at hc; cases hc
  cases hk with
  | plain => exact h
  | whole n hn hl => exact ⟨h.filter, h.ignored, h.handled, h.blocked, h.refused⟩
  | short n m hn hl hm hmn => exact ⟨h.filter, h.ignored, h.handled, h.blocked, h.refused⟩
  | refused n core hn h0 hl =>
    refine ⟨h.filter, h.ignored, h.handled, h.blocked, fun _ => ⟨core, ?_⟩⟩
    simp [Writer.diesOfXfsz, h.ignored, h.handled, h.blocked]
  | seeks pos hn => exact ⟨h.filter, h.ignored, h.handled, h.blocked, h.refused⟩
  | acts ig ha' hn => omega
  | masks bl hn => omega
  | limits v hn hv hp => exact ⟨h.filter, h.ignored, h.handled, h.blocked, h.refused⟩
  | execs hn => exact ⟨h.filter, h.ignored, rfl, h.blocked, h.refused⟩
  | exits code hn hc => exact ⟨h.filter, h.ignored, h.handled, h.blocked, fun hr => absurd hr hnr⟩
  | installs f hn => omega
  | other _ hn hf hl =>
    refine absurd ?_ hn
    simp only [writerCalls, List.mem_cons, List.not_mem_nil, or_false]
    omega

theorem xfszDeadly_wrote {exe : BitVec 64} {w w' : Writer} (h : XfszDeadly exe w) (hw : Wrote w w') : XfszDeadly exe w' := by
  induction hw with
  | start => exact h
  | call _ he r ha hk ih => exact xfszDeadly_call ih he ha hk
  | dies _ he sig core ih =>
    refine ⟨ih.filter, ih.ignored, ih.handled, ih.blocked, fun hr => ?_⟩
    obtain ⟨core, hc⟩ := ih.refused hr
    rw [he] at hc; cases hc

/-- C95, partial: under `c_cpp` and `c_cpp_file_io`, if the caller of `run()` neither ignores nor blocks SIGXFSZ, a program one of whose
writes was refused at the limit is killed by SIGXFSZ there and then, and reported with that signal and a result other than 0, whatever it
did before.  Missing: writes that were only cut short, other rules, and callers that ignore or block SIGXFSZ; see the three theorems below. -/
theorem C95_refused_partial (c : Config) (prior : Result) (ce : ChildEnv) (p q : Proc) (w : Writer) (e : RunEnv) (pid : Nat) (t : Termination)
    (hc : ConfigOk c) (hs : Started c ce p q) (hn : c.seccompRuleName = some c!"c_cpp" ∨ c.seccompRuleName = some c!"c_cpp_file_io")
    (hi : p.ignored 25 = false) (hb : p.blocked 25 = false) (hw : Wrote (Writer.start q) w) (hr : w.refused = true) (ht : w.ended = some t)
    (h : Completed c e pid t) :
    (∃ core, t = .signaled 25 core) ∧ ∃ r effs, run c prior e = .returned r effs ∧ r.error = 0 ∧ r.result ≠ 0 ∧ r.signal = 25 := by
  have hsig := C95_signals_inherited c ce p q hs
  have hf : cCppFilter ce.exeAddr ∈ q.filters ∨ cCppFileIoFilter ce.exeAddr ∈ q.filters := by
    have hp := C23_profile_enforced c ce p q hs
    rcases hn with hn | hn <;> rw [hn] at hp <;>
      rcases hp.2 with ⟨h1, h2⟩ | ⟨h1, h2⟩ | ⟨h1, h2⟩ | ⟨h1, h2⟩ | ⟨h1, h2⟩ <;>
      first
      | (rw [h2]; exact .inl List.mem_cons_self)
      | (rw [h2]; exact .inr List.mem_cons_self)
      | exact absurd h1 (by decide)
  have h0 : XfszDeadly ce.exeAddr (Writer.start q) :=
    ⟨hf, by simpa [Writer.start, hsig.1] using hi, rfl, by simpa [Writer.start, hsig.2] using hb, fun h => by cases h⟩
  obtain ⟨core, hcore⟩ := (xfszDeadly_wrote h0 hw).refused hr
  rw [ht] at hcore
  cases hcore
  refine ⟨⟨core, rfl⟩, ?_⟩
  obtain ⟨r, effs, h1, h2, h3⟩ := C06_signaled_not_accepted c prior e pid 25 core hc h
  obtain ⟨r', effs', h1', _, h4⟩ := C07_signal_exit_code c prior e pid _ hc h
  rw [h1] at h1'
  cases h1'
  exact ⟨r, effs, h1, h2, h3, (h4 25 core rfl).2⟩

/-- The sample under `name`, for a caller with these ignored signals. -/
theorem sample_writer (name : CStr) (f : Filter) (ignored : Nat → Bool) (hn : name ∈ profileNames)
    (hp : profileOf (sampleChild fun _ => false) name = some f) :
    ∃ q, Started (sampleAs name) (sampleChild fun _ => false) { sampleProc with ignored := ignored } q ∧
      Writer.start q = ⟨[f], ⟨1048576, 1048576⟩, false, ignored, fun _ => false, fun _ => false, 0, false, false, none⟩ := by
  obtain ⟨q, h⟩ := C17_starts (sampleAs name) (sampleChild fun _ => false) { sampleProc with ignored := ignored }
    (by simp [ConfigOk, LimitOk, sampleAs, sampleConfig]) (by simp [sampleAs, sampleConfig]) rfl rfl
    (fun _ h => by cases h; exact hn) (fun _ _ => rfl)
  have hs : Started (sampleAs name) (sampleChild fun _ => false) { sampleProc with ignored := ignored } q := ⟨_, _, _, h⟩
  refine ⟨q, hs, ?_⟩
  obtain ⟨rfl, _⟩ := started_inv hs
  have hq : (stateAtExec (sampleAs name) (sampleChild fun _ => false) { sampleProc with ignored := ignored }) =
      afterSeccomp (sampleAs name) (sampleChild fun _ => false)
        (afterUid (sampleAs name) (afterGid (sampleAs name) (redirections (sampleAs name) { sampleProc with ignored := ignored }))) := rfl
  have hrule : (sampleAs name).seccompRuleName = some name := rfl
  rw [hq]
  unfold afterSeccomp
  simp only [hrule, hp]
  rfl

/-- A run of the sample in which a write is refused: 1048576 bytes are written, then one more is tried. -/
theorem sample_refused : ∃ q w, Started (sampleAs c!"c_cpp") (sampleChild fun _ => false) sampleProc q ∧ Wrote (Writer.start q) w ∧
    w.refused = true ∧ w.ended = some (.signaled 25 true) := by
  obtain ⟨q, hq, hw⟩ := sample_writer c!"c_cpp" _ (fun _ => false) (by decide) rfl
  have hr : Wrote (Writer.start q) ⟨[cCppFilter 0x7ffe1000], ⟨1048576, 1048576⟩, false, fun _ => false, fun _ => false, fun _ => false,
      1048576, false, true, some (.signaled 25 true)⟩ := by
    rw [hw]
    refine .call (.call (.start _) rfl (Req.mk' 1 [1, 0, 1048576]) ?_ (.whole _ _ 1048576 (.inl rfl) (by decide))) rfl (Req.mk' 1 [1, 0, 1]) ?_
      (.refused _ _ 1 true (.inl rfl) (by decide) (by decide)) <;> decide +kernel
  exact ⟨q, _, hq, hr, rfl, rfl⟩

example : ∃ q w, Started (sampleAs c!"c_cpp") (sampleChild fun _ => false) sampleProc q ∧ sampleProc.ignored 25 = false ∧
    sampleProc.blocked 25 = false ∧ Wrote (Writer.start q) w ∧ w.refused = true ∧ w.ended = some (.signaled 25 true) ∧
    Completed (sampleAs c!"c_cpp") (sampleEnv (Termination.signaled 25 true).waitStatus) 4242 (.signaled 25 true) := by
  obtain ⟨q, w, h1, h2, h3, h4⟩ := sample_refused
  exact ⟨q, w, h1, rfl, rfl, h2, h3, h4, rfl, rfl, .inr rfl, rfl, by decide, rfl, by simp [Normal, sampleEnv],
    by simp [Normal, sampleEnv], by simp [Normal, sampleEnv]⟩

/-- The sample, whatever the rule, is accepted when it exits with 0. -/
theorem sample_accepted (name : CStr) : ∃ effs, run (sampleAs name) (noResult 0) (sampleEnv 0) = .returned ⟨12, 31, 2048000, 0, 0, 0, 0⟩ effs :=
  ⟨_, rfl⟩

/-- The three ways in which cut-off output is accepted. -/
theorem cutOff_accepted (name : CStr) (p q : Proc) (w : Writer) (hs : Started (sampleAs name) (sampleChild fun _ => false) p q)
    (hw : Wrote (Writer.start q) w) (hcut : w.short = true ∨ w.refused = true) (he : w.ended = some (.exited 0)) :
    ¬ C95_full := by
  intro h
  obtain ⟨r, effs, h1, h2⟩ := h (sampleAs name) (noResult 0) _ p q w (sampleEnv 0) 4242 (.exited 0)
    (by simp [ConfigOk, LimitOk, sampleAs, sampleConfig]) (by constructor <;> simp [sampleAs, sampleConfig, IsInt, IsLong, INT_MIN, INT_MAX, LONG_MIN, LONG_MAX]) hs hw hcut he
    ⟨rfl, rfl, .inr rfl, rfl, by decide, rfl, by simp [Normal, sampleEnv], by simp [Normal, sampleEnv], by simp [Normal, sampleEnv]⟩
  obtain ⟨effs', h3⟩ := sample_accepted name
  rw [h3] at h1
  cases h1
  exact h2 rfl

/-- C95 is false: a program under `c_cpp` that writes two million bytes in one call and exits with 0 is accepted, its output cut off at
1048576 bytes. -/
theorem C95_witness_short : ∃ q w, Started (sampleAs c!"c_cpp") (sampleChild fun _ => false) sampleProc q ∧ Wrote (Writer.start q) w ∧
    w.short = true ∧ w.pos = 1048576 ∧ w.ended = some (.exited 0) ∧ ¬ C95_full := by
  obtain ⟨q, hq, hw⟩ := sample_writer c!"c_cpp" _ (fun _ => false) (by decide) rfl
  have hr : Wrote (Writer.start q) ⟨[cCppFilter 0x7ffe1000], ⟨1048576, 1048576⟩, false, fun _ => false, fun _ => false, fun _ => false,
      1048576, true, false, some (.exited 0)⟩ := by
    rw [hw]
    refine .call (.call (.start _) rfl (Req.mk' 1 [1, 0, 2000000]) ?_ (.short _ _ 2000000 1048576 (.inl rfl) (by decide) (by decide) (by decide)))
      rfl (Req.mk' 231 [0]) ?_ (.exits _ _ 0 (.inr rfl) (by decide)) <;> decide +kernel
  exact ⟨q, _, hq, hr, rfl, rfl, rfl, cutOff_accepted _ _ _ _ hq hr (.inl rfl) rfl⟩

/-- C95 is false even of refused writes: if the caller of `run()` ignores SIGXFSZ (Python 2 starts its subprocesses so), so does the program. -/
theorem C95_witness_caller : ∃ q w, Started (sampleAs c!"c_cpp") (sampleChild fun _ => false) { sampleProc with ignored := (· == 25) } q ∧
    Wrote (Writer.start q) w ∧ w.refused = true ∧ w.ended = some (.exited 0) ∧ ¬ C95_full := by
  obtain ⟨q, hq, hw⟩ := sample_writer c!"c_cpp" _ (· == 25) (by decide) rfl
  have hr : Wrote (Writer.start q) ⟨[cCppFilter 0x7ffe1000], ⟨1048576, 1048576⟩, false, (· == 25), fun _ => false, fun _ => false,
      1048576, false, true, some (.exited 0)⟩ := by
    rw [hw]
    refine .call (.call (.call (.start _) rfl (Req.mk' 1 [1, 0, 1048576]) ?_ (.whole _ _ 1048576 (.inl rfl) (by decide))) rfl
      (Req.mk' 1 [1, 0, 1]) ?_ (.refused _ _ 1 true (.inl rfl) (by decide) (by decide))) rfl (Req.mk' 231 [0]) ?_
      (.exits _ _ 0 (.inr rfl) (by decide)) <;> decide +kernel
  exact ⟨q, _, hq, hr, rfl, rfl, cutOff_accepted _ _ _ _ hq hr (.inr rfl) rfl⟩

/-- C95 is false of refused writes under `general` whoever calls: the program can ignore SIGXFSZ itself. -/
theorem C95_witness_general : ∃ q w, Started (sampleAs c!"general") (sampleChild fun _ => false) sampleProc q ∧ Wrote (Writer.start q) w ∧
    w.refused = true ∧ w.ended = some (.exited 0) ∧ ¬ C95_full := by
  obtain ⟨q, hq, hw⟩ := sample_writer c!"general" _ (fun _ => false) (by decide) rfl
  have hr : Wrote (Writer.start q) ⟨[generalFilter 0x7ffe1000 true], ⟨1048576, 1048576⟩, false, (· == 25), fun _ => false, fun _ => false,
      1048576, false, true, some (.exited 0)⟩ := by
    rw [hw]
    refine .call (.call (.call (.call (.start _) rfl (Req.mk' 13 [25, 0, 0, 8]) ?_ (.acts _ _ (· == 25) (fun _ => false) rfl)) rfl
      (Req.mk' 1 [1, 0, 1048576]) ?_ (.whole _ _ 1048576 (.inl rfl) (by decide))) rfl
      (Req.mk' 1 [1, 0, 1]) ?_ (.refused _ _ 1 true (.inl rfl) (by decide) (by decide))) rfl (Req.mk' 231 [0]) ?_
      (.exits _ _ 0 (.inr rfl) (by decide)) <;> decide +kernel
  exact ⟨q, _, hq, hr, rfl, rfl, cutOff_accepted _ _ _ _ hq hr (.inr rfl) rfl⟩

theorem C95_false : ¬ C95_full := by
  obtain ⟨_, _, _, _, _, _, _, h⟩ := C95_witness_short
  exact h

/-! ## C96 -/

/-- Everything works up to waiting, and `wait4` returns as at the end of `w`. -/
structure Waiting (c : Config) (e : RunEnv) (pid : Nat) (w : WaitState) : Prop where
  root : e.getuid = 0
  fork : e.fork = .parent pid
  pthread : c.maxRealTime = -1 ∨ e.pthreadOk = true
  got : (∃ t, w.place = .back (some t) ∧ e.waitOk = true ∧ e.status = t.waitStatus) ∨ (w.place = .back none ∧ e.waitOk = false)
  normUtime : Normal e.usage.utime
  normStart : Normal e.start
  normFinish : Normal e.finish

/-- C96 as users would have it: a program that was started gets the verdict on what it did. -/
def C96_full : Prop :=
  ∀ (c : Config) (prior : Result) (e : RunEnv) (pid : Nat) (a : Arrangements) (w : WaitState),
    ConfigOk c → Awaits a w → Waiting c e pid w →
    ∃ t r effs, w.did = some t ∧ run c prior e = .returned r effs ∧ r.error = 0 ∧ r.result = verdict c t (usageOf e)

/-- What holds while waiting. -/
structure WaitInv (w : WaitState) : Prop where
  running : w.child = .running → w.did = none
  stopped : ∀ s, w.child = .stopped s → w.did = some (.stopped s) ∧ (Termination.stopped s).Valid
  ended : ∀ t, w.child = .ended t → w.did = some t ∧ t.Valid
  gone : w.child = .gone → ∃ t, w.place = .back (some t)
  back : ∀ x, w.place = .back x → ∃ t, x = some t ∧ w.did = some t ∧ t.Valid

theorem waitInv {a : Arrangements} (hu : Unhindered a) {w : WaitState} (h : Awaits a w) : WaitInv w := by
  induction h with
  | start => exact ⟨fun _ => rfl, fun _ h => (by cases h), fun _ h => (by cases h), fun h => (by cases h), fun _ h => (by cases h)⟩
  | @step w w' _ hn hs ih =>
    have hg : w.child ≠ .gone := fun hc => by
      obtain ⟨t, ht⟩ := ih.gone hc
      exact hn _ ht
    cases hs with
    | ends t hc hv ht kept hk =>
      rw [hk.2 hu.keeps, if_pos rfl]
      exact ⟨fun h => (by cases h), fun _ h => (by cases h), fun t' h => (by cases h; exact ⟨rfl, hv⟩), fun h => (by cases h), fun x h => absurd h (hn x)⟩
    | stops sig hc hv notify =>
      exact ⟨fun h => (by cases h), fun _ h => (by cases h; exact ⟨rfl, hv⟩), fun t' h => (by cases h), fun h => (by cases h), fun x h => absurd h (hn x)⟩
    | continues s hc =>
      exact ⟨fun _ => rfl, fun _ h => (by cases h), fun t' h => (by cases h), fun h => (by cases h), fun x h => absurd h (hn x)⟩
    | arrives sig => exact ⟨ih.running, ih.stopped, ih.ended, ih.gone, ih.back⟩
    | handles sig restart reaps hp hs hb ha =>
      rw [(hu.handlers _ _ _ hb ha).2]
      exact ⟨ih.running, ih.stopped, ih.ended, ih.gone, ih.back⟩
    | otherCollects ho => rw [hu.alone] at ho; cases ho
    | enters hp => exact ⟨ih.running, ih.stopped, ih.ended, fun h => absurd h hg, fun x h => (by cases h)⟩
    | collectsStopped s hp hc =>
      exact ⟨ih.running, ih.stopped, ih.ended, fun h => absurd h hg, fun x h => by cases h; exact ⟨_, rfl, ih.stopped s hc⟩⟩
    | collectsEnded t hp hc =>
      exact ⟨fun h => (by cases h), fun _ h => (by cases h), fun t' h => (by cases h), fun _ => ⟨t, rfl⟩, fun x h => by cases h; exact ⟨_, rfl, ih.ended t hc⟩⟩
    | noChild hp hc => exact absurd hc hg
    | leaves sig reaps hp hc hs hb ha => exact ⟨ih.running, ih.stopped, ih.ended, fun h => absurd h hg, fun x h => (by cases h)⟩
    | interrupted sig reaps hp hc hs hb ha => cases (hu.handlers _ _ _ hb ha).1

/-- C96, partial: it does, whatever signals arrive and when, if nothing in the caller gets in the way: SIGCHLD is not ignored, no handler interrupts `wait4`
and nothing else in the caller waits for any child.  Missing: other callers; see `C96_otherwise` and the witnesses. -/
theorem C96_verdict_partial (c : Config) (prior : Result) (e : RunEnv) (pid : Nat) (a : Arrangements) (w : WaitState) (hc : ConfigOk c)
    (hu : Unhindered a) (hw : Awaits a w) (h : Waiting c e pid w) :
    ∃ t r effs, w.did = some t ∧ run c prior e = .returned r effs ∧ r.error = 0 ∧ r.result = verdict c t (usageOf e) := by
  have hi := waitInv hu hw
  rcases h.got with ⟨t, h1, h2, h3⟩ | ⟨h1, _⟩
  · obtain ⟨t', ht, hd, hv⟩ := hi.back _ h1
    cases ht
    obtain ⟨r, effs, h4⟩ := C04_verdict c prior e pid t hc ⟨h.root, h.fork, h.pthread, h2, hv, h3, h.normUtime, h.normStart, h.normFinish⟩
    exact ⟨t, r, effs, hd, h4⟩
  · obtain ⟨t', ht, _⟩ := hi.back _ h1
    cases ht

/-- The judger as a program of its own (main.c sets no handlers and waits for nothing else): whatever its caller has arranged, only an ignored SIGCHLD
makes a difference. -/
theorem C96_judger_partial (c : Config) (prior : Result) (e : RunEnv) (pid : Nat) (a : Arrangements) (w : WaitState) (hc : ConfigOk c)
    (ha : a.action 17 ≠ .ignore) (hw : Awaits a.afterExec w) (h : Waiting c e pid w) :
    ∃ t r effs, w.did = some t ∧ run c prior e = .returned r effs ∧ r.error = 0 ∧ r.result = verdict c t (usageOf e) := by
  refine C96_verdict_partial c prior e pid a.afterExec w hc ⟨⟨?_, rfl⟩, rfl, ?_⟩ hw h
  · simp [Arrangements.afterExec, ha]
  · intro s restart reaps _ hs
    simp only [Arrangements.afterExec] at hs
    split at hs <;> cases hs

/-- What happens otherwise: whenever `wait4` fails, `run()` reports WAIT_FAILED with nothing measured and result 0, and SIGKILL is sent to the process id,
whether the program still runs or is gone. -/
theorem C96_otherwise (c : Config) (prior : Result) (e : RunEnv) (pid : Nat) (w : WaitState) (hc : ConfigOk c) (h : Waiting c e pid w)
    (hb : w.place = .back none) : ∃ effs, run c prior e = .returned (noResult (-4)) effs ∧ .kill pid 9 ∈ effs := by
  have hw : e.waitOk = false := by
    rcases h.got with ⟨t, h1, _⟩ | ⟨_, h1⟩
    · rw [hb] at h1; cases h1
    · exact h1
  rcases run_cases c prior e with ⟨h1, _⟩ | ⟨_, h1, _⟩ | ⟨_, _, h1, _⟩ | ⟨_, _, h1, _⟩ | ⟨_, _, _, _, h1, h2, _⟩ | ⟨pid', _, _, h1, _, _, h2⟩ |
    ⟨_, _, _, _, _, h1, _⟩
  · exact absurd h.root h1
  · exact absurd hc h1
  · rw [h.fork] at h1; cases h1
  · rw [h.fork] at h1; cases h1
  · rcases h.pthread with h3 | h3
    · exact absurd h3 h1
    · rw [h2] at h3; cases h3
  · rw [h.fork] at h1
    cases h1
    exact ⟨_, h2, by simp⟩
  · rw [hw] at h1; cases h1

/-- A caller that ignores SIGCHLD gets WAIT_FAILED for every program that ended, however it ended and whatever else happens. -/
theorem C96_ignored_wait_failed (c : Config) (prior : Result) (e : RunEnv) (pid : Nat) (a : Arrangements) (w : WaitState) (t : Termination) (hc : ConfigOk c)
    (ha : a.action 17 = .ignore) (hw : Awaits a w) (h : Waiting c e pid w) (hd : w.did = some t) (ht : t.Ended) :
    ∃ effs, run c prior e = .returned (noResult (-4)) effs ∧ .kill pid 9 ∈ effs := by
  have hk : ¬ a.keepsChildren := fun hk => hk.1 ha
  have inv : (∀ t, w.child ≠ .ended t) ∧ (∀ t, w.place = .back (some t) → ¬ t.Ended ∧ w.did = some t) ∧
      (∀ s, w.child = .stopped s → w.did = some (.stopped s)) := by
    clear h hd ht
    induction hw with
    | start => exact ⟨fun _ h => (by cases h), fun _ h => (by cases h), fun _ h => (by cases h)⟩
    | @step w w' _ hn hs ih =>
      obtain ⟨i1, i2, i3⟩ := ih
      have hb : ∀ t, w.place ≠ .back (some t) := fun t => hn _
      cases hs with
      | ends t hc hv ht kept hk' =>
        have : kept = false := by
          cases kept with
          | false => rfl
          | true => exact absurd (hk'.1 rfl) hk
        subst this
        exact ⟨fun _ h => (by cases h), fun t h => absurd h (hb t), fun _ h => (by cases h)⟩
      | stops sig hc hv notify => exact ⟨fun _ h => (by cases h), fun t h => absurd h (hb t), fun _ h => (by cases h; rfl)⟩
      | continues s hc => exact ⟨fun _ h => (by cases h), fun t h => absurd h (hb t), fun _ h => (by cases h)⟩
      | arrives sig => exact ⟨i1, i2, i3⟩
      | handles sig restart reaps hp hs hb' ha =>
        refine ⟨fun t h => ?_, fun t h => absurd h (hb t), fun s h => i3 s ?_⟩
        · revert h
          cases reaps
          · exact i1 t
          · simp only [if_true]
            cases hcc : w.child <;> simp [ChildIs.reaped]
        · revert h
          cases reaps
          · exact id
          · simp only [if_true]
            cases hcc : w.child <;> simp [ChildIs.reaped]
      | otherCollects ho =>
        refine ⟨fun t h => ?_, fun t h => absurd h (hb t), fun s h => i3 s ?_⟩
        · revert h
          cases hcc : w.child <;> simp [ChildIs.reaped]
        · revert h
          cases hcc : w.child <;> simp [ChildIs.reaped]
      | enters hp => exact ⟨i1, (fun t h => (by cases h)), i3⟩
      | collectsStopped s hp hc => exact ⟨i1, (fun t h => by cases h; exact ⟨fun h => h, i3 s hc⟩), i3⟩
      | collectsEnded t hp hc => exact absurd hc (i1 t)
      | noChild hp hc => exact ⟨i1, (fun t h => (by cases h)), i3⟩
      | leaves sig reaps hp hc hs hb ha => exact ⟨i1, (fun t h => (by cases h)), i3⟩
      | interrupted sig reaps hp hc hs hb ha => exact ⟨i1, (fun t h => (by cases h)), i3⟩
  rcases h.got with ⟨t', h1, _⟩ | ⟨h1, _⟩
  · obtain ⟨h2, h3⟩ := inv.2.1 t' h1
    rw [hd] at h3
    cases h3
    exact absurd ht h2
  · exact C96_otherwise c prior e pid w hc h h1

/-- A caller with nothing special. -/
def plainCaller : Arrangements := ⟨fun _ => .default, fun _ => false, false, false⟩

/-- A caller with a handler for SIGALRM (14) that is set with SA_RESTART, one that ignores SIGCHLD, one with a handler for SIGALRM set without SA_RESTART,
one whose handler of SIGCHLD waits for all children that have ended, and one with another thread that does. -/
def alarmCaller : Arrangements := { plainCaller with action := fun s => if s = 14 then .handler true false else .default }
@[inherit_doc alarmCaller] def ignoringCaller : Arrangements := { plainCaller with action := fun s => if s = 17 then .ignore else .default }
@[inherit_doc alarmCaller] def interruptedCaller : Arrangements := { plainCaller with action := fun s => if s = 14 then .handler false false else .default }
@[inherit_doc alarmCaller] def reapingCaller : Arrangements := { plainCaller with action := fun s => if s = 17 then .handler true true else .default }
@[inherit_doc alarmCaller] def threadedCaller : Arrangements := { plainCaller with othersWait := true }

theorem keeps_of {a : Arrangements} (h1 : a.action 17 ≠ .ignore) (h2 : a.noCldWait = false) : true = true ↔ a.keepsChildren := ⟨fun _ => ⟨h1, h2⟩, fun _ => rfl⟩

/-- The program runs, `wait4` is called, SIGALRM arrives and is handled, the call is made again, the program exits with 0. -/
theorem alarm_waits : ∃ w, Awaits alarmCaller w ∧ w.place = .back (some (.exited 0)) := by
  refine ⟨_, .step (.step (.step (.step (.step (.step (.step .start (fun _ h => (by cases h)) (.enters _ rfl)) (fun _ h => (by cases h)) (.arrives _ 14))
    (fun _ h => (by cases h)) (.leaves _ 14 false rfl (fun h => h) rfl rfl rfl)) (fun _ h => (by cases h)) (.handles _ 14 true false rfl rfl rfl rfl))
    (fun _ h => (by cases h)) (.enters _ rfl)) (fun _ h => (by cases h))
    (.ends _ (.exited 0) (.inl rfl) (by decide) trivial true (keeps_of (by decide) rfl))) (fun _ h => (by cases h)) (.collectsEnded _ (.exited 0) rfl rfl), rfl⟩

theorem alarm_undisturbed : Unhindered alarmCaller := by
  refine ⟨⟨by decide, rfl⟩, rfl, fun s restart reaps _ h => ?_⟩
  unfold alarmCaller at h
  dsimp only at h
  split at h <;> cases h
  exact ⟨rfl, rfl⟩

/-- The sample with what `wait4` returned. -/
theorem sample_waiting {w : WaitState} (hw : w.place = .back (some (.exited 0))) : Waiting sampleConfig (sampleEnv 0) 4242 w :=
  ⟨rfl, rfl, .inr rfl, .inl ⟨_, hw, rfl, rfl⟩, by simp [Normal, sampleEnv], by simp [Normal, sampleEnv], by simp [Normal, sampleEnv]⟩

@[inherit_doc sample_waiting] theorem sample_failed {w : WaitState} (hw : w.place = .back none) :
    Waiting sampleConfig { sampleEnv 0 with waitOk := false } 4242 w :=
  ⟨rfl, rfl, .inr rfl, .inr ⟨hw, rfl⟩, by simp [Normal, sampleEnv], by simp [Normal, sampleEnv], by simp [Normal, sampleEnv]⟩

example : ∃ w, Awaits alarmCaller w ∧ Unhindered alarmCaller ∧ Waiting sampleConfig (sampleEnv 0) 4242 w := by
  obtain ⟨w, h1, h2⟩ := alarm_waits
  exact ⟨w, h1, alarm_undisturbed, sample_waiting h2⟩

/-- Even the worst of these callers, if it runs the judger as a program of its own. -/
example : ∃ w, reapingCaller.action 17 ≠ .ignore ∧ Awaits reapingCaller.afterExec w ∧ Waiting sampleConfig (sampleEnv 0) 4242 w := by
  refine ⟨_, by decide, .step (.step (.step .start (fun _ h => (by cases h)) (.enters _ rfl)) (fun _ h => (by cases h))
    (.ends _ (.exited 0) (.inl rfl) (by decide) trivial true (keeps_of (by decide) rfl))) (fun _ h => (by cases h)) (.collectsEnded _ (.exited 0) rfl rfl),
    sample_waiting rfl⟩

/-- `wait4` fails though the program exits with 0: SIGCHLD is ignored. -/
theorem C96_witness_ignored : ∃ w, Awaits ignoringCaller w ∧ w.did = some (.exited 0) ∧ w.place = .back none := by
  refine ⟨_, .step (.step (.step .start (fun _ h => (by cases h)) (.enters _ rfl)) (fun _ h => (by cases h))
    (.ends _ (.exited 0) (.inl rfl) (by decide) trivial false ⟨(fun h => (by cases h)), fun h => absurd rfl h.1⟩)) (fun _ h => (by cases h)) (.noChild _ rfl rfl),
    rfl, rfl⟩

example : ∃ w, ignoringCaller.action 17 = .ignore ∧ Awaits ignoringCaller w ∧ w.did = some (.exited 0) ∧
    Waiting sampleConfig { sampleEnv 0 with waitOk := false } 4242 w := by
  obtain ⟨w, h1, h2, h3⟩ := C96_witness_ignored
  exact ⟨w, rfl, h1, h2, sample_failed h3⟩

/-- `wait4` fails while the program runs: SIGALRM arrives.  The program, which has done nothing wrong, is killed (`C96_otherwise`). -/
theorem C96_witness_interrupted : ∃ w, Awaits interruptedCaller w ∧ w.child = .running ∧ w.place = .back none := by
  refine ⟨_, .step (.step (.step .start (fun _ h => (by cases h)) (.enters _ rfl)) (fun _ h => (by cases h)) (.arrives _ 14)) (fun _ h => (by cases h))
    (.interrupted _ 14 false rfl (fun h => h) rfl rfl rfl), rfl, rfl⟩

/-- `wait4` fails because the program ended before it was called, and the handler of SIGCHLD has waited for it. -/
theorem C96_witness_reaped : ∃ w, Awaits reapingCaller w ∧ w.did = some (.exited 0) ∧ w.place = .back none := by
  refine ⟨_, .step (.step (.step (.step .start (fun _ h => (by cases h)) (.ends _ (.exited 0) (.inl rfl) (by decide) trivial true (keeps_of (by decide) rfl)))
    (fun _ h => (by cases h)) (.handles _ 17 true true rfl rfl rfl rfl)) (fun _ h => (by cases h)) (.enters _ rfl)) (fun _ h => (by cases h)) (.noChild _ rfl rfl), rfl, rfl⟩

/-- The same caller gets the verdict if the program ends a little later: which of the two happens is a matter of time. -/
theorem C96_witness_race : ∃ w, Awaits reapingCaller w ∧ w.did = some (.exited 0) ∧ w.place = .back (some (.exited 0)) := by
  refine ⟨_, .step (.step (.step .start (fun _ h => (by cases h)) (.enters _ rfl)) (fun _ h => (by cases h))
    (.ends _ (.exited 0) (.inl rfl) (by decide) trivial true (keeps_of (by decide) rfl))) (fun _ h => (by cases h)) (.collectsEnded _ (.exited 0) rfl rfl), rfl, rfl⟩

/-- `wait4` fails because another thread of the caller was faster. -/
theorem C96_witness_thread : ∃ w, Awaits threadedCaller w ∧ w.did = some (.exited 0) ∧ w.place = .back none := by
  refine ⟨_, .step (.step (.step (.step .start (fun _ h => (by cases h)) (.enters _ rfl)) (fun _ h => (by cases h))
    (.ends _ (.exited 0) (.inl rfl) (by decide) trivial true (keeps_of (by decide) rfl))) (fun _ h => (by cases h)) (.otherCollects _ rfl)) (fun _ h => (by cases h))
    (.noChild _ rfl rfl), rfl, rfl⟩

/-- Any of these will do. -/
theorem failed_wait {a : Arrangements} {w : WaitState} (hw : Awaits a w) (hb : w.place = .back none) : ¬ C96_full := by
  intro h
  obtain ⟨t, r, effs, _, h1, h2, _⟩ := h _ (noResult 0) _ 4242 a w sampleConfig_ok hw (sample_failed hb)
  obtain ⟨_, h3, _⟩ := C96_otherwise _ (noResult 0) _ 4242 w sampleConfig_ok (sample_failed hb) hb
  rw [h3] at h1
  cases h1
  exact absurd h2 (by decide)

/-- C96 is false: the sample program exits with 0 and gets no verdict. -/
theorem C96_false : ¬ C96_full := by
  obtain ⟨w, h1, _, h2⟩ := C96_witness_ignored
  exact failed_wait h1 h2

/-- A caller that gets in the way can make `wait4` fail. -/
theorem hindered_fails {a : Arrangements} (h : ¬Unhindered a) : ∃ w, Awaits a w ∧ w.place = .back none := by
  by_cases hk : a.keepsChildren
  · have kept : true = true ↔ a.keepsChildren := ⟨fun _ => hk, fun _ => rfl⟩
    cases ho : a.othersWait with
    | true =>
      exact ⟨_, .step (.step (.step (.step .start (fun _ h => (by cases h)) (.enters _ rfl)) (fun _ h => (by cases h))
        (.ends _ (.exited 0) (.inl rfl) (by decide) trivial true kept)) (fun _ h => (by cases h)) (.otherCollects _ ho)) (fun _ h => (by cases h))
        (.noChild _ rfl rfl), rfl⟩
    | false =>
      have : ∃ s restart reaps, a.blocked s = false ∧ a.action s = .handler restart reaps ∧ ¬(restart = true ∧ reaps = false) := by
        refine Classical.byContradiction fun hn => h ⟨hk, ho, fun s restart reaps hb ha => Classical.byContradiction fun hx => hn ⟨s, restart, reaps, hb, ha, hx⟩⟩
      obtain ⟨s, restart, reaps, hb, ha, hx⟩ := this
      cases restart with
      | false =>
        exact ⟨_, .step (.step (.step .start (fun _ h => (by cases h)) (.enters _ rfl)) (fun _ h => (by cases h)) (.arrives _ s)) (fun _ h => (by cases h))
          (.interrupted _ s reaps rfl (fun h => h) (by simp [withPending]) hb ha), rfl⟩
      | true =>
        cases reaps with
        | false => exact absurd ⟨rfl, rfl⟩ hx
        | true =>
          exact ⟨_, .step (.step (.step (.step (.step .start (fun _ h => (by cases h)) (.ends _ (.exited 0) (.inl rfl) (by decide) trivial true kept))
            (fun _ h => (by cases h)) (.arrives _ s)) (fun _ h => (by cases h)) (.handles _ s true true rfl (by simp [withPending]) hb ha)) (fun _ h => (by cases h))
            (.enters _ rfl)) (fun _ h => (by cases h)) (.noChild _ rfl rfl), rfl⟩
  · exact ⟨_, .step (.step (.step .start (fun _ h => (by cases h)) (.enters _ rfl)) (fun _ h => (by cases h))
      (.ends _ (.exited 0) (.inl rfl) (by decide) trivial false ⟨(fun h => (by cases h)), fun h => absurd h hk⟩)) (fun _ h => (by cases h)) (.noChild _ rfl rfl), rfl⟩

/-- C96, settled: the callers that always get the verdict are those that do not get in the way. -/
theorem C96_exact (a : Arrangements) :
    (∀ (c : Config) (prior : Result) (e : RunEnv) (pid : Nat) (w : WaitState), ConfigOk c → Awaits a w → Waiting c e pid w →
      ∃ t r effs, w.did = some t ∧ run c prior e = .returned r effs ∧ r.error = 0 ∧ r.result = verdict c t (usageOf e)) ↔ Unhindered a := by
  constructor
  · intro h
    refine Classical.byContradiction fun hn => ?_
    obtain ⟨w, hw, hb⟩ := hindered_fails hn
    obtain ⟨t, r, effs, _, h1, h2, _⟩ := h sampleConfig (noResult 0) _ 4242 w sampleConfig_ok hw (sample_failed hb)
    obtain ⟨effs', h3, _⟩ := C96_otherwise sampleConfig (noResult 0) _ 4242 w sampleConfig_ok (sample_failed hb) hb
    rw [h1] at h3
    cases h3
    revert h2
    decide
  · intro hu c prior e pid w hc hw h
    exact C96_verdict_partial c prior e pid a w hc hu hw h

/-- The caller that handles SIGALRM with SA_RESTART always gets it, the one that ignores SIGCHLD does not. -/
example : Unhindered alarmCaller ∧ ¬Unhindered ignoringCaller := ⟨alarm_undisturbed, fun h => h.keeps.1 rfl⟩

end Judger
