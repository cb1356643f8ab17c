import Verif.Props.Ledger
import Verif.Props.Life
import Verif.Spec.Kills

/-! # C114: a judged program cannot send a signal to the judger or to another judging -/

set_option autoImplicit false

namespace Judger

open Judger.Spec

/-- C114, the full claim: whatever the program and its descendants do, none of them can ever send a signal to a process outside, such as the judger (root)
or a program judged at the same time. -/
def C114_full : Prop :=
  ∀ (c : Config) (q : Proc) (size : Nat → Nat) (t : Scene) (target : Ids), Judging c q → Life ⟨[q], size⟩ t → ¬CanSignal t target

/-- C114, with a rule set: only to processes of the user asked for.  In particular never to the judger, which is root.  Missing: other programs judged under
the same uid (`C114_witness_neighbour`), and without a rule set the judger (`C114_witness_judger`). -/
theorem C114_judger_partial (c : Config) (q : Proc) (size : Nat → Nat) (t : Scene) (target : Ids) (h : Judging c q) (hn : c.seccompRuleName ≠ none)
    (hr : target.r ≠ c.uid) (hs : target.s ≠ c.uid) (hl : Life ⟨[q], size⟩ t) : ¬CanSignal t target := by
  rintro ⟨p, hp, _, _, _, hm⟩
  have hc := (C86_confined_partial c q size t h hn hl p hp).uid
  unfold MaySignal Proc.privileged at hm
  rw [hc] at hm
  have := h.uid.1
  rcases hm with hm | hm | hm | hm | hm
  · exact this (by simpa using hm)
  · exact hr hm.symm
  · exact hs hm.symm
  · exact hr hm.symm
  · exact hs hm.symm

theorem life_cppAmong {exe : BitVec 64} {q : Proc} {size : Nat → Nat} {t : Scene} (hu : CppAmong exe q.filters) (hl : Life ⟨[q], size⟩ t) :
    ∀ m ∈ t.procs, CppAmong exe m.filters := by
  induction hl with
  | start => intro m hm; rw [List.mem_singleton.1 hm]; exact hu
  | act _ i p p' hp ha ih =>
    intro m hm
    rcases mem_set_cases hm with hm | rfl
    · exact ih m hm
    · have := ih p (List.mem_of_getElem? hp)
      cases ha with
      | filters => exact this.imp (List.mem_cons_of_mem _) (List.mem_cons_of_mem _)
      | _ => exact this
  | limit _ i caller p r v hc hp hv ha ih =>
    intro m hm
    rcases mem_set_cases hm with hm | rfl
    · exact ih m hm
    · exact ih p (List.mem_of_getElem? hp)
  | forks _ p hp ih =>
    intro m hm
    rcases List.mem_append.1 hm with hm | hm
    · exact ih m hm
    · rw [List.mem_singleton.1 hm]; exact ih p hp
  | exits _ i ih => intro m hm; exact ih m (List.mem_of_mem_eraseIdx hm)
  | grows _ _ _ _ _ _ ih => exact ih
  | shrinks _ _ _ ih => exact ih

theorem started_cppAmong {c : Config} {e : ChildEnv} {p q : Proc} (hn : c.seccompRuleName = some c!"c_cpp" ∨ c.seccompRuleName = some c!"c_cpp_file_io")
    (hs : Started c e p q) : CppAmong e.exeAddr q.filters := by
  have hprof := C23_profile_enforced c e p q hs
  rcases hn with hn | hn <;> rw [hn] at hprof <;>
    rcases hprof.2 with ⟨h1, h2⟩ | ⟨h1, h2⟩ | ⟨h1, h2⟩ | ⟨h1, h2⟩ | ⟨h1, h2⟩ <;>
    first
    | exact absurd h1 (by decide)
    | (left; rw [h2]; exact List.mem_cons_self)
    | (right; rw [h2]; exact List.mem_cons_self)

/-- C114, under `c_cpp` and `c_cpp_file_io`: to nobody, whatever the uid.  Missing: the other rule sets, and none. -/
theorem C114_c_cpp_partial (c : Config) (e : ChildEnv) (p q : Proc) (size : Nat → Nat) (t : Scene) (target : Ids)
    (hn : c.seccompRuleName = some c!"c_cpp" ∨ c.seccompRuleName = some c!"c_cpp_file_io") (hs : Started c e p q) (hl : Life ⟨[q], size⟩ t) :
    ¬CanSignal t target := by
  rintro ⟨m, hm, r, hr, ha, _⟩
  obtain ⟨h1, h2⟩ := cppAmong_allow (life_cppAmong (started_cppAmong hn hs) hl m hm) ha
  have h3 := hr.resolve_left (by simp [h1])
  have := cCppFileIoAnswer_allow h2
  simp only [signalCalls, List.mem_cons, List.not_mem_nil, or_false] at h3 this
  omega

/-- The sample program under `c_cpp` cannot signal its neighbours under the same uid. -/
example (t : Scene) (hl : Life ⟨[stateAtExec sampleConfig (sampleChild fun _ => false) sampleProc], fun _ => 0⟩ t) :
    ¬CanSignal t ⟨sampleConfig.uid, sampleConfig.uid, sampleConfig.uid⟩ :=
  C114_c_cpp_partial _ _ _ _ _ t _ (.inl rfl) sample_started hl

/-- Under `general`, `golang`, `node`, and without a rule set, the program can kill a program judged at the same time under the same uid (by `tkill`). -/
theorem C114_witness_neighbour (name : Option CStr) (hn : ∀ n, name = some n → n ∈ [c!"general", c!"golang", c!"node"]) :
    ∃ q, Judging { sampleConfig with seccompRuleName := name } q ∧
      CanSignal ⟨[q], fun _ => 0⟩ ⟨sampleConfig.uid, sampleConfig.uid, sampleConfig.uid⟩ := by
  obtain ⟨q, hq⟩ := C17_starts { sampleConfig with seccompRuleName := name } (sampleChild fun _ => false) sampleProc sampleConfig_ok
    (by simp [sampleConfig]) rfl rfl (fun n h => by
      have := hn n h
      simp only [List.mem_cons, List.not_mem_nil, or_false] at this
      rcases this with rfl | rfl | rfl <;> simp [profileNames]) (fun _ _ => rfl)
  have hs : Started { sampleConfig with seccompRuleName := name } (sampleChild fun _ => false) sampleProc q := ⟨_, _, _, hq⟩
  have hf := C23_profile_enforced _ _ _ _ hs
  have hj : Judging { sampleConfig with seccompRuleName := name } q := by
    obtain ⟨h1, h2, h3, h4, h5, h6, h7, h8, h9⟩ := sampleConfig_range
    exact ⟨sampleConfig_ok, ⟨h1, h2, h3, h4, h5, h6, h7, h8, h9⟩, by simp only [sampleConfig]; decide, by simp only [sampleConfig]; decide, _, _, hs⟩
  refine ⟨q, hj, q, List.mem_singleton.2 rfl, Req.mk' 200 [4711, 9], .inr (by decide), ?_, ?_⟩
  · cases name with
    | none =>
      have h1 := hf.1
      rw [h1]
      decide
    | some n =>
      have := hn n rfl
      simp only [List.mem_cons, List.not_mem_nil, or_false] at this
      rcases hf.2 with ⟨rfl, h2⟩ | ⟨rfl, h2⟩ | ⟨rfl, h2⟩ | ⟨rfl, h2⟩ | ⟨rfl, h2⟩ <;> rw [h2] <;>
        first
        | exact absurd this (by decide)
        | decide
  · have := (judging_confined hj).uid
    right; left
    rw [this]

/-- Without a rule set the program can kill the judger, through a set-user-ID root file. -/
theorem C114_witness_judger : ∃ q t, Judging { sampleConfig with seccompRuleName := none } q ∧ Life ⟨[q], fun _ => 0⟩ t ∧ CanSignal t ⟨0, 0, 0⟩ := by
  have hc : ConfigOk { sampleConfig with seccompRuleName := none } := sampleConfig_ok
  obtain ⟨q, hq⟩ := C17_starts { sampleConfig with seccompRuleName := none } (sampleChild fun _ => false) sampleProc hc (by decide) rfl rfl
    (by simp) (fun _ _ => rfl)
  have hs : Started { sampleConfig with seccompRuleName := none } (sampleChild fun _ => false) sampleProc q := ⟨_, _, _, hq⟩
  have hp := C23_profile_enforced _ _ _ _ hs
  have hf : q.filters = [] := hp.1
  have hn : q.noNewPrivs = false := hp.2
  have hr : Config.InRange { sampleConfig with seccompRuleName := none } := by
    obtain ⟨h1, h2, h3, h4, h5, h6, h7, h8, h9⟩ := sampleConfig_range
    exact ⟨h1, h2, h3, h4, h5, h6, h7, h8, h9⟩
  have h1 := Life.act (Life.start ⟨[q], fun _ => 0⟩) 0 q _ rfl (Act.execs q ⟨some 0, none⟩)
  refine ⟨q, _, ⟨hc, hr, by decide, by decide, _, _, hs⟩, h1, _, List.mem_singleton.2 rfl, Req.mk' 62 [1, 9], .inr (by decide), ?_, .inl ?_⟩
  · show evalAll q.filters _ = _
    rw [hf]
    decide
  · simp [Proc.privileged, Ids.exec, hn]

/-- C114 is false of the code. -/
theorem C114_false : ¬C114_full := by
  intro h
  obtain ⟨q, hq, hc⟩ := C114_witness_neighbour (some c!"general") (fun n h => by cases h; simp)
  exact h _ q _ _ _ hq (.start _) hc

/-- Under `golang` the judger is safe. -/
example : ∃ q, Judging { sampleConfig with seccompRuleName := some c!"golang" } q ∧
    ∀ t, Life ⟨[q], fun _ => 0⟩ t → ¬CanSignal t ⟨0, 0, 0⟩ := by
  obtain ⟨q, hq, _⟩ := C114_witness_neighbour (some c!"golang") (fun n h => by cases h; simp)
  exact ⟨q, hq, fun t ht => C114_judger_partial _ q _ t _ hq (by simp) (by decide) (by decide) ht⟩

end Judger
