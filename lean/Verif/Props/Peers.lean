import Verif.Props.Kills
import Verif.Spec.Peers

/-! # C137: a judged program cannot look into another judging, or change it -/

set_option autoImplicit false

namespace Judger

open Judger.Spec

/-- C137, the full claim: whatever the program and its descendants do, none of them can ever read or change the memory of a process outside, such as the judger or a
program judged at the same time. -/
def C137_full : Prop :=
  ∀ (c : Config) (q : Proc) (size : Nat → Nat) (t : Scene) (target : Peer), Judging c q → Life ⟨[q], size⟩ t → ¬CanDo Looks t target ∧ ¬CanDo Changes t target

/-- C137, with a rule set: nothing outside the user and the group asked for can be read or changed; in particular not the judger, which is root.  Missing: other programs
judged under the same uid and gid (`C137_witness_read`, `C137_witness_change`), and everything without a rule set (`C137_witness_judger`). -/
theorem C137_others_partial (c : Config) (q : Proc) (size : Nat → Nat) (t : Scene) (target : Peer) (h : Judging c q) (hn : c.seccompRuleName ≠ none)
    (ht : target.uid ≠ ⟨c.uid, c.uid, c.uid⟩ ∨ target.gid ≠ ⟨c.gid, c.gid, c.gid⟩) (hl : Life ⟨[q], size⟩ t) (what : Req → Prop) : ¬CanDo what t target := by
  rintro ⟨p, hp, _, _, _, hm⟩
  have hc := C86_confined_partial c q size t h hn hl p hp
  unfold MayAttach Proc.privileged at hm
  rw [hc.uid, hc.gid] at hm
  have := h.uid.1
  rcases hm with hm | ⟨hu, hg⟩
  · exact this (by simpa using hm)
  · rcases ht with ht | ht
    · exact ht (hu.elim id id)
    · exact ht (hg.elim id id)

/-- C137, two judgings at once: with a uid (or a gid) for each, neither can read or change anything of the other, whatever both do. -/
theorem C137_apart_partial (c c' : Config) (q q' : Proc) (size size' : Nat → Nat) (t t' : Scene) (h : Judging c q) (h' : Judging c' q') (hn : c.seccompRuleName ≠ none)
    (hn' : c'.seccompRuleName ≠ none) (hd : c.uid ≠ c'.uid ∨ c.gid ≠ c'.gid) (hl : Life ⟨[q], size⟩ t) (hl' : Life ⟨[q'], size'⟩ t') (m : Proc) (hm : m ∈ t'.procs)
    (what : Req → Prop) : ¬CanDo what t ⟨m.uid, m.gid⟩ := by
  have hc := C86_confined_partial c' q' size' t' h' hn' hl' m hm
  refine C137_others_partial c q size t _ h hn ?_ hl what
  rw [hc.uid, hc.gid]
  rcases hd with hd | hd
  · left; intro he; exact hd (congrArg Ids.e he).symm
  · right; intro he; exact hd (congrArg Ids.e he).symm

theorem life_filters {f : Filter} {q : Proc} {size : Nat → Nat} {t : Scene} (hu : f ∈ q.filters) (hl : Life ⟨[q], size⟩ t) : ∀ m ∈ t.procs, f ∈ m.filters := by
  induction hl with
  | start => intro m hm; rw [List.mem_singleton.1 hm]; exact hu
  | act _ i p p' hp ha ih =>
    intro m hm
    rcases mem_set_cases hm with hm | rfl
    · exact ih m hm
    · have := ih p (List.mem_of_getElem? hp)
      cases ha with
      | filters => exact List.mem_cons_of_mem _ this
      | _ => exact this
  | limit _ i caller p r v hc hp hv ha ih =>
    intro m hm
    rcases mem_set_cases hm with hm | rfl
    · exact ih m hm
    · exact ih p (List.mem_of_getElem? hp)
  | forks _ p hp ih =>
    intro m hm
    rcases List.mem_append.1 hm with hm | hm
    · exact ih m hm
    · rw [List.mem_singleton.1 hm]; exact ih p hp
  | exits _ i ih => intro m hm; exact ih m (List.mem_of_mem_eraseIdx hm)
  | grows _ _ _ _ _ _ ih => exact ih
  | shrinks _ _ _ ih => exact ih

/-- C137, under `c_cpp`: nothing can be changed, whatever the ids.  Missing: reading, and the other rule sets. -/
theorem C137_c_cpp_partial (c : Config) (e : ChildEnv) (p q : Proc) (size : Nat → Nat) (t : Scene) (target : Peer)
    (hn : c.seccompRuleName = some c!"c_cpp") (hs : Started c e p q) (hl : Life ⟨[q], size⟩ t) : ¬CanDo Changes t target := by
  rintro ⟨m, hm, r, hr, ha, _⟩
  have hf : cCppFilter e.exeAddr ∈ q.filters := by
    have hprof := C23_profile_enforced c e p q hs
    rw [hn] at hprof
    rcases hprof.2 with ⟨h1, h2⟩ | ⟨h1, h2⟩ | ⟨h1, h2⟩ | ⟨h1, h2⟩ | ⟨h1, h2⟩ <;>
      first
      | exact absurd h1 (by decide)
      | (rw [h2]; exact List.mem_cons_self)
  have hmem := life_filters hf hl m hm
  have hnat := allowed_native ha hmem
  have hans := evalAll_allow ha _ hmem
  rw [cCpp_eval _ hnat] at hans
  obtain ⟨h1, h2, h3⟩ := cCppAnswer_allow hans
  rcases hr.resolve_left (by simp [hnat]) with h4 | ⟨h4, h5⟩ | ⟨h4, h5⟩
  · simp only [List.mem_cons, List.not_mem_nil, or_false] at h1 h4
    omega
  · exact h5 (by simpa [readOnly] using h2 h4)
  · exact h5 (by simpa [readOnly] using h3 h4)

/-- The sample program, and a neighbour under the same uid and gid. -/
def neighbour : Peer := ⟨⟨sampleConfig.uid, sampleConfig.uid, sampleConfig.uid⟩, ⟨sampleConfig.gid, sampleConfig.gid, sampleConfig.gid⟩⟩

/-- The sample judging under any rule set, or none. -/
theorem sample_any (name : Option CStr) (hn : ∀ n, name = some n → n ∈ profileNames) :
    ∃ q, Judging { sampleConfig with seccompRuleName := name } q ∧ Started { sampleConfig with seccompRuleName := name } (sampleChild fun _ => false) sampleProc q := by
  obtain ⟨q, hq⟩ := C17_starts { sampleConfig with seccompRuleName := name } (sampleChild fun _ => false) sampleProc sampleConfig_ok
    (by simp [sampleConfig]) rfl rfl hn (fun _ _ => rfl)
  have hs : Started { sampleConfig with seccompRuleName := name } (sampleChild fun _ => false) sampleProc q := ⟨_, _, _, hq⟩
  obtain ⟨h1, h2, h3, h4, h5, h6, h7, h8, h9⟩ := sampleConfig_range
  exact ⟨q, ⟨sampleConfig_ok, ⟨h1, h2, h3, h4, h5, h6, h7, h8, h9⟩, by simp only [sampleConfig]; decide, by simp only [sampleConfig]; decide, _, _, hs⟩, hs⟩

theorem sample_attach {name : Option CStr} {q : Proc} (h : Judging { sampleConfig with seccompRuleName := name } q) : MayAttach q neighbour := by
  have := judging_confined h
  right
  rw [this.uid, this.gid]
  exact ⟨.inl rfl, .inl rfl⟩

/-- Under every rule set, also `c_cpp`, and without one, the program can read the memory of a program judged at the same time under the same ids: it opens
`/proc/<pid>/mem` for reading. -/
theorem C137_witness_read (name : Option CStr) (hn : ∀ n, name = some n → n ∈ profileNames) :
    ∃ q, Judging { sampleConfig with seccompRuleName := name } q ∧ CanDo Looks ⟨[q], fun _ => 0⟩ neighbour := by
  obtain ⟨q, hj, hs⟩ := sample_any name hn
  have hf := C23_profile_enforced _ _ _ _ hs
  refine ⟨q, hj, q, List.mem_singleton.2 rfl, Req.mk' 257 [0, 0x1000, 0], .inr (.inr (.inr ⟨rfl, by decide⟩)), ?_, sample_attach hj⟩
  cases name with
  | none => rw [hf.1]; decide
  | some n =>
    rcases hf.2 with ⟨rfl, h2⟩ | ⟨rfl, h2⟩ | ⟨rfl, h2⟩ | ⟨rfl, h2⟩ | ⟨rfl, h2⟩ <;> rw [h2] <;> decide

/-- Under every rule set other than `c_cpp`, and without one, it can also change it: by ptrace, or, under `c_cpp_file_io`, through `/proc/<pid>/mem` opened for writing. -/
theorem C137_witness_change (name : Option CStr) (hn : ∀ n, name = some n → n ∈ profileNames) (hc : name ≠ some c!"c_cpp") :
    ∃ q, Judging { sampleConfig with seccompRuleName := name } q ∧ CanDo Changes ⟨[q], fun _ => 0⟩ neighbour := by
  obtain ⟨q, hj, hs⟩ := sample_any name hn
  have hf := C23_profile_enforced _ _ _ _ hs
  by_cases hio : name = some c!"c_cpp_file_io"
  · refine ⟨q, hj, q, List.mem_singleton.2 rfl, Req.mk' 257 [0, 0x1000, 2], .inr (.inr (.inr ⟨rfl, by decide⟩)), ?_, sample_attach hj⟩
    subst hio
    rcases hf.2 with ⟨h1, h2⟩ | ⟨h1, h2⟩ | ⟨h1, h2⟩ | ⟨h1, h2⟩ | ⟨h1, h2⟩ <;>
      first
      | exact absurd h1 (by decide)
      | (rw [h2]; decide)
  · refine ⟨q, hj, q, List.mem_singleton.2 rfl, Req.mk' 101 [16, 4711], .inr (.inl (by decide)), ?_, sample_attach hj⟩
    cases name with
    | none => rw [hf.1]; decide
    | some n =>
      rcases hf.2 with ⟨rfl, h2⟩ | ⟨rfl, h2⟩ | ⟨rfl, h2⟩ | ⟨rfl, h2⟩ | ⟨rfl, h2⟩ <;>
        first
        | exact absurd rfl hc
        | exact absurd rfl hio
        | (rw [h2]; decide)

/-- Without a rule set the program can change even the judger, through a set-user-ID root file. -/
theorem C137_witness_judger : ∃ q t, Judging { sampleConfig with seccompRuleName := none } q ∧ Life ⟨[q], fun _ => 0⟩ t ∧
    CanDo Changes t ⟨⟨0, 0, 0⟩, ⟨0, 0, 0⟩⟩ := by
  obtain ⟨q, hj, hs⟩ := sample_any none (by simp)
  have hp := C23_profile_enforced _ _ _ _ hs
  have hf : q.filters = [] := hp.1
  have hn : q.noNewPrivs = false := hp.2
  have h1 := Life.act (Life.start ⟨[q], fun _ => 0⟩) 0 q _ rfl (Act.execs q ⟨some 0, none⟩)
  refine ⟨q, _, hj, h1, _, List.mem_singleton.2 rfl, Req.mk' 101 [16, 1], .inr (.inl (by decide)), ?_, .inl ?_⟩
  · show evalAll q.filters _ = _
    rw [hf]
    decide
  · simp [Proc.privileged, Ids.exec, hn]

/-- C137 is false of the code. -/
theorem C137_false : ¬C137_full := by
  intro h
  obtain ⟨q, hq, hc⟩ := C137_witness_read (some c!"c_cpp") (fun n h => by cases h; simp [profileNames])
  exact (h _ q _ _ _ hq (.start _)).1 hc

/-- A program under `c_cpp` cannot change its neighbour under `node`, although both run under the same ids. -/
example : ∃ q q', Judging { sampleConfig with seccompRuleName := some c!"node" } q ∧
    Judging { sampleConfig with seccompRuleName := some c!"c_cpp" } q' ∧
    ∀ t, Life ⟨[q'], fun _ => 0⟩ t → ¬CanDo Changes t ⟨q.uid, q.gid⟩ := by
  obtain ⟨q, hq, _⟩ := sample_any (some c!"node") (fun n h => by cases h; simp [profileNames])
  obtain ⟨q', hq', hs⟩ := sample_any (some c!"c_cpp") (fun n h => by cases h; simp [profileNames])
  exact ⟨q, q', hq, hq', fun t ht => C137_c_cpp_partial _ _ _ _ _ t _ rfl hs ht⟩

/-- Two judgings under `c_cpp`, as 65534 and as 65533: neither can read the other. -/
example : ∃ q q', Judging sampleConfig q ∧ Judging { sampleConfig with uid := 65533 } q' ∧ ∀ t t', Life ⟨[q], fun _ => 0⟩ t → Life ⟨[q'], fun _ => 0⟩ t' →
    (∀ m ∈ t'.procs, ¬CanDo Looks t ⟨m.uid, m.gid⟩) ∧ ∀ m ∈ t.procs, ¬CanDo Looks t' ⟨m.uid, m.gid⟩ := by
  obtain ⟨q, hq, _⟩ := sample_any (some c!"c_cpp") (fun n h => by cases h; simp [profileNames])
  obtain ⟨q', hq'⟩ := C17_starts { sampleConfig with uid := 65533 } (sampleChild fun _ => false) sampleProc sampleConfig_ok
    (by simp [sampleConfig]) rfl rfl (by simp [sampleConfig, profileNames]) (fun _ _ => rfl)
  obtain ⟨h1, h2, h3, h4, h5, h6, h7, h8, h9⟩ := sampleConfig_range
  have hj : Judging { sampleConfig with uid := 65533 } q' :=
    ⟨sampleConfig_ok, ⟨h1, h2, h3, h4, h5, h6, h7, by simp, h9⟩, by decide, by simp only [sampleConfig]; decide, _, _, _, _, _, hq'⟩
  refine ⟨q, q', hq, hj, fun t t' ht ht' => ⟨fun m hm => ?_, fun m hm => ?_⟩⟩
  · exact C137_apart_partial _ _ _ _ _ _ _ _ hq hj (by simp) (by simp [sampleConfig]) (.inl (by simp [sampleConfig])) ht ht' m hm _
  · exact C137_apart_partial _ _ _ _ _ _ _ _ hj hq (by simp [sampleConfig]) (by simp) (.inl (by simp [sampleConfig])) ht' ht m hm _

/-- Under `golang` root is out of reach. -/
example : ∃ q, Judging { sampleConfig with seccompRuleName := some c!"golang" } q ∧
    ∀ t, Life ⟨[q], fun _ => 0⟩ t → ¬CanDo Looks t ⟨⟨0, 0, 0⟩, ⟨0, 0, 0⟩⟩ := by
  obtain ⟨q, hq, _⟩ := sample_any (some c!"golang") (fun n h => by cases h; simp [profileNames])
  exact ⟨q, hq, fun t ht => C137_others_partial _ q _ t _ hq (by simp) (.inl (by simp [sampleConfig])) ht _⟩

end Judger
