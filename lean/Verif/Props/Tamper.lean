import Verif.Props.Secret
import Verif.Spec.Tamper

/-! # C142: a judged program changes and removes no files of other users -/

set_option autoImplicit false

namespace Judger

open Judger.Spec

/-- C142, the full claim: a file that does not belong to the user of the program is never changed by it or its descendants, and if its directory does not
belong to that user either, never removed. -/
def C142_full : Prop :=
  ∀ (c : Config) (q : Proc) (size : Nat → Nat) (i j d k : Inode) (t : Scene), Judging c q → i.owner ≠ c.uid → d.owner ≠ c.uid →
    Pries ⟨[q], size⟩ i t j → Pries ⟨[q], size⟩ d t k → ¬CanAlter t j ∧ ¬CanRemove t j k

theorem asked_who {c : Config} {q : Proc} {size : Nat → Nat} {t : Scene} (h : Judging c q) (hn : c.seccompRuleName ≠ none) (hl : Life ⟨[q], size⟩ t) :
    ∀ m ∈ t.procs, asWho m = asAsked c := by
  intro m hm
  have hc := C86_confined_partial c q size t h hn hl m hm
  unfold asWho asAsked
  rw [hc.uid, hc.gid, hc.groups]

/-- What the filters of the request let pass, where the caller is under none. -/
theorem passes_started {c : Config} {ce : ChildEnv} {p q : Proc} (hf : p.filters = []) (hs : Started c ce p q) (r : Req) (hr : r.native = true)
    (h1 : ∀ x, cCppAnswer x r = .allow) (h2 : ∀ x, cCppFileIoAnswer x r = .allow) (h3 : ∀ x b, generalAnswer x b r = .allow)
    (h4 : ∀ b, golangAnswer b r = .allow) (h5 : ∀ b, nodeAnswer b r = .allow) : evalAll q.filters r = .allow := by
  have hp := C23_profile_enforced c ce p q hs
  have one : ∀ f : Filter, f.eval r = .allow → evalAll [f] r = .allow := by
    intro f h
    show Action.min (f.eval _) .allow = .allow
    rw [h]
    rfl
  cases hname : c.seccompRuleName with
  | none => rw [hname] at hp; rw [hp.1, hf]; rfl
  | some name =>
    rw [hname] at hp
    rcases hp.2 with ⟨_, h⟩ | ⟨_, h⟩ | ⟨_, h⟩ | ⟨_, h⟩ | ⟨_, h⟩ <;> rw [h, hf] <;> apply one
    · rw [cCpp_eval _ hr]; exact h1 _
    · rw [cCppFileIo_eval _ hr]; exact h2 _
    · rw [general_eval _ _ hr]; exact h3 _ _
    · rw [golang_eval _ hr]; exact h4 _
    · rw [node_eval _ hr]; exact h5 _

/-- `openat(dirfd, path, O_RDONLY|O_TRUNC)`. -/
def emptying : Req := Req.mk' 257 [0, 0x1000, 0x200]

/-- Every rule set lets a file be emptied. -/
theorem emptying_allowed {c : Config} {ce : ChildEnv} {p q : Proc} (hf : p.filters = []) (hs : Started c ce p q) : evalAll q.filters emptying = .allow := by
  refine passes_started hf hs emptying rfl ?_ ?_ ?_ ?_ ?_
  · intro x; simp [cCppAnswer, emptying, Req.mk', readOnly, accessMode]
  · intro x; simp [cCppFileIoAnswer, emptying, Req.mk']
  · intro x b; simp [generalAnswer, emptying, Req.mk', readOnly, accessMode]
  · intro b; simp [golangAnswer, emptying, Req.mk', readOnly, accessMode]
  · intro b; simp [nodeAnswer, emptying, Req.mk']

/-- C142, settled for every rule set: a program can come to change a file of another user exactly if its mode lets the user and the group of the request write to it
(callers under no filter of their own). -/
theorem C142_alter_exact (c : Config) (ce : ChildEnv) (p q : Proc) (size : Nat → Nat) (i : Inode) (h : Judging c q) (hs : Started c ce p q)
    (hf : p.filters = []) (hn : c.seccompRuleName ≠ none) (hi : i.owner ≠ c.uid) :
    (∃ t j, Pries ⟨[q], size⟩ i t j ∧ CanAlter t j) ↔ (asAsked c).mayWrite i := by
  constructor
  · rintro ⟨t, j, h1, m, hm, r, _, _, hw⟩
    obtain ⟨hl, rfl⟩ := pries_same h hn hi h1
    rwa [asked_who h hn hl m hm] at hw
  · intro hw
    refine ⟨_, i, .lives (.start _), q, List.mem_singleton.2 rfl, emptying, .inr (.inr (.inr ⟨rfl, .inr (by decide)⟩)), emptying_allowed hf hs, ?_⟩
    rwa [asked_who (size := size) h hn (.start _) q (List.mem_singleton.2 rfl)]

/-- C142, the part that holds: with a rule set, files of other users that are closed for writing, in directories that are.  Missing: the others
(`C142_witness_alter`, `C142_witness_remove`), and programs without a rule set, which may become root (`C141_witness_root`). -/
theorem C142_closed_partial (c : Config) (q : Proc) (size : Nat → Nat) (i j d k : Inode) (t : Scene) (h : Judging c q) (hn : c.seccompRuleName ≠ none)
    (hi : i.owner ≠ c.uid) (hd : d.owner ≠ c.uid) (hp : Pries ⟨[q], size⟩ i t j) (hq : Pries ⟨[q], size⟩ d t k) :
    (¬(asAsked c).mayWrite i → ¬CanAlter t j) ∧ (¬(asAsked c).mayRemove i d → ¬CanRemove t j k) := by
  obtain ⟨hl, rfl⟩ := pries_same h hn hi hp
  obtain ⟨_, rfl⟩ := pries_same h hn hd hq
  refine ⟨?_, ?_⟩
  · rintro hw ⟨m, hm, r, _, _, hr⟩
    rw [asked_who h hn hl m hm] at hr
    exact hw hr
  · rintro hw ⟨m, hm, r, _, _, hr⟩
    rw [asked_who h hn hl m hm] at hr
    exact hw hr

/-- C142, under `c_cpp` and `c_cpp_file_io`: nothing is removed, whosever it is. -/
theorem C142_c_cpp_partial (c : Config) (ce : ChildEnv) (p q : Proc) (size : Nat → Nat) (t : Scene) (i d : Inode)
    (hn : c.seccompRuleName = some c!"c_cpp" ∨ c.seccompRuleName = some c!"c_cpp_file_io") (hs : Started c ce p q) (hl : Life ⟨[q], size⟩ t) :
    ¬CanRemove t i d := by
  rintro ⟨m, hm, r, hr, ha, _⟩
  have hprof := C23_profile_enforced c ce p q hs
  have key : ∀ f ∈ q.filters, (∀ r : Req, r.native = true → Removes r → f.eval r ≠ .allow) → False := by
    intro f hf hno
    have hmem := life_filters hf hl m hm
    have hnat := allowed_native ha hmem
    exact hno r hnat (hr.resolve_left (by rw [hnat]; simp)) (evalAll_allow ha _ hmem)
  have hcpp : ∀ exe, cCppFilter exe ∈ q.filters → False := fun exe hf => key _ hf fun r hr hx => by
    simp only [Removes, List.mem_cons, List.not_mem_nil, or_false] at hx
    rw [cCpp_eval _ hr]
    rcases hx with hx | hx | hx | hx | hx | hx <;> simp [cCppAnswer, hx]
  have hio : ∀ exe, cCppFileIoFilter exe ∈ q.filters → False := fun exe hf => key _ hf fun r hr hx => by
    simp only [Removes, List.mem_cons, List.not_mem_nil, or_false] at hx
    rw [cCppFileIo_eval _ hr]
    rcases hx with hx | hx | hx | hx | hx | hx <;> simp [cCppFileIoAnswer, cCppAnswer, hx]
  rcases hn with hn | hn <;> rw [hn] at hprof <;>
    rcases hprof.2 with ⟨h1, h2⟩ | ⟨h1, h2⟩ | ⟨h1, h2⟩ | ⟨h1, h2⟩ | ⟨h1, h2⟩
  · exact hcpp ce.exeAddr (by rw [h2]; simp)
  · exact absurd h1 (by decide)
  · exact absurd h1 (by decide)
  · exact absurd h1 (by decide)
  · exact absurd h1 (by decide)
  · exact absurd h1 (by decide)
  · exact hio ce.exeAddr (by rw [h2]; simp)
  · exact absurd h1 (by decide)
  · exact absurd h1 (by decide)
  · exact absurd h1 (by decide)

/-- A file of root that everybody may write to, and a directory of root that everybody may write to, once with the sticky bit. -/
def sharedFile : Inode := ⟨0, 0, 0o666⟩
@[inherit_doc sharedFile] def sharedDir : Inode := ⟨0, 0, 0o777⟩
@[inherit_doc sharedFile] def stickyDir : Inode := ⟨0, 0, 0o1777⟩

/-- Under every rule set, also `c_cpp`, and without one, the program can empty a file that everybody may write to. -/
theorem C142_witness_alter (name : Option CStr) (hn : ∀ n, name = some n → n ∈ profileNames) :
    ∃ q, Judging { sampleConfig with seccompRuleName := name } q ∧ CanAlter ⟨[q], fun _ => 0⟩ sharedFile := by
  obtain ⟨q, hj, hs⟩ := sample_any name hn
  have hc := judging_confined hj
  refine ⟨q, hj, q, List.mem_singleton.2 rfl, emptying, .inr (.inr (.inr ⟨rfl, .inr (by decide)⟩)), emptying_allowed rfl hs, ?_⟩
  unfold asWho
  rw [hc.uid, hc.gid, hc.groups]
  right
  simp only [sampleConfig]
  decide

/-- Under `general`, `golang`, `node`, and without a rule set, it can remove a file from a directory that everybody may write to, even one closed to it. -/
theorem C142_witness_remove (name : Option CStr) (hn : ∀ n, name = some n → n ∈ [c!"general", c!"golang", c!"node"]) :
    ∃ q, Judging { sampleConfig with seccompRuleName := name } q ∧ CanRemove ⟨[q], fun _ => 0⟩ closedAnswers sharedDir := by
  obtain ⟨q, hj, hs⟩ := sample_any name (fun n h => List.mem_cons_of_mem _ (List.mem_cons_of_mem _ (hn n h)))
  have hc := judging_confined hj
  have hf := C23_profile_enforced _ _ _ _ hs
  refine ⟨q, hj, q, List.mem_singleton.2 rfl, Req.mk' 87 [0x1000], .inr (by simp [Removes, Req.mk']), ?_, ?_, ?_⟩
  · cases name with
    | none => rw [hf.1]; decide
    | some n =>
      have hm := hn n rfl
      simp only [List.mem_cons, List.not_mem_nil, or_false] at hm
      rcases hm with rfl | rfl | rfl <;>
        rcases hf.2 with ⟨h1, h2⟩ | ⟨h1, h2⟩ | ⟨h1, h2⟩ | ⟨h1, h2⟩ | ⟨h1, h2⟩ <;>
        first
        | exact absurd h1 (by decide)
        | (rw [h2]; decide)
  · unfold asWho
    rw [hc.uid, hc.gid, hc.groups]
    right
    simp only [sampleConfig]
    decide
  · intro h
    exact absurd h (by decide)

/-- The sample judging under `c_cpp`: it can empty the file of root that everybody may write to, and not the one closed to it. -/
example (size : Nat → Nat) (h : Judging sampleConfig (stateAtExec sampleConfig (sampleChild fun _ => false) sampleProc)) :
    (∃ t j, Pries ⟨[stateAtExec sampleConfig (sampleChild fun _ => false) sampleProc], size⟩ sharedFile t j ∧ CanAlter t j) ∧
    ¬∃ t j, Pries ⟨[stateAtExec sampleConfig (sampleChild fun _ => false) sampleProc], size⟩ openAnswers t j ∧ CanAlter t j := by
  constructor
  · refine (C142_alter_exact sampleConfig _ _ _ size sharedFile h sample_started rfl (by simp [sampleConfig]) (by simp only [sampleConfig, sharedFile]; decide)).2 (.inr ?_)
    simp only [asAsked, sampleConfig]
    decide
  · rw [C142_alter_exact sampleConfig _ _ _ size openAnswers h sample_started rfl (by simp [sampleConfig]) (by simp only [sampleConfig, openAnswers]; decide)]
    rintro (h | h)
    · exact absurd h (by simp only [asAsked, sampleConfig]; decide)
    · exact absurd h (by simp only [asAsked, sampleConfig]; decide)

/-- The sample judging under `c_cpp` removes nothing, not even what is its own. -/
example (size : Nat → Nat) (t : Scene) (hl : Life ⟨[stateAtExec sampleConfig (sampleChild fun _ => false) sampleProc], size⟩ t) :
    ¬CanRemove t ⟨sampleConfig.uid, sampleConfig.gid, 0o644⟩ sharedDir :=
  C142_c_cpp_partial sampleConfig _ _ _ size t _ _ (.inl rfl) sample_started hl

/-- C142 is false of the code. -/
theorem C142_false : ¬C142_full := by
  intro h
  obtain ⟨q, hq, hc⟩ := C142_witness_alter (some c!"c_cpp") (fun n h => by cases h; simp [profileNames])
  exact (h _ q _ sharedFile _ sharedDir _ _ hq (by simp only [sampleConfig, sharedFile]; decide) (by simp only [sampleConfig, sharedDir]; decide)
    (.lives (.start _)) (.lives (.start _))).1 hc

/-- Under `general` the sticky bit keeps the closed file where it is, and as it is. -/
example : ∃ q, Judging { sampleConfig with seccompRuleName := some c!"general" } q ∧
    ∀ t j k, Pries ⟨[q], fun _ => 0⟩ closedAnswers t j → Pries ⟨[q], fun _ => 0⟩ stickyDir t k → ¬CanAlter t j ∧ ¬CanRemove t j k := by
  obtain ⟨q, hj, _⟩ := sample_any (some c!"general") (fun n h => by cases h; simp [profileNames])
  refine ⟨q, hj, fun t j k h h' => ?_⟩
  obtain ⟨h1, h2⟩ := C142_closed_partial _ q _ closedAnswers j stickyDir k t hj (by simp) (by simp only [sampleConfig, closedAnswers]; decide)
    (by simp only [sampleConfig, stickyDir]; decide) h h'
  refine ⟨h1 ?_, h2 ?_⟩
  · rintro (h | h)
    · exact absurd h (by simp only [asAsked, sampleConfig]; decide)
    · exact absurd h (by simp only [asAsked, sampleConfig]; decide)
  · rintro ⟨_, h⟩
    have := h (by decide)
    revert this
    simp only [asAsked, sampleConfig, closedAnswers, stickyDir]
    decide

end Judger
