import Verif.Props.NodeCall
import Verif.Props.PythonCall
import Verif.Props.Family
import Verif.Spec.Pipes

/-! # C108: a call of a binding ends when the judger has ended -/

set_option autoImplicit false

namespace Judger

open Judger.Spec

/-- The judger, writing its own output to `pipes`, has judged a program that it had started as process `pid`: `wait4` reported the outcome `t`, and
`G` are the processes of the program that exist then, or later; a stopped process exists, one that has ended does not. -/
structure Leaves (c : Config) (names : CStr → Nat) (inherited : Nat → Nat) (pipes : List Nat) (pid : Nat) (t : Termination) (G : List Holder) :
    Prop where
  started : ∃ ce p q, Started c ce p q ∧ OnPipes inherited pipes p ∧
    Carries pipes [⟨pid, HasOpen names inherited p.ofds.length q, q.filters⟩] G
  completed : ∃ e, Completed c e pid t
  over : t.Ended → ∀ x ∈ G, x.pid ≠ pid

/-- C108 for Python: `communicate()` (`__init__.py`:81) reads the judger's standard output and error to their ends. -/
def C108_python_full : Prop :=
  ∀ (q : Spec.Python.Request) (posix : Bool) (junk : Cells) (argv : List CStr) (c : Config) (names : CStr → Nat) (inherited : Nat → Nat)
    (out err pid : Nat) (t : Termination) (G : List Holder), q.Ok → Py.start q.call = .popen argv → MainDoes posix junk argv (.runs c) →
    Leaves c names inherited [out, err] pid t G → AtEnd [out, err] G

/-- C108 for Node: `fgets` (judger.cc:185) reads the judger's standard output to its end. -/
def C108_node_full : Prop :=
  ∀ (q : Spec.Node.Request) (posix : Bool) (junk : Cells) (cmd : CStr) (argv : List CStr) (c : Config) (names : CStr → Nat) (inherited : Nat → Nat)
    (out pid : Nat) (t : Termination) (G : List Holder), q.Ok → Node.command q.get = .ok cmd → Spec.Shell.commands cmd = some [argv] →
    MainDoes posix junk argv (.runs c) → Leaves c names inherited [out] pid t G → AtEnd [out] G

/-- The processes of a program that had none of the pipes never get one. -/
theorem carries_none {pipes : List Nat} {F G : List Holder} (h : Carries pipes F G) (hF : AtEnd pipes F) : AtEnd pipes G := by
  induction h with
  | start => exact hF
  | opens a b x f _ hf ih =>
    intro g hg y hy
    rcases List.mem_append.1 hy with hy | hy
    · exact ih g hg y (List.mem_append_left _ hy)
    · rcases List.mem_cons.1 hy with rfl | hy
      · rintro (rfl | h)
        · exact hf hg
        · exact ih g hg x (List.mem_append_right _ List.mem_cons_self) h
      · exact ih g hg y (List.mem_append_right _ (List.mem_cons_of_mem _ hy))
  | closes a b x fs _ hf ih =>
    intro g hg y hy
    rcases List.mem_append.1 hy with hy | hy
    · exact ih g hg y (List.mem_append_left _ hy)
    · rcases List.mem_cons.1 hy with rfl | hy
      · exact fun h => ih g hg x (List.mem_append_right _ List.mem_cons_self) (hf g h)
      · exact ih g hg y (List.mem_append_right _ (List.mem_cons_of_mem _ hy))
  | passes a b x y f _ hy' hf ih =>
    intro g hg y hy
    rcases List.mem_append.1 hy with hy | hy
    · exact ih g hg y (List.mem_append_left _ hy)
    · rcases List.mem_cons.1 hy with rfl | hy
      · rintro (rfl | h)
        · exact ih _ hg _ hy' hf
        · exact ih g hg x (List.mem_append_right _ List.mem_cons_self) h
      · exact ih g hg y (List.mem_append_right _ (List.mem_cons_of_mem _ hy))
  | installs a b x f _ ih =>
    intro g hg y hy
    rcases List.mem_append.1 hy with hy | hy
    · exact ih g hg y (List.mem_append_left _ hy)
    · rcases List.mem_cons.1 hy with rfl | hy
      · exact ih g hg x (List.mem_append_right _ List.mem_cons_self)
      · exact ih g hg y (List.mem_append_right _ (List.mem_cons_of_mem _ hy))
  | forks _ x r pid hx _ _ _ ih =>
    intro g hg y hy
    rcases List.mem_append.1 hy with hy | hy
    · exact ih g hg y hy
    · rw [List.mem_singleton.1 hy]
      exact ih g hg x hx
  | ends a b x _ ih =>
    intro g hg y hy
    rcases List.mem_append.1 hy with hy | hy
    · exact ih g hg y (List.mem_append_left _ hy)
    · exact ih g hg y (List.mem_append_right _ (List.mem_cons_of_mem _ hy))

/-- Under a C/C++ rule set there is only the program's first process. -/
theorem carries_alone {pipes : List Nat} {pid : Nat} {files : Nat → Prop} {fs : List Filter} {exe : BitVec 64} {G : List Holder}
    (hf : cCppFilter exe ∈ fs ∨ cCppFileIoFilter exe ∈ fs) (h : Carries pipes [⟨pid, files, fs⟩] G) :
    G = [] ∨ ∃ x, G = [x] ∧ x.pid = pid ∧ (cCppFilter exe ∈ x.filters ∨ cCppFileIoFilter exe ∈ x.filters) := by
  have one : ∀ (a b : List Holder) (x : Holder), (a ++ x :: b = [] ∨ ∃ y, a ++ x :: b = [y] ∧ y.pid = pid ∧
      (cCppFilter exe ∈ y.filters ∨ cCppFileIoFilter exe ∈ y.filters)) →
      a = [] ∧ b = [] ∧ x.pid = pid ∧ (cCppFilter exe ∈ x.filters ∨ cCppFileIoFilter exe ∈ x.filters) := by
    intro a b x h
    rcases h with h | ⟨y, h, h1, h2⟩
    · simp at h
    · cases a with
      | nil =>
        simp only [List.nil_append, List.cons.injEq] at h
        obtain ⟨rfl, rfl⟩ := h
        exact ⟨rfl, rfl, h1, h2⟩
      | cons z a => simp at h
  induction h with
  | start => exact .inr ⟨_, rfl, rfl, hf⟩
  | opens a b x f _ _ ih =>
    obtain ⟨rfl, rfl, h1, h2⟩ := one _ _ _ ih
    exact .inr ⟨_, rfl, h1, h2⟩
  | closes a b x f _ _ ih =>
    obtain ⟨rfl, rfl, h1, h2⟩ := one _ _ _ ih
    exact .inr ⟨_, rfl, h1, h2⟩
  | passes a b x y f _ _ _ ih =>
    obtain ⟨rfl, rfl, h1, h2⟩ := one _ _ _ ih
    exact .inr ⟨_, rfl, h1, h2⟩
  | installs a b x f _ ih =>
    obtain ⟨rfl, rfl, h1, h2⟩ := one _ _ _ ih
    exact .inr ⟨_, rfl, h1, by rcases h2 with h2 | h2 <;> simp [h2]⟩
  | forks _ x r p hx hn ha _ ih =>
    rcases ih with rfl | ⟨y, rfl, h1, h2⟩
    · cases hx
    · rw [List.mem_singleton.1 hx] at ha
      exact absurd hn (cCpp_no_fork h2 ha)
  | ends a b x _ ih =>
    obtain ⟨rfl, rfl, _⟩ := one _ _ _ ih
    exact .inl rfl

/-- A program whose streams are other files has no descriptor on the judger's pipes. -/
theorem started_has_none (c : Config) (ce : ChildEnv) (p q : Proc) (names : CStr → Nat) (inherited : Nat → Nat) (pipes : List Nat) (pi po pe : CStr)
    (h : Started c ce p q) (hp : OnPipes inherited pipes p) (hi : c.inputPath = some pi) (ho : c.outputPath = some po)
    (he : c.errorPath = some pe) (hno : names po ∉ pipes) (hne : names pe ∉ pipes) (f : Nat) (hf : f ∈ pipes) :
    ¬HasOpen names inherited p.ofds.length q f := by
  rintro ⟨fd, k, o, hk, hof, hw, rfl⟩
  obtain ⟨h0, h1, h2, -, -, -, -, hold⟩ := C20_streams c ce p q h
  obtain ⟨k0, ho0, hk0, hf0⟩ := h0 pi hi
  obtain ⟨k1, ho1, hk1, hf1⟩ := h1 po ho
  obtain ⟨k2, ho2, hk2, hf2⟩ := h2 pe he
  have std : ∀ n, n = 0 ∨ n = 1 ∨ n = 2 → q.fds.get n = some k → False := by
    rintro n (rfl | rfl | rfl) hn
    · rw [hk0] at hn; cases hn
      rw [hf0] at hof; cases hof
      cases hw
    · rw [hk1] at hn; cases hn
      rw [hf1] at hof; cases hof
      rw [if_neg (by omega)] at hf
      exact hno hf
    · rw [hk2] at hn; cases hn
      rw [hf2] at hof; cases hof
      rw [if_neg (by omega)] at hf
      exact hne hf
  by_cases h3 : 2 < fd
  · rcases C22_inherited_partial c ce p q h fd h3 (by rw [hk]; rfl) with h4 | ⟨_, h4⟩ | ⟨_, h4⟩ | ⟨_, h4⟩
    · rw [hk] at h4
      rw [if_pos (hp.known fd k h4.symm)] at hf
      exact hp.others fd k h4.symm (by omega) (by omega) hf
    · exact std 0 (by simp) (h4 ▸ hk)
    · exact std 1 (by simp) (h4 ▸ hk)
    · exact std 2 (by simp) (h4 ▸ hk)
  · exact std fd (by omega) hk

/-- C108, the part that holds, for every caller of the executable: neither `output_path` nor `error_path` leads to one of the pipes.  Then whatever
the program leaves behind does not keep the reader waiting. -/
theorem C108_other_files_partial (c : Config) (names : CStr → Nat) (inherited : Nat → Nat) (pipes : List Nat) (pid : Nat) (t : Termination)
    (G : List Holder) (pi po pe : CStr) (hi : c.inputPath = some pi) (ho : c.outputPath = some po) (he : c.errorPath = some pe)
    (hno : names po ∉ pipes) (hne : names pe ∉ pipes) (h : Leaves c names inherited pipes pid t G) : AtEnd pipes G := by
  obtain ⟨ce, p, q, hs, hp, hc⟩ := h.started
  refine carries_none hc ?_
  intro f hf x hx
  rw [List.mem_singleton.1 hx]
  exact started_has_none c ce p q names inherited pipes pi po pe hs hp hi ho he hno hne f hf

/-- C108, another part that holds: the rule sets `c_cpp` and `c_cpp_file_io`, if the program ended and was not merely stopped. -/
theorem C108_c_cpp_partial (c : Config) (names : CStr → Nat) (inherited : Nat → Nat) (pipes : List Nat) (pid : Nat) (t : Termination)
    (G : List Holder) (hn : c.seccompRuleName = some c!"c_cpp" ∨ c.seccompRuleName = some c!"c_cpp_file_io") (ht : t.Ended)
    (h : Leaves c names inherited pipes pid t G) : G = [] ∧ AtEnd pipes G := by
  obtain ⟨ce, p, q, hs, hp, hc⟩ := h.started
  have hprof := C23_profile_enforced c ce p q hs
  have hf : cCppFilter ce.exeAddr ∈ q.filters ∨ cCppFileIoFilter ce.exeAddr ∈ q.filters := by
    rcases hn with hn | hn <;> rw [hn] at hprof <;>
      rcases hprof.2 with ⟨h1, h2⟩ | ⟨h1, h2⟩ | ⟨h1, h2⟩ | ⟨h1, h2⟩ | ⟨h1, h2⟩ <;>
      first
      | (rw [h2]; simp; done)
      | exact absurd h1 (by decide)
  rcases carries_alone hf hc with rfl | ⟨x, rfl, h1, _⟩
  · exact ⟨rfl, fun _ _ x hx => by cases hx⟩
  · exact absurd h1 (h.over ht x (List.mem_singleton.2 rfl))

/-- C108 for Python, the part that holds: `output_path` and `error_path` do not lead back to the judger's own output. -/
theorem C108_python_partial (q : Spec.Python.Request) (posix : Bool) (junk : Cells) (argv : List CStr) (c : Config) (names : CStr → Nat)
    (inherited : Nat → Nat) (out err pid : Nat) (t : Termination) (G : List Holder) (hq : q.Ok) (hs : Py.start q.call = .popen argv)
    (hm : MainDoes posix junk argv (.runs c)) (h : Leaves c names inherited [out, err] pid t G)
    (hno : names q.outputPath ∉ [out, err]) (hne : names q.errorPath ∉ [out, err]) : AtEnd [out, err] G := by
  obtain ⟨argv', hs', hm'⟩ := C59_exact q hq
  rw [hs] at hs'
  cases hs'
  have := (hm' posix junk).unique hm
  cases this
  exact C108_other_files_partial _ names inherited _ pid t G _ _ _ rfl rfl rfl hno hne h

/-- C108 for Node, the part that holds: harmless texts, and both paths lead elsewhere; the default `/dev/stdout` does not (`C108_node_false`). -/
theorem C108_node_partial (q : Spec.Node.Request) (posix : Bool) (junk : Cells) (cmd : CStr) (argv : List CStr) (c : Config)
    (names : CStr → Nat) (inherited : Nat → Nat) (out pid : Nat) (t : Termination) (G : List Holder) (hq : q.Ok) (hh : Harmless q)
    (hn : (q.args.getD []).length < 255) (hcmd : Node.command q.get = .ok cmd) (hsh : Spec.Shell.commands cmd = some [argv])
    (hm : MainDoes posix junk argv (.runs c)) (h : Leaves c names inherited [out] pid t G)
    (hno : names ((q.text .outputPath).getD c!"/dev/stdout") ≠ out) (hne : names ((q.text .errorPath).getD c!"/dev/stderr") ≠ out) :
    AtEnd [out] G := by
  obtain ⟨cmd', argv', hc', ha', hm'⟩ := C63_plain_partial q hq hn hh.env hh.texts
  rw [hcmd] at hc'
  cases hc'
  rw [hsh] at ha'
  cases ha'
  have := (hm' posix junk).unique hm
  cases this
  exact C108_other_files_partial _ names inherited _ pid t G _ _ _ rfl rfl rfl (by simpa using hno) (by simpa using hne) h

/-! ## Where the reader waits -/

theorem sample_on_pipes {pipes : List Nat} (hp : ∀ f ∈ pipes, f = 1 ∨ f = 2) : OnPipes id pipes sampleProc where
  known := by
    intro fd k h
    rcases fd with _ | _ | _ | _ | fd <;> simp [sampleProc, FdTable.get] at h ⊢ <;> omega
  others := by
    intro fd k h h1 h2 hk
    rcases fd with _ | _ | _ | _ | fd <;> simp [sampleProc, FdTable.get] at h h1 h2 <;> subst h <;>
      rcases hp _ hk with h | h <;> simp at h

/-- A program whose output leads to pipe 1 has it open. -/
theorem has_pipe {c : Config} {ce : ChildEnv} {p q : Proc} {po : CStr} (h : Started c ce p q) (ho : c.outputPath = some po) :
    HasOpen (fun s => if s = po then 1 else 9) id p.ofds.length q 1 := by
  obtain ⟨-, h1, -⟩ := C20_streams c ce p q h
  obtain ⟨k, hk, hf, hof⟩ := h1 po ho
  exact ⟨1, k, _, hf, hof, rfl, by rw [if_neg (by omega)]; simp⟩

theorem sample_completed (c : Config) (t : Termination) (h : t.Valid) : Completed c (sampleEnv t.waitStatus) 4242 t :=
  ⟨rfl, rfl, .inr rfl, rfl, h, rfl, by simp [Normal, sampleEnv], by simp [Normal, sampleEnv], by simp [Normal, sampleEnv]⟩

/-- A program that was stopped keeps the reader waiting, under every rule set. -/
theorem C108_stopped_waits (c : Config) (po : CStr) (pipes : List Nat) (hc : ConfigOk c) (htop : c.maxCpuTime ≤ 2147483647 - 1000)
    (hname : ∀ name, c.seccompRuleName = some name → name ∈ profileNames) (ho : c.outputPath = some po)
    (hp : ∀ f ∈ pipes, f = 1 ∨ f = 2) (h1 : 1 ∈ pipes) :
    ∃ G, Leaves c (fun s => if s = po then 1 else 9) id pipes 4242 (.stopped 19) G ∧ ¬AtEnd pipes G := by
  obtain ⟨q, hq⟩ := C17_starts c (sampleChild fun _ => false) sampleProc hc htop rfl rfl hname (fun _ _ => rfl)
  have hs : Started c (sampleChild fun _ => false) sampleProc q := ⟨_, _, _, hq⟩
  refine ⟨_, ⟨⟨_, _, _, hs, sample_on_pipes hp, Carries.start _⟩, ⟨_, sample_completed c (.stopped 19) (by simp [Termination.Valid])⟩,
    fun h => h.elim⟩, fun h => h 1 h1 _ (List.mem_singleton.2 rfl) (has_pipe hs ho)⟩

/-- Without a rule set, and under `general`, `golang` and `node`: a program that ended and left a process behind keeps the reader waiting. -/
theorem C108_left_behind_waits (c : Config) (po : CStr) (pipes : List Nat) (hc : ConfigOk c) (htop : c.maxCpuTime ≤ 2147483647 - 1000)
    (hn : c.seccompRuleName = none ∨ c.seccompRuleName = some c!"general" ∨ c.seccompRuleName = some c!"golang" ∨
      c.seccompRuleName = some c!"node") (ho : c.outputPath = some po) (hp : ∀ f ∈ pipes, f = 1 ∨ f = 2) (h1 : 1 ∈ pipes) :
    ∃ G, Leaves c (fun s => if s = po then 1 else 9) id pipes 4242 (.exited 0) G ∧ ¬AtEnd pipes G := by
  obtain ⟨q, hq⟩ := C17_starts c (sampleChild fun _ => false) sampleProc hc htop rfl rfl
    (by intro name h; rcases hn with hn | hn | hn | hn <;> rw [hn] at h <;> cases h <;> simp [profileNames]) (fun _ _ => rfl)
  have hs : Started c (sampleChild fun _ => false) sampleProc q := ⟨_, _, _, hq⟩
  have hf := C23_profile_enforced _ _ _ _ hs
  have ha : evalAll q.filters (Req.mk' 435 [0x1000, 88]) = .allow := by
    rcases hn with hn | hn | hn | hn <;> rw [hn] at hf
    · rw [hf.1]; decide
    all_goals
      rcases hf.2 with ⟨h1, h2⟩ | ⟨h1, h2⟩ | ⟨h1, h2⟩ | ⟨h1, h2⟩ | ⟨h1, h2⟩ <;>
        first
        | (rw [h2]; decide)
        | exact absurd h1 (by decide)
  have g1 := Carries.start (pipes := pipes) [⟨4242, HasOpen (fun s => if s = po then 1 else 9) id sampleProc.ofds.length q, q.filters⟩]
  have g2 := Carries.forks g1 _ (Req.mk' 435 [0x1000, 88]) 4243 (List.mem_singleton.2 rfl) (by decide) ha
    (by intro y hy; rw [List.mem_singleton.1 hy]; simp)
  have g3 := Carries.ends [] _ _ g2
  refine ⟨_, ⟨⟨_, _, _, hs, sample_on_pipes hp, g3⟩, ⟨_, sample_completed c (.exited 0) (by simp [Termination.Valid])⟩, ?_⟩,
    fun h => h 1 h1 _ (List.mem_singleton.2 rfl) (has_pipe hs ho)⟩
  intro _ x hx
  rw [List.mem_singleton.1 hx]
  simp

/-- A call that sends the program's output to the judger's own standard output, without a rule set. -/
def loopRequest : Spec.Python.Request :=
  { sampleRequest [] [] with outputPath := c!"/dev/stdout", seccompRuleName := none }

theorem loopRequest_ok : loopRequest.Ok where
  ints := by decide
  filled := by decide
  noNul := by decide
  args := by decide
  env := by decide

/-- C108 is false of the code for Python. -/
theorem C108_python_false : ¬C108_python_full := by
  intro hfull
  obtain ⟨argv, hs, hm⟩ := C59_exact loopRequest loopRequest_ok
  obtain ⟨G, hG, hw⟩ := C108_left_behind_waits _ c!"/dev/stdout" [1, 2] (show ConfigOk { loopRequest.wanted with
      args := loopRequest.exePath :: (loopRequest.args ++ if loopRequest.args.length = 255 then loopRequest.env else []) } by
      simp [ConfigOk, LimitOk, loopRequest, sampleRequest, Spec.Python.Request.wanted, Spec.Python.orDefault])
    (by simp [loopRequest, sampleRequest, Spec.Python.Request.wanted]) (.inl rfl) rfl (by simp) (by simp)
  exact hw (hfull loopRequest true (fun _ => none) argv _ _ _ 1 2 4242 _ G loopRequest_ok hs (hm _ _) hG)

/-- C108 is false of the code for Node, even with nothing but an executable and a memory limit in the call. -/
theorem C108_node_false : ¬C108_node_full := by
  intro hfull
  have hok : (nodeSample none none).Ok := nodeSample_ok none none (by decide) (by decide) (by simp)
  obtain ⟨cmd, argv, hc, ha, hm⟩ := C63_plain_partial (nodeSample none none) hok (by decide) (.inl rfl) (by
    intro s h
    rcases nodeSample_text h with rfl | h | h
    · exact ⟨List.all_eq_true.mp (by decide), by decide⟩
    · simp at h
    · simp at h)
  obtain ⟨G, hG, hw⟩ := C108_left_behind_waits (nodeSample none none).wanted c!"/dev/stdout" [1]
    (by simp [ConfigOk, LimitOk, nodeSample, Spec.Node.Request.wanted]) (by simp [nodeSample, Spec.Node.Request.wanted])
    (.inl rfl) rfl (by simp) (by simp)
  exact hw (hfull _ true (fun _ => none) cmd argv _ _ _ 1 4242 _ G hok hc ha (hm _ _) hG)

/-- The sample program writes to a file of its own; its judging meets the conditions. -/
example : ∃ G, Leaves sampleConfig (fun _ => 9) id [1, 2] 4242 (.exited 0) G ∧ AtEnd [1, 2] G := by
  have h1 := Carries.start (pipes := [1, 2]) [⟨4242, HasOpen (fun _ => 9) id sampleProc.ofds.length
    (stateAtExec sampleConfig (sampleChild fun _ => false) sampleProc), (stateAtExec sampleConfig (sampleChild fun _ => false) sampleProc).filters⟩]
  have h2 := Carries.opens [] [] _ 7 h1 (by decide)
  have h3 := Carries.ends [] [] _ h2
  have hL : Leaves sampleConfig (fun _ => 9) id [1, 2] 4242 (.exited 0) [] :=
    ⟨⟨_, _, _, sample_started, sample_on_pipes (by simp), h3⟩, ⟨_, sample_completed _ (.exited 0) (by simp [Termination.Valid])⟩,
      fun _ x hx => by cases hx⟩
  have := C108_c_cpp_partial sampleConfig (fun _ => 9) id [1, 2] 4242 (.exited 0) [] (.inl rfl) trivial hL
  exact ⟨_, hL, C108_other_files_partial _ _ _ _ _ _ _ _ _ _ rfl rfl rfl (by simp) (by simp) hL⟩

/-- A Node call whose texts are harmless and whose streams are files, and a Python call, meet the conditions. -/
def fileRequest : Spec.Node.Request where
  int := fun _ => none
  text := fun o => if o = .exePath then some c!"/bin/echo" else if o = .outputPath then some c!"a.out" else if o = .errorPath then some c!"a.err" else none
  args := none
  env := none

theorem fileRequest_text {s : CStr} (h : fileRequest.HasText s) : s = c!"/bin/echo" ∨ s = c!"a.out" ∨ s = c!"a.err" := by
  rcases h with ⟨o, _, h⟩ | h | h
  · simp only [fileRequest] at h
    split at h
    · exact .inl (by simpa using h.symm)
    · split at h
      · exact .inr (.inl (by simpa using h.symm))
      · split at h
        · exact .inr (.inr (by simpa using h.symm))
        · cases h
  · cases h
  · cases h

example : fileRequest.Ok ∧ Harmless fileRequest ∧
    (fun s => if s = c!"/dev/stdout" then 1 else 9) ((fileRequest.text .outputPath).getD c!"/dev/stdout") ≠ 1 := by
  refine ⟨⟨⟨_, rfl⟩, ?_, ?_, ?_, ?_, ?_⟩, ⟨?_, ?_⟩, ?_⟩
  · intro o n h; cases h
  · intro s h; rcases fileRequest_text h with rfl | rfl | rfl <;> decide
  · intro s h; rcases fileRequest_text h with rfl | rfl | rfl <;> decide
  · decide
  · decide
  · intro s h
    rcases fileRequest_text h with rfl | rfl | rfl <;> exact ⟨List.all_eq_true.mp (by decide), by decide⟩
  · exact .inl rfl
  · decide

example : (sampleRequest [c!"x"] []).Ok ∧ (fun s => if s = c!"/dev/stdout" then 1 else 9) (sampleRequest [c!"x"] []).outputPath ∉ [1, 2] ∧
    (fun s => if s = c!"/dev/stdout" then 1 else 9) (sampleRequest [c!"x"] []).errorPath ∉ [1, 2] :=
  ⟨sampleRequest_ok _ _ (by decide) (by decide) (by decide), by decide, by decide⟩

end Judger
