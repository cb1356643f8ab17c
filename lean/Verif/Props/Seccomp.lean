import Verif.Lemmas.Seccomp
import Verif.Props.Child

/-!
# C26–C36, C69: what a started program can and cannot do under each profile

`Started c e p q` is "the judger started the program, in process state `q`" (`Spec/Child`); `Run w w'` is any sequence of
computations and system calls of the program (`Spec/Sandbox`).  The theorems quantify over every such sequence.
-/

set_option autoImplicit false

namespace Judger

open Judger.Spec

/-- The program runs from `w` to `w'` after being started under the profile `name`. -/
structure Judged (name : CStr) (e : ChildEnv) (w w' : World) : Prop where
  started : ∃ c p q, c.seccompRuleName = some name ∧ Started c e p q ∧ w.filters = q.filters
  run : Run w w'

/-- The sample started under another profile: hypothesis `Judged` is satisfiable for each of the five. -/
def sampleAs (name : CStr) : Config := { sampleConfig with seccompRuleName := some name }

theorem sampleAs_started (name : CStr) (hn : name ∈ profileNames) :
    ∃ q, Started (sampleAs name) (sampleChild fun _ => false) sampleProc q := by
  obtain ⟨q, h⟩ := C17_starts (sampleAs name) (sampleChild fun _ => false) sampleProc
    (by simp [ConfigOk, LimitOk, sampleAs, sampleConfig]) (by simp [sampleAs, sampleConfig]) rfl rfl
    (fun _ h => by cases h; exact hn) (fun _ _ => rfl)
  exact ⟨q, _, _, _, h⟩

/-- The world in which the sample program starts: descriptors 0–2, one task. -/
def sampleWorld (filters : List Filter) : World where
  mem := fun _ => c!""
  fds := fun n => if n = 0 then some ⟨0, false⟩ else if n = 1 then some ⟨1, true⟩ else if n = 2 then some ⟨2, true⟩ else none
  tasks := 1
  filters := filters
  events := []

theorem judged_start (name : CStr) (hn : name ∈ profileNames) (filters : List Filter)
    (hf : ∀ q, Started (sampleAs name) (sampleChild fun _ => false) sampleProc q → q.filters = filters) :
    Judged name (sampleChild fun _ => false) (sampleWorld filters) (sampleWorld filters) := by
  obtain ⟨q, hq⟩ := sampleAs_started name hn
  exact ⟨⟨_, _, q, rfl, hq, (hf q hq).symm⟩, .start _⟩

theorem judged_call {name : CStr} {e : ChildEnv} {w w' w'' : World} (h : Judged name e w w') (r : Req)
    (ha : evalAll w'.filters r = .allow) (hk : Kernel r w' w'') : Judged name e w w'' :=
  ⟨h.started, h.run.call r ha hk⟩

theorem judged_compute {name : CStr} {e : ChildEnv} {w w' : World} (h : Judged name e w w') (m : BitVec 64 → CStr) :
    Judged name e w { w' with mem := m } :=
  ⟨h.started, h.run.compute m⟩

/-! ## Facts about runs -/

theorem Spec.Kernel.keeps {r : Req} {w w' : World} (h : Kernel r w w') : ∃ gs, w'.filters = gs ++ w.filters := by
  cases h
  case installs f _ => exact ⟨[f], rfl⟩
  all_goals exact ⟨[], rfl⟩

theorem Spec.Run.keeps {w w' : World} (h : Run w w') : ∃ gs, w'.filters = gs ++ w.filters := by
  induction h with
  | start => exact ⟨[], rfl⟩
  | compute _ _ ih => exact ih
  | call _ _ _ hk ih =>
    obtain ⟨gs, h1⟩ := ih
    obtain ⟨gs', h2⟩ := hk.keeps
    exact ⟨gs' ++ gs, by rw [h2, h1, List.append_assoc]⟩

theorem Spec.Run.mem_filters {w w' : World} (h : Run w w') {f : Filter} (hf : f ∈ w.filters) : f ∈ w'.filters := by
  obtain ⟨gs, h⟩ := h.keeps
  rw [h]
  exact List.mem_append_right _ hf

theorem allowed_native {fs : List Filter} {f : Filter} {r : Req} (h : evalAll fs r = .allow) (hf : f ∈ fs) :
    r.native = true := by
  cases hn : r.native with
  | true => rfl
  | false =>
    have := evalAll_allow h f hf
    rw [eval_foreign f hn] at this
    cases this

theorem judged_filter {name : CStr} {e : ChildEnv} {w w' : World} (h : Judged name e w w') :
    (name = c!"c_cpp" → cCppFilter e.exeAddr ∈ w.filters) ∧
    (name = c!"c_cpp_file_io" → cCppFileIoFilter e.exeAddr ∈ w.filters) ∧
    (name = c!"general" → generalFilter e.exeAddr e.hasExecveat ∈ w.filters) ∧
    (name = c!"golang" → golangFilter e.hasExecveat ∈ w.filters) ∧
    (name = c!"node" → nodeFilter e.hasExecveat ∈ w.filters) := by
  obtain ⟨⟨c, p, q, hn, hs, hw⟩, _⟩ := h
  have := C23_profile_enforced c e p q hs
  rw [hn] at this
  rw [hw]
  refine ⟨?_, ?_, ?_, ?_, ?_⟩ <;> rintro rfl <;>
    rcases this.2 with ⟨h1, h2⟩ | ⟨h1, h2⟩ | ⟨h1, h2⟩ | ⟨h1, h2⟩ | ⟨h1, h2⟩ <;>
    first
    | (rw [h2]; exact List.mem_cons_self)
    | exact absurd h1 (by decide)

theorem sample_filters (name : CStr) (f : Filter) (hp : profileOf (sampleChild fun _ => false) name = some f) (q : Proc)
    (h : Started (sampleAs name) (sampleChild fun _ => false) sampleProc q) : q.filters = [f] := by
  obtain ⟨rfl, _⟩ := started_inv h
  rw [stateAtExec_eq, (afterSeccomp_filters (sampleAs name) _ _ f name rfl hp).1, (ids_filters _ _).1,
    (redirections_frame _ _).2.2.2.2.1]
  rfl

/-- A freshly started program for each profile. -/
theorem sample_judged (name : CStr) (f : Filter) (hn : name ∈ profileNames)
    (hp : profileOf (sampleChild fun _ => false) name = some f) :
    Judged name (sampleChild fun _ => false) (sampleWorld [f]) (sampleWorld [f]) :=
  judged_start name hn _ (sample_filters name f hp)

/-! ## C26 -/

/-- C26: each of the five profiles lets the judger's own `execve` pass, whatever the addresses. -/
theorem C26_own_exec (exe argv envp : BitVec 64) (x : Bool) (f : Filter)
    (hf : f ∈ [cCppFilter exe, cCppFileIoFilter exe, generalFilter exe x, golangFilter x, nodeFilter x]) :
    evalAll [f] (Req.mk' 59 [exe, argv, envp]) = .allow := by
  have hone : ∀ f : Filter, f.eval (Req.mk' 59 [exe, argv, envp]) = .allow → evalAll [f] (Req.mk' 59 [exe, argv, envp]) = .allow := by
    intro f h
    simp only [evalAll, h]
    rfl
  simp only [List.mem_cons, List.not_mem_nil, or_false] at hf
  rcases hf with rfl | rfl | rfl | rfl | rfl <;> apply hone
  · rw [cCpp_eval _ rfl]; simp [cCppAnswer, Req.mk']
  · rw [cCppFileIo_eval _ rfl]; simp [cCppFileIoAnswer, cCppAnswer, Req.mk']
  · rw [general_eval _ _ rfl]; simp [generalAnswer, Req.mk']
  · rw [golang_eval _ rfl]; simp [golangAnswer, Req.mk']
  · rw [node_eval _ rfl]; simp [nodeAnswer, Req.mk']

example : ∃ f, f ∈ [cCppFilter 5, cCppFileIoFilter 5, generalFilter 5 true, golangFilter true, nodeFilter true] := ⟨_, List.mem_cons_self⟩

/-! ## C27–C30: the C/C++ profiles -/

/-- What gets through when a C/C++ filter is in force. -/
theorem underCCpp_allow {exe : BitVec 64} {w : World} {r : Req} (hu : UnderCCpp exe w) (ha : evalAll w.filters r = .allow) :
    r.native = true ∧ cCppFileIoAnswer exe r = .allow := by
  rcases hu with h | h
  · have hn := allowed_native ha h
    refine ⟨hn, ?_⟩
    have := evalAll_allow ha _ h
    rw [cCpp_eval _ hn] at this
    unfold cCppFileIoAnswer
    split
    · rfl
    · exact this
  · have hn := allowed_native ha h
    refine ⟨hn, ?_⟩
    have := evalAll_allow ha _ h
    rwa [cCppFileIo_eval _ hn] at this

/-- The numbers of the requests that can get through. -/
theorem cCppFileIoAnswer_allow {exe : BitVec 64} {r : Req} (h : cCppFileIoAnswer exe r = .allow) :
    r.nr ∈ [0, 1, 2, 3, 5, 8, 9, 10, 11, 12, 17, 19, 20, 21, 32, 33, 89, 158, 202, 218, 228, 231, 257, 262, 269, 273, 292, 302,
      318, 334] ∨ (r.nr = 59 ∧ r.args 0 = exe) := by
  unfold cCppFileIoAnswer cCppAnswer at h
  split at h
  · rename_i h'
    left
    simp only [List.mem_cons, List.not_mem_nil, or_false] at h' ⊢
    omega
  split at h
  · rename_i h'
    left
    simp only [List.mem_cons, List.not_mem_nil, or_false] at h' ⊢
    omega
  split at h
  · right; assumption
  split at h
  · rename_i h'
    left
    simp only [List.mem_cons, List.not_mem_nil, or_false]
    omega
  split at h
  · rename_i h'
    left
    simp only [List.mem_cons, List.not_mem_nil, or_false]
    omega
  · cases h

theorem cCppAnswer_allow {exe : BitVec 64} {r : Req} (h : cCppAnswer exe r = .allow) :
    r.nr ∈ [0, 1, 2, 3, 5, 8, 9, 10, 11, 12, 17, 19, 20, 21, 89, 158, 202, 218, 228, 231, 257, 262, 269, 273, 302, 318, 334,
      59] ∧ (r.nr = 2 → readOnly (r.args 1) = true) ∧ (r.nr = 257 → readOnly (r.args 2) = true) := by
  unfold cCppAnswer at h
  simp only [List.mem_cons, List.not_mem_nil, or_false] at h ⊢
  split at h
  · omega
  split at h
  · omega
  split at h
  · rename_i h'
    exact ⟨by omega, fun _ => h'.2, by omega⟩
  split at h
  · rename_i h'
    exact ⟨by omega, by omega, fun _ => h'.2⟩
  · cases h

theorem cCpp_step {exe : BitVec 64} {w w' : World} {r : Req} (hu : UnderCCpp exe w)
    (ha : evalAll w.filters r = .allow) (hk : Kernel r w w') :
    w'.tasks = w.tasks ∧ ∃ evs, w'.events = evs ++ w.events ∧ ∀ ptr path, .execed ptr path ∈ evs → ptr = exe := by
  have hall := cCppFileIoAnswer_allow (underCCpp_allow hu ha).2
  simp only [List.mem_cons, List.not_mem_nil, or_false] at hall
  have hopen : ∀ flags path, ∀ ptr p, Event.execed ptr p ∉ openEvents flags path := by
    intro flags path ptr p h
    unfold openEvents at h
    rcases List.mem_append.1 h with h | h <;> split at h <;> simp at h
  cases hk with
  | plain m => exact ⟨rfl, [], rfl, by simp⟩
  | opens fd file hn hf => exact ⟨rfl, _, rfl, fun ptr p h => absurd h (hopen _ _ _ _)⟩
  | opensAt fd file hn hf => exact ⟨rfl, _, rfl, fun ptr p h => absurd h (hopen _ _ _ _)⟩
  | creats fd file hn hf => exact absurd hn (by omega)
  | opensAt2 fd file flags hn hf => exact absurd hn (by omega)
  | dups fd fd' d hn hd => exact ⟨rfl, [], rfl, by simp⟩
  | closes fd hn => exact ⟨rfl, [], rfl, by simp⟩
  | forks hn => exact absurd hn (by omega)
  | execs m cl hn =>
    refine ⟨rfl, [_], rfl, fun ptr p h => ?_⟩
    simp only [List.mem_singleton, Event.execed.injEq] at h
    rw [h.1]
    rcases hall with h' | h'
    · omega
    · exact h'.2
  | execsAt m cl hn => exact absurd hn (by omega)
  | signals hn => exact absurd hn (by omega)
  | signalsThread hn => exact absurd hn (by omega)
  | limits hn hp => exact ⟨rfl, [_], rfl, by simp⟩
  | installs f hn => exact ⟨rfl, [], rfl, by simp⟩
  | other m fds evs hn he => exact ⟨rfl, evs, rfl, fun ptr p h => absurd h (he _ _)⟩

/-- C27: under `c_cpp` and `c_cpp_file_io`, whatever the program does, it stays a single task, and every successful exec
read its path from the address of the judger's own `exe_path`. -/
theorem C27_no_new_process (name : CStr) (e : ChildEnv) (w w' : World) (hname : name = c!"c_cpp" ∨ name = c!"c_cpp_file_io")
    (h : Judged name e w w') :
    w'.tasks = w.tasks ∧
    ∃ evs, w'.events = evs ++ w.events ∧ ∀ ptr path, .execed ptr path ∈ evs → ptr = e.exeAddr := by
  have hu : UnderCCpp e.exeAddr w := by
    have := judged_filter h
    rcases hname with hn | hn
    · exact .inl (this.1 hn)
    · exact .inr (this.2.1 hn)
  have hrun := h.run
  clear h hname
  induction hrun with
  | start => exact ⟨rfl, [], rfl, by simp⟩
  | compute _ m ih => exact ih
  | call hr r ha hk ih =>
    obtain ⟨i1, evs, i2, i3⟩ := ih
    have hu' : UnderCCpp e.exeAddr _ := hu.imp (hr.mem_filters ·) (hr.mem_filters ·)
    obtain ⟨k1, evs', k2, k3⟩ := cCpp_step hu' ha hk
    refine ⟨k1.trans i1, evs' ++ evs, by rw [k2, i2, List.append_assoc], fun ptr path hm => ?_⟩
    rcases List.mem_append.1 hm with hm | hm
    · exact k3 _ _ hm
    · exact i3 _ _ hm

example : Judged c!"c_cpp" (sampleChild fun _ => false) (sampleWorld [cCppFilter 0x7ffe1000]) (sampleWorld [cCppFilter 0x7ffe1000]) :=
  sample_judged _ _ (by decide) rfl

/-- C28: under `c_cpp`, whatever the program does, every writable descriptor it ever holds refers to an open file it could
already write when it started. -/
theorem C28_no_write_open (e : ChildEnv) (w w' : World) (h : Judged c!"c_cpp" e w w') (fd : Nat) (d : Desc)
    (hd : w'.fds fd = some d) (hw : d.writable = true) : ∃ fd0, w.fds fd0 = some d := by
  have hu := (judged_filter h).1 rfl
  have hrun := h.run
  clear h
  revert fd
  induction hrun with
  | start => exact fun fd hd => ⟨fd, hd⟩
  | compute _ m ih => exact ih
  | @call w1 w2 hr r ha hk ih =>
    have hmem := hr.mem_filters hu
    have hnat := allowed_native ha hmem
    have hans := evalAll_allow ha _ hmem
    rw [cCpp_eval _ hnat] at hans
    have hnums := cCppAnswer_allow hans
    obtain ⟨hnums, h2, h257⟩ := hnums
    intro fd hd
    cases hk with
    | plain m => exact ih fd hd
    | opens fd' file hn hf =>
      simp only [World.withFd] at hd
      split at hd
      · cases hd
        have := h2 hn
        unfold readOnly at this
        simp_all
      · exact ih fd hd
    | opensAt fd' file hn hf =>
      simp only [World.withFd] at hd
      split at hd
      · cases hd
        have := h257 hn
        unfold readOnly at this
        simp_all
      · exact ih fd hd
    | closes fd' hn =>
      simp only at hd
      split at hd
      · cases hd
      · exact ih fd hd
    | execs m cl hn =>
      simp only at hd
      split at hd
      · cases hd
      · exact ih fd hd
    | limits hn hp => exact ih fd hd
    | installs f hn => exact ih fd hd
    | creats fd' file hn hf => rw [hn] at hnums; exact absurd hnums (by decide)
    | opensAt2 fd' file flags hn hf => rw [hn] at hnums; exact absurd hnums (by decide)
    | dups fd' fd'' d' hn hd' => rcases hn with hn | hn | hn | hn <;> rw [hn] at hnums <;> exact absurd hnums (by decide)
    | forks hn => exact ih fd hd
    | execsAt m cl hn => rw [hn] at hnums; exact absurd hnums (by decide)
    | signals hn => exact ih fd hd
    | signalsThread hn => exact ih fd hd
    | other m fds evs hn he =>
      exfalso
      apply hn
      simp only [List.mem_cons, List.not_mem_nil, or_false] at hnums
      simp only [documented, List.mem_cons, List.not_mem_nil, or_false]
      omega

/-- The sample program has a writable descriptor from the start. -/
example : ∃ d, (sampleWorld [cCppFilter 0x7ffe1000]).fds 1 = some d ∧ d.writable = true ∧ ∃ fd0, (sampleWorld [cCppFilter 0x7ffe1000]).fds fd0 = some d :=
  ⟨⟨1, true⟩, rfl, rfl, C28_no_write_open _ _ _ (sample_judged c!"c_cpp" (cCppFilter 0x7ffe1000) (by decide) rfl) 1 _ rfl rfl⟩

/-- C29, the full claim: under `c_cpp` no file is created or emptied. -/
def C29_full : Prop :=
  ∀ (e : ChildEnv) (w w' : World), Judged c!"c_cpp" e w w' → w.events = [] →
    ∀ path, .created path ∉ w'.events ∧ .truncated path ∉ w'.events

/-- C29 is false: `open("/tmp/x", O_RDONLY|O_CREAT|O_TRUNC)` passes the filter, which looks only at the access mode. -/
theorem C29_false : ¬ C29_full := by
  intro h
  have hj := judged_compute (sample_judged c!"c_cpp" (cCppFilter 0x7ffe1000) (by decide) rfl) (fun _ => c!"/tmp/x")
  have hj' := judged_call hj (Req.mk' 2 [0x1000, 0x240, 0o600]) (by decide)
    (Kernel.opens _ _ 7 9 rfl rfl)
  have := (h _ _ _ hj' rfl c!"/tmp/x").1
  exact this (by decide)

/-- C29, the part that holds: under `c_cpp` the only calls that can create or empty a file are `open` and `openat` with
read-only access mode and the flag `O_CREAT` or `O_TRUNC` set; in particular neither `creat`, `openat2`, `truncate`,
`rename` nor any other call can.  Missing: the filter does not look at these two flags. -/
theorem C29_creation_only_by_open_partial (e : ChildEnv) (w w1 w2 : World) (h : Judged c!"c_cpp" e w w1) (r : Req)
    (ha : evalAll w1.filters r = .allow) (hk : Kernel r w1 w2) (path : CStr)
    (hev : ∃ evs, w2.events = evs ++ w1.events ∧ (.created path ∈ evs ∨ .truncated path ∈ evs)) :
    (r.nr = 2 ∧ readOnly (r.args 1) = true ∧ (wantsCreate (r.args 1) = true ∨ wantsTruncate (r.args 1) = true)) ∨
    (r.nr = 257 ∧ readOnly (r.args 2) = true ∧ (wantsCreate (r.args 2) = true ∨ wantsTruncate (r.args 2) = true)) := by
  have hmem := h.run.mem_filters ((judged_filter h).1 rfl)
  have hnat := allowed_native ha hmem
  have hans := evalAll_allow ha _ hmem
  rw [cCpp_eval _ hnat] at hans
  have hnums := cCppAnswer_allow hans
  obtain ⟨hnums, h2, h257⟩ := hnums
  obtain ⟨evs, he, hev⟩ := hev
  have hself : ∀ {xs : List Event}, xs ++ w1.events = evs ++ w1.events → evs = xs := fun h => (List.append_cancel_right h).symm
  have hopen : ∀ flags p, (Event.created path ∈ openEvents flags p ∨ Event.truncated path ∈ openEvents flags p) →
      wantsCreate flags = true ∨ wantsTruncate flags = true := by
    intro flags p h
    unfold openEvents at h
    cases hc : wantsCreate flags <;> cases ht : wantsTruncate flags <;> simp_all
  simp only [List.mem_cons, List.not_mem_nil, or_false] at hnums
  cases hk with
  | plain m => rw [hself (xs := []) he] at hev; simp at hev
  | opens fd' file hn hf =>
    rw [hself he] at hev
    exact .inl ⟨hn, h2 hn, hopen _ _ hev⟩
  | opensAt fd' file hn hf =>
    rw [hself he] at hev
    exact .inr ⟨hn, h257 hn, hopen _ _ hev⟩
  | closes fd' hn => rw [hself (xs := []) he] at hev; simp at hev
  | execs m cl hn => rw [hself (xs := [_]) he] at hev; simp at hev
  | limits hn hp => rw [hself (xs := [_]) he] at hev; simp at hev
  | installs f hn => rw [hself (xs := []) he] at hev; simp at hev
  | creats fd' file hn hf => omega
  | opensAt2 fd' file flags hn hf => omega
  | dups fd' fd'' d' hn hd' => rw [hself (xs := []) he] at hev; simp at hev
  | forks hn => rw [hself (xs := []) he] at hev; simp at hev
  | execsAt m cl hn => rw [hself (xs := [_]) he] at hev; simp at hev
  | signals hn => rw [hself (xs := [_]) he] at hev; simp at hev
  | signalsThread hn => rw [hself (xs := [_]) he] at hev; simp at hev
  | other m fds evs' hn he' =>
    exfalso
    apply hn
    simp only [documented, List.mem_cons, List.not_mem_nil, or_false]
    omega

/-- `open("/tmp/x", O_RDONLY | O_CREAT | O_TRUNC)` is let through and creates the file. -/
example : ∃ w1 w2, Judged c!"c_cpp" (sampleChild fun _ => false) (sampleWorld [cCppFilter 0x7ffe1000]) w1 ∧
    evalAll w1.filters (Req.mk' 2 [0x1000, 0x240, 0o600]) = .allow ∧ Kernel (Req.mk' 2 [0x1000, 0x240, 0o600]) w1 w2 ∧
    ∃ evs, w2.events = evs ++ w1.events ∧ (.created c!"/tmp/x" ∈ evs ∨ .truncated c!"/tmp/x" ∈ evs) :=
  ⟨_, _, judged_compute (sample_judged c!"c_cpp" (cCppFilter 0x7ffe1000) (by decide) rfl) (fun _ => c!"/tmp/x"), by decide,
    Kernel.opens _ _ 7 9 rfl rfl, _, rfl, .inl (by decide)⟩

/-- C30: the two C/C++ profiles answer every request alike, except `open`, `openat`, `dup`, `dup2`, `dup3`, which
`c_cpp_file_io` allows unconditionally; `c_cpp` kills the `dup`s and allows the opens exactly when read-only. -/
theorem C30_file_io_difference (exe : BitVec 64) (r : Req) :
    (r.native = false ∨ r.nr ∉ [2, 257, 32, 33, 292] → (cCppFileIoFilter exe).eval r = (cCppFilter exe).eval r) ∧
    (r.native = true → r.nr ∈ [2, 257, 32, 33, 292] → (cCppFileIoFilter exe).eval r = .allow) ∧
    (r.native = true → r.nr ∈ [32, 33, 292] → (cCppFilter exe).eval r = .kill) ∧
    (r.native = true → r.nr = 2 → (cCppFilter exe).eval r = if readOnly (r.args 1) then .allow else .kill) ∧
    (r.native = true → r.nr = 257 → (cCppFilter exe).eval r = if readOnly (r.args 2) then .allow else .kill) := by
  refine ⟨?_, ?_, ?_, ?_, ?_⟩
  · intro h
    cases hn : r.native with
    | false => rw [eval_foreign _ hn, eval_foreign _ hn]
    | true =>
      have h := h.resolve_left (by simp [hn])
      rw [cCpp_eval _ hn, cCppFileIo_eval _ hn, cCppFileIoAnswer, if_neg h]
  · intro hn h
    rw [cCppFileIo_eval _ hn, cCppFileIoAnswer, if_pos h]
  · intro hn h
    rw [cCpp_eval _ hn]
    simp only [List.mem_cons, List.not_mem_nil, or_false] at h
    unfold cCppAnswer
    rcases h with h | h | h <;> simp [h]
  · intro hn h
    rw [cCpp_eval _ hn]
    unfold cCppAnswer
    simp [h]
  · intro hn h
    rw [cCpp_eval _ hn]
    unfold cCppAnswer
    simp [h]

/-- A file opened for writing. -/
example : (cCppFileIoFilter 5).eval (Req.mk' 2 [0x1000, 0x41]) = .allow ∧ (cCppFilter 5).eval (Req.mk' 2 [0x1000, 0x41]) = .kill :=
  ⟨(C30_file_io_difference 5 _).2.1 rfl (by decide), by rw [(C30_file_io_difference 5 _).2.2.2.1 rfl rfl]; decide⟩

/-! ## C31–C33: the blacklist profiles -/

/-- C31, the full claim: under `general` the program stays a single task and signals nobody. -/
def C31_full : Prop :=
  ∀ (e : ChildEnv) (w w' : World), Judged c!"general" e w w' → w.events = [] →
    w'.tasks = w.tasks ∧ ∀ pid, .signalled pid ∉ w'.events

/-- C31 is false: `clone3` is not on the blacklist. -/
theorem C31_false : ¬ C31_full := by
  intro h
  have hj := sample_judged c!"general" (generalFilter 0x7ffe1000 true) (by decide) rfl
  have hj' := judged_call hj (Req.mk' 435 [0x1000, 88]) (by decide) (Kernel.forks _ _ (by decide))
  have := (h _ _ _ hj' rfl).1
  revert this
  decide

/-- A second way C31 fails: `tgkill` (likewise `tkill`, `rt_sigqueueinfo`) is not on the blacklist. -/
theorem C31_witness_signal : ∃ (e : ChildEnv) (w w' : World), Judged c!"general" e w w' ∧ w.events = [] ∧
    .signalled 4711 ∈ w'.events := by
  have hj := sample_judged c!"general" (generalFilter 0x7ffe1000 true) (by decide) rfl
  have hj' := judged_call hj (Req.mk' 234 [4711, 4711, 9]) (by decide) (Kernel.signalsThread _ _ rfl)
  exact ⟨_, _, _, hj', rfl, by decide⟩

/-- C31, the part that holds: under `general` a new task can only come from `clone3`, an exec reads its path from the
judger's own address (or is an `execveat` where the header did not define it), and no `kill` gets through.  Missing: `clone3`,
`tkill`, `tgkill`, `rt_sigqueueinfo`. -/
theorem C31_only_clone3_partial (e : ChildEnv) (w w1 w2 : World) (h : Judged c!"general" e w w1) (r : Req)
    (ha : evalAll w1.filters r = .allow) (hk : Kernel r w1 w2) :
    (w2.tasks ≠ w1.tasks → r.nr = 435) ∧ r.nr ≠ 62 ∧
    (∀ ptr path, w2.events = .execed ptr path :: w1.events → ptr = e.exeAddr ∨ (r.nr = 322 ∧ e.hasExecveat = false)) := by
  have hmem := h.run.mem_filters ((judged_filter h).2.2.1 rfl)
  have hnat := allowed_native ha hmem
  have hans := evalAll_allow ha _ hmem
  rw [general_eval _ _ hnat] at hans
  have hn : ¬ (r.nr = 56 ∨ r.nr = 57 ∨ r.nr = 58 ∨ r.nr = 62 ∨ (e.hasExecveat = true ∧ r.nr = 322)) := by
    intro h'
    unfold generalAnswer at hans
    rw [if_pos h'] at hans
    cases hans
  have h59 : r.nr = 59 → r.args 0 = e.exeAddr := by
    intro h'
    unfold generalAnswer at hans
    rw [if_neg hn] at hans
    simp only [h'] at hans
    simp only [show ¬ (59 : Nat) = 41 by decide, if_false, if_true] at hans
    split at hans
    · assumption
    · cases hans
  have hlen : ∀ {xs : List Event} {ptr path}, xs ++ w1.events = .execed ptr path :: w1.events → xs = [.execed ptr path] := by
    intro xs ptr path h
    exact List.append_cancel_right (h.trans (List.singleton_append).symm)
  have hopen : ∀ flags p ptr path, openEvents flags p ++ w1.events = .execed ptr path :: w1.events → False := by
    intro flags p ptr path h
    have := hlen h
    unfold openEvents at this
    cases hc : wantsCreate flags <;> cases ht : wantsTruncate flags <;> simp_all
  refine ⟨?_, by omega, ?_⟩
  · intro ht
    cases hk with
    | forks hn' => omega
    | _ => exact absurd rfl ht
  · intro ptr path hev
    cases hk with
    | opens => exact (hopen _ _ _ _ hev).elim
    | opensAt => exact (hopen _ _ _ _ hev).elim
    | opensAt2 => exact (hopen _ _ _ _ hev).elim
    | execs m cl hn' =>
      have := hlen (xs := [_]) hev
      simp only [List.cons.injEq, Event.execed.injEq, and_true] at this
      exact .inl (this.1.symm.trans (h59 hn'))
    | execsAt m cl hn' =>
      refine .inr ⟨hn', ?_⟩
      cases hx : e.hasExecveat with
      | false => rfl
      | true => rw [hx] at hn; simp [hn'] at hn
    | other m fds evs hn' he =>
      have := hlen hev
      subst this
      exact absurd List.mem_cons_self (he _ _)
    | plain => exact absurd (hlen (xs := []) hev) (by simp)
    | creats => exact absurd (hlen (xs := [_, _]) hev) (by simp)
    | dups => exact absurd (hlen (xs := []) hev) (by simp)
    | closes => exact absurd (hlen (xs := []) hev) (by simp)
    | forks => exact absurd (hlen (xs := []) hev) (by simp)
    | signals => exact absurd (hlen (xs := [_]) hev) (by simp)
    | signalsThread => exact absurd (hlen (xs := [_]) hev) (by simp)
    | limits => exact absurd (hlen (xs := [_]) hev) (by simp)
    | installs => exact absurd (hlen (xs := []) hev) (by simp)

/-- `clone3` is let through and gives a new task. -/
example : ∃ w1 w2, Judged c!"general" (sampleChild fun _ => false) (sampleWorld [generalFilter 0x7ffe1000 true]) w1 ∧
    evalAll w1.filters (Req.mk' 435 [0x1000, 88]) = .allow ∧ Kernel (Req.mk' 435 [0x1000, 88]) w1 w2 ∧ w2.tasks ≠ w1.tasks :=
  ⟨_, _, sample_judged c!"general" (generalFilter 0x7ffe1000 true) (by decide) rfl, by decide, Kernel.forks _ _ (by decide), by decide⟩

/-- C32, the full claim: under `general` and `golang` every writable descriptor was writable from the start. -/
def C32_full : Prop :=
  ∀ (name : CStr) (e : ChildEnv) (w w' : World), name = c!"general" ∨ name = c!"golang" → Judged name e w w' →
    ∀ fd d, w'.fds fd = some d → d.writable = true → ∃ fd0, w.fds fd0 = some d

/-- C32 is false: `creat` is not on the blacklists (nor are `openat2` and others). -/
theorem C32_false : ¬ C32_full := by
  intro h
  have hj := sample_judged c!"general" (generalFilter 0x7ffe1000 true) (by decide) rfl
  have hj' := judged_call hj (Req.mk' 85 [0x1000, 0o600]) (by decide) (Kernel.creats _ _ 7 9 rfl rfl)
  obtain ⟨fd0, h0⟩ := h _ _ _ _ (.inl rfl) hj' 7 ⟨9, true⟩ rfl rfl
  simp only [sampleWorld] at h0
  split at h0
  · cases h0
  split at h0
  · cases h0
  split at h0 <;> cases h0

theorem C32_witness_golang : ∃ (e : ChildEnv) (w w' : World), Judged c!"golang" e w w' ∧
    w'.fds 7 = some ⟨9, true⟩ ∧ ∀ fd, w.fds fd ≠ some ⟨9, true⟩ := by
  have hj := sample_judged c!"golang" (golangFilter true) (by decide) rfl
  have hj' := judged_call hj (Req.mk' 437 [0, 0x1000, 0x2000, 24]) (by decide) (Kernel.opensAt2 _ _ 7 9 2 rfl rfl)
  refine ⟨_, _, _, hj', rfl, fun fd h0 => ?_⟩
  simp only [sampleWorld] at h0
  split at h0
  · cases h0
  split at h0
  · cases h0
  split at h0 <;> cases h0

/-- C32, the part that holds: under `general` and `golang` `open` and `openat` get through only with read-only access mode,
so the descriptors they return are not writable.  Missing: `creat`, `openat2` and other calls are not restricted. -/
theorem C32_open_read_only_partial (name : CStr) (e : ChildEnv) (w w1 w2 : World)
    (hname : name = c!"general" ∨ name = c!"golang") (h : Judged name e w w1) (r : Req)
    (ha : evalAll w1.filters r = .allow) (hnr : r.nr = 2 ∨ r.nr = 257) (hk : Kernel r w1 w2) (fd : Nat) (d : Desc)
    (hd : w2.fds fd = some d) (hw : d.writable = true) : ∃ fd0, w1.fds fd0 = some d := by
  have hro : (r.nr = 2 → readOnly (r.args 1) = true) ∧ (r.nr = 257 → readOnly (r.args 2) = true) := by
    rcases hname with rfl | rfl
    · have hmem := h.run.mem_filters ((judged_filter h).2.2.1 rfl)
      have hans := evalAll_allow ha _ hmem
      rw [general_eval _ _ (allowed_native ha hmem)] at hans
      unfold generalAnswer at hans
      rcases hnr with hn | hn <;> simp [hn] at hans ⊢ <;> exact hans
    · have hmem := h.run.mem_filters ((judged_filter h).2.2.2.1 rfl)
      have hans := evalAll_allow ha _ hmem
      rw [golang_eval _ (allowed_native ha hmem)] at hans
      unfold golangAnswer at hans
      rcases hnr with hn | hn <;> simp [hn] at hans ⊢ <;> exact hans
  cases hk with
  | plain m => exact ⟨fd, hd⟩
  | opens fd' file hn hf =>
    simp only [World.withFd] at hd
    split at hd
    · cases hd
      have := hro.1 hn
      unfold readOnly at this
      simp_all
    · exact ⟨fd, hd⟩
  | opensAt fd' file hn hf =>
    simp only [World.withFd] at hd
    split at hd
    · cases hd
      have := hro.2 hn
      unfold readOnly at this
      simp_all
    · exact ⟨fd, hd⟩
  | creats fd' file hn hf => omega
  | opensAt2 fd' file flags hn hf => omega
  | dups fd' fd'' d' hn hd' => omega
  | closes fd' hn => omega
  | forks hn => omega
  | execs m cl hn => omega
  | execsAt m cl hn => omega
  | signals hn => omega
  | signalsThread hn => omega
  | limits hn hp => omega
  | installs f hn => omega
  | other m fds evs hn he =>
    exfalso
    apply hn
    rcases hnr with hn' | hn' <;> rw [hn'] <;> decide

example : evalAll [generalFilter 5 true] (Req.mk' 2 [0x1000, 0x80000]) = .allow ∧
    evalAll [golangFilter true] (Req.mk' 257 [0, 0x1000, 0x80000]) = .allow := by decide

/-- C33: each blacklist profile answers every native request exactly as its documented list says. -/
theorem C33_blacklists_exact (exe : BitVec 64) (x : Bool) (r : Req) (hn : r.native = true) :
    (generalFilter exe x).eval r = generalAnswer exe x r ∧ (golangFilter x).eval r = golangAnswer x r ∧
    (nodeFilter x).eval r = nodeAnswer x r :=
  ⟨general_eval exe x hn, golang_eval x hn, node_eval x hn⟩

/-- The same for the whitelists. -/
theorem C33_whitelists_exact (exe : BitVec 64) (r : Req) (hn : r.native = true) :
    (cCppFilter exe).eval r = cCppAnswer exe r ∧ (cCppFileIoFilter exe).eval r = cCppFileIoAnswer exe r :=
  ⟨cCpp_eval exe hn, cCppFileIo_eval exe hn⟩

example : generalAnswer 5 true (Req.mk' 59 [6]) = .kill ∧ generalAnswer 5 true (Req.mk' 41 []) = .errno 13 ∧
    generalAnswer 5 true (Req.mk' 2 [0, 0x80000]) = .allow ∧ golangAnswer true (Req.mk' 56 []) = .allow := by decide

/-! ## C34 -/

/-- C34, the full claim: under `c_cpp`, `c_cpp_file_io` and `general` the only file ever executed is the configured one. -/
def C34_full : Prop :=
  ∀ (name : CStr) (c : Config) (e : ChildEnv) (p q : Proc) (w w' : World),
    name = c!"c_cpp" ∨ name = c!"c_cpp_file_io" ∨ name = c!"general" → c.seccompRuleName = some name →
    Started c e p q → w.filters = q.filters → w.events = [] → Run w w' →
    ∀ ptr path, .execed ptr path ∈ w'.events → path = c.exePath

/-- C34 is false: the filter compares the path's address, not the path.  After it has been started, the program maps that
address (it is free in the new image), stores "/bin/sh" there and calls `execve` with it. -/
theorem C34_false : ¬ C34_full := by
  intro h
  have hrun : Run (sampleWorld [cCppFilter 0x7ffe1000]) _ :=
    ((Run.start _).compute (fun a => if a = 0x7ffe1000 then c!"/bin/sh" else c!"")).call (Req.mk' 59 [0x7ffe1000, 0, 0])
      (by decide) (Kernel.execs _ _ (fun _ => c!"") (fun _ => false) rfl)
  have hq := sample_filters c!"c_cpp" (cCppFilter 0x7ffe1000) rfl _ sample_started
  have := h c!"c_cpp" _ _ _ _ _ _ (.inl rfl) rfl sample_started hq.symm rfl hrun 0x7ffe1000 c!"/bin/sh" (by decide)
  revert this
  decide

/-- C34, the part that holds: under these profiles every executed path was read from the address of `exe_path`, so the file
differs from the configured one only if the program put another string at that address.  Missing: seccomp filters cannot
read memory, so the string itself is not checked. -/
theorem C34_pointer_partial (name : CStr) (e : ChildEnv) (w w1 w2 : World)
    (hname : name = c!"c_cpp" ∨ name = c!"c_cpp_file_io" ∨ name = c!"general") (hx : e.hasExecveat = true)
    (h : Judged name e w w1) (r : Req) (ha : evalAll w1.filters r = .allow) (hk : Kernel r w1 w2) (ptr : BitVec 64)
    (path : CStr) (hev : w2.events = .execed ptr path :: w1.events) : ptr = e.exeAddr ∧ path = w1.mem e.exeAddr := by
  have hptr : ptr = e.exeAddr := by
    rcases hname with hn | hn | hn
    · have hu : UnderCCpp e.exeAddr w1 := .inl (h.run.mem_filters ((judged_filter h).1 hn))
      obtain ⟨_, evs, h1, h2⟩ := cCpp_step hu ha hk
      have := List.append_cancel_right ((h1.symm.trans hev).trans (List.singleton_append).symm)
      exact h2 ptr path (by rw [this]; exact List.mem_cons_self)
    · have hu : UnderCCpp e.exeAddr w1 := .inr (h.run.mem_filters ((judged_filter h).2.1 hn))
      obtain ⟨_, evs, h1, h2⟩ := cCpp_step hu ha hk
      have := List.append_cancel_right ((h1.symm.trans hev).trans (List.singleton_append).symm)
      exact h2 ptr path (by rw [this]; exact List.mem_cons_self)
    · subst hn
      rcases (C31_only_clone3_partial e w w1 w2 h r ha hk).2.2 ptr path hev with h | h
      · exact h
      · rw [hx] at h; cases h.2
  refine ⟨hptr, ?_⟩
  rw [← hptr]
  have hcancel : ∀ {xs : List Event}, xs ++ w1.events = .execed ptr path :: w1.events → xs = [.execed ptr path] := by
    intro xs h
    exact List.append_cancel_right (h.trans (List.singleton_append).symm)
  cases hk with
  | execs m cl hn =>
    have := hcancel (xs := [_]) hev
    simp only [List.cons.injEq, Event.execed.injEq, and_true] at this
    rw [← this.2, ← this.1]
  | execsAt m cl hn =>
    have := hcancel (xs := [_]) hev
    simp only [List.cons.injEq, Event.execed.injEq, and_true] at this
    rw [← this.2, ← this.1]
  | other m fds evs hn he =>
    have := hcancel hev
    subst this
    exact absurd List.mem_cons_self (he _ _)
  | opens fd file hn hf =>
    have := hcancel hev
    unfold openEvents at this
    cases hc : wantsCreate (r.args 1) <;> cases ht : wantsTruncate (r.args 1) <;> simp [hc, ht] at this
  | opensAt fd file hn hf =>
    have := hcancel hev
    unfold openEvents at this
    cases hc : wantsCreate (r.args 2) <;> cases ht : wantsTruncate (r.args 2) <;> simp [hc, ht] at this
  | opensAt2 fd file flags hn hf =>
    have := hcancel hev
    unfold openEvents at this
    cases hc : wantsCreate flags <;> cases ht : wantsTruncate flags <;> simp [hc, ht] at this
  | plain => exact absurd (hcancel (xs := []) hev) (by simp)
  | creats => exact absurd (hcancel (xs := [_, _]) hev) (by simp)
  | dups => exact absurd (hcancel (xs := []) hev) (by simp)
  | closes => exact absurd (hcancel (xs := []) hev) (by simp)
  | forks => exact absurd (hcancel (xs := []) hev) (by simp)
  | signals => exact absurd (hcancel (xs := [_]) hev) (by simp)
  | signalsThread => exact absurd (hcancel (xs := [_]) hev) (by simp)
  | limits => exact absurd (hcancel (xs := [_]) hev) (by simp)
  | installs => exact absurd (hcancel (xs := []) hev) (by simp)

/-- The program executes itself. -/
example : ∃ w1 w2, Judged c!"c_cpp" (sampleChild fun _ => false) (sampleWorld [cCppFilter 0x7ffe1000]) w1 ∧
    evalAll w1.filters (Req.mk' 59 [0x7ffe1000, 0, 0]) = .allow ∧ Kernel (Req.mk' 59 [0x7ffe1000, 0, 0]) w1 w2 ∧
    w2.events = .execed 0x7ffe1000 c!"/bin/prog" :: w1.events :=
  ⟨_, _, judged_compute (sample_judged c!"c_cpp" (cCppFilter 0x7ffe1000) (by decide) rfl) (fun _ => c!"/bin/prog"), by decide,
    Kernel.execs _ _ (fun _ => c!"") (fun _ => false) rfl, rfl⟩

/-! ## C35, C36 -/

/-- C35: a system call through a foreign ABI is killed under every profile, at every later time. -/
theorem C35_foreign_abi (name : CStr) (e : ChildEnv) (w w' : World) (h : Judged name e w w') (r : Req)
    (hr : r.native = false) : evalAll w'.filters r = .kill := by
  obtain ⟨⟨c, p, q, hn, hs, hw⟩, hrun⟩ := h
  have := C23_profile_enforced c e p q hs
  rw [hn] at this
  have hex : ∃ f, f ∈ w.filters := by
    rw [hw]
    rcases this.2 with ⟨_, h2⟩ | ⟨_, h2⟩ | ⟨_, h2⟩ | ⟨_, h2⟩ | ⟨_, h2⟩ <;> rw [h2] <;> exact ⟨_, List.mem_cons_self⟩
  obtain ⟨f, hf⟩ := hex
  exact evalAll_kill (hrun.mem_filters hf) (eval_foreign f hr)

example : (⟨false, 11, fun _ => 0⟩ : Req).native = false := rfl

/-- C36: whatever the program does (in particular, whatever filters it adds), a request killed by the filters in force at
the start stays killed, and nothing that was refused becomes allowed. -/
theorem C36_not_weakened (w w' : World) (h : Run w w') (r : Req) :
    ((∃ f ∈ w.filters, f.eval r = .kill) → evalAll w'.filters r = .kill) ∧
    (evalAll w'.filters r = .allow → evalAll w.filters r = .allow) := by
  constructor
  · rintro ⟨f, hf, hk⟩
    exact evalAll_kill (h.mem_filters hf) hk
  · intro ha
    obtain ⟨gs, hg⟩ := h.keeps
    rw [hg] at ha
    exact evalAll_append_allow gs _ ha

/-- Non-vacuous: adding an allow-all filter changes nothing for `fork`. -/
example : Run (sampleWorld [generalFilter 5 true]) { sampleWorld [generalFilter 5 true] with
      filters := [⟨.allow, []⟩, generalFilter 5 true] } ∧
    evalAll [⟨.allow, []⟩, generalFilter 5 true] (Req.mk' 57 []) = .kill :=
  ⟨(Run.start _).call (Req.mk' 317 [1, 0, 0x1000]) (by decide) (Kernel.installs _ _ ⟨.allow, []⟩ (.inl rfl)), by decide⟩

/-! ## C69 -/

/-- C69, the full claim: under the C/C++ profiles the program does not act on other processes. -/
def C69_full : Prop :=
  ∀ (name : CStr) (e : ChildEnv) (w w' : World), name = c!"c_cpp" ∨ name = c!"c_cpp_file_io" → Judged name e w w' →
    w.events = [] → ∀ pid, .signalled pid ∉ w'.events ∧ .limited pid ∉ w'.events

/-- C69 is false: `prlimit64` is allowed with any arguments, so the limits of other processes of the same user (under a
shared uid: other judged programs) can be lowered. -/
theorem C69_false : ¬ C69_full := by
  intro h
  have hj := sample_judged c!"c_cpp" (cCppFilter 0x7ffe1000) (by decide) rfl
  have hj' := judged_call hj (Req.mk' 302 [4711, 7, 0x1000, 0]) (by decide) (Kernel.limits _ _ rfl (by decide))
  exact (h _ _ _ _ (.inl rfl) hj' rfl 4711).2 (by decide)

theorem cCpp_step_signals {exe : BitVec 64} {w w' : World} {r : Req} (hu : UnderCCpp exe w)
    (ha : evalAll w.filters r = .allow) (hk : Kernel r w w') :
    ∃ evs, w'.events = evs ++ w.events ∧ ∀ pid, .signalled pid ∉ evs ∧ (.limited pid ∈ evs → r.nr = 302) := by
  have hall := cCppFileIoAnswer_allow (underCCpp_allow hu ha).2
  simp only [List.mem_cons, List.not_mem_nil, or_false] at hall
  have hopen : ∀ flags path pid, Event.signalled pid ∉ openEvents flags path ∧ Event.limited pid ∉ openEvents flags path := by
    intro flags path pid
    unfold openEvents
    cases wantsCreate flags <;> cases wantsTruncate flags <;> simp
  cases hk with
  | plain m => exact ⟨[], rfl, by simp⟩
  | opens fd file hn hf => exact ⟨_, rfl, fun pid => ⟨(hopen _ _ pid).1, fun h => absurd h (hopen _ _ pid).2⟩⟩
  | opensAt fd file hn hf => exact ⟨_, rfl, fun pid => ⟨(hopen _ _ pid).1, fun h => absurd h (hopen _ _ pid).2⟩⟩
  | creats fd file hn hf => exact absurd hn (by omega)
  | opensAt2 fd file flags hn hf => exact absurd hn (by omega)
  | dups fd fd' d hn hd => exact ⟨[], rfl, by simp⟩
  | closes fd hn => exact ⟨[], rfl, by simp⟩
  | forks hn => exact absurd hn (by omega)
  | execs m cl hn => exact ⟨[_], rfl, by simp⟩
  | execsAt m cl hn => exact absurd hn (by omega)
  | signals hn => exact absurd hn (by omega)
  | signalsThread hn => exact absurd hn (by omega)
  | limits hn hp => exact ⟨[_], rfl, fun pid => ⟨by simp, fun _ => hn⟩⟩
  | installs f hn => exact ⟨[], rfl, by simp⟩
  | other m fds evs hn he =>
    exfalso
    apply hn
    simp only [documented, List.mem_cons, List.not_mem_nil, or_false]
    omega

/-- C69, the part that holds: under the C/C++ profiles the program never signals any process, and the only call that can
change the limits of another one is `prlimit64`.  Missing: `prlimit64` is not restricted to the caller itself. -/
theorem C69_only_prlimit_partial (name : CStr) (e : ChildEnv) (w w' : World) (hname : name = c!"c_cpp" ∨ name = c!"c_cpp_file_io")
    (h : Judged name e w w') (hev : w.events = []) :
    (∀ pid, .signalled pid ∉ w'.events) ∧
    ∀ (r : Req) (w'' : World), evalAll w'.filters r = .allow → Kernel r w' w'' → ∀ pid, .limited pid ∈ w''.events →
      .limited pid ∈ w'.events ∨ r.nr = 302 := by
  have hu : UnderCCpp e.exeAddr w := by
    have := judged_filter h
    rcases hname with hn | hn
    · exact .inl (this.1 hn)
    · exact .inr (this.2.1 hn)
  have hu' : UnderCCpp e.exeAddr w' := hu.imp (h.run.mem_filters ·) (h.run.mem_filters ·)
  constructor
  · have hrun := h.run
    clear h hname hu'
    induction hrun with
    | start => simp [hev]
    | compute _ m ih => exact ih
    | call hr r ha hk ih =>
      obtain ⟨evs, k1, k2⟩ := cCpp_step_signals (hu.imp (hr.mem_filters ·) (hr.mem_filters ·)) ha hk
      intro pid hm
      rw [k1] at hm
      rcases List.mem_append.1 hm with hm | hm
      · exact (k2 pid).1 hm
      · exact ih pid hm
  · intro r w'' ha hk pid hm
    obtain ⟨evs, k1, k2⟩ := cCpp_step_signals hu' ha hk
    rw [k1] at hm
    rcases List.mem_append.1 hm with hm | hm
    · exact .inr ((k2 pid).2 hm)
    · exact .inl hm

/-- The sample program calls `prlimit64` for another process. -/
example : ∃ w', Judged c!"c_cpp" (sampleChild fun _ => false) (sampleWorld [cCppFilter 0x7ffe1000]) w' ∧
    (sampleWorld [cCppFilter 0x7ffe1000]).events = [] ∧ .limited 4711 ∈ w'.events ∧ ∀ pid, .signalled pid ∉ w'.events := by
  have hj := judged_call (sample_judged c!"c_cpp" (cCppFilter 0x7ffe1000) (by decide) rfl) (Req.mk' 302 [4711, 7, 0x1000, 0]) (by decide)
    (Kernel.limits _ _ rfl (by decide))
  exact ⟨_, hj, rfl, by decide, (C69_only_prlimit_partial _ _ _ _ (.inl rfl) hj rfl).1⟩

end Judger
