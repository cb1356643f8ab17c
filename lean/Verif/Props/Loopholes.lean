import Verif.Props.Seccomp

/-! # C29, C31, C32, C34 and C69: which calls are the loopholes

The claims are false of the code (`C31_false`, `C32_false` and so on).  Here the calls that break them are listed, and all of these are let through. -/

set_option autoImplicit false

namespace Judger

open Judger.Spec

/-- C32: under `general` and `golang` a writable descriptor that was not there before comes from `creat`, from `openat2` or from a call the model says nothing about.
Missing: these. -/
theorem C32_loopholes_partial (name : CStr) (e : ChildEnv) (w w1 w2 : World) (hname : name = c!"general" ∨ name = c!"golang") (h : Judged name e w w1) (r : Req)
    (ha : evalAll w1.filters r = .allow) (hk : Kernel r w1 w2) (fd : Nat) (d : Desc) (hd : w2.fds fd = some d) (hw : d.writable = true)
    (hnew : ∀ fd0, w1.fds fd0 ≠ some d) : r.nr = 85 ∨ r.nr = 437 ∨ r.nr ∉ documented := by
  by_cases hnr : r.nr = 2 ∨ r.nr = 257
  · obtain ⟨fd0, h0⟩ := C32_open_read_only_partial name e w w1 w2 hname h r ha hnr hk fd d hd hw
    exact absurd h0 (hnew fd0)
  · cases hk with
    | plain | forks | signals | signalsThread | limits | installs => exact absurd hd (hnew fd)
    | opens _ _ hn => exact absurd (.inl hn) hnr
    | opensAt _ _ hn => exact absurd (.inr hn) hnr
    | creats _ _ hn => exact .inl hn
    | opensAt2 _ _ _ hn => exact .inr (.inl hn)
    | dups fd1 fd2 d' hn hd' =>
      simp only [World.withFd] at hd
      split at hd
      · cases hd
        exact absurd hd' (hnew fd1)
      · exact absurd hd (hnew fd)
    | closes _ hn =>
      simp only at hd
      split at hd
      · cases hd
      · exact absurd hd (hnew fd)
    | execs m cl hn | execsAt m cl hn =>
      simp only at hd
      split at hd
      · cases hd
      · exact absurd hd (hnew fd)
    | other m fds evs hn => exact .inr (.inr hn)

theorem signal_calls {r : Req} {w1 w2 : World} (hk : Kernel r w1 w2) (pid : Nat) (h2 : .signalled pid ∈ w2.events) (h1 : .signalled pid ∉ w1.events) :
    r.nr = 62 ∨ r.nr = 129 ∨ r.nr = 200 ∨ r.nr = 234 ∨ r.nr ∉ documented := by
  have hopen : ∀ flags path, Event.signalled pid ∈ openEvents flags path ++ w1.events → False := by
    intro flags path h
    rcases List.mem_append.1 h with h | h
    · unfold openEvents at h
      cases hc : wantsCreate flags <;> cases ht : wantsTruncate flags <;> simp_all
    · exact h1 h
  cases hk with
  | plain | dups | closes | forks | installs => exact absurd h2 h1
  | opens | opensAt | opensAt2 => exact (hopen _ _ h2).elim
  | creats | execs | execsAt | limits => simp_all
  | signals hn => omega
  | signalsThread hn => omega
  | other m fds evs hn => exact .inr (.inr (.inr (.inr hn)))

/-- C31: under `general` a signal comes from `rt_sigqueueinfo`, `tkill`, `tgkill` or a call the model says nothing about.  Missing: these. -/
theorem C31_signals_partial (e : ChildEnv) (w w1 w2 : World) (h : Judged c!"general" e w w1) (r : Req) (ha : evalAll w1.filters r = .allow) (hk : Kernel r w1 w2)
    (pid : Nat) (h2 : .signalled pid ∈ w2.events) (h1 : .signalled pid ∉ w1.events) : r.nr = 129 ∨ r.nr = 200 ∨ r.nr = 234 ∨ r.nr ∉ documented := by
  have h0 := (C31_only_clone3_partial e w w1 w2 h r ha hk).2.1
  rcases signal_calls hk pid h2 h1 with h3 | h3
  · exact absurd h3 h0
  · exact h3

/-- Each of the loopholes is one: `general` lets all of them through, `golang` the two that open files. -/
theorem C31_C32_loopholes_open (exe : BitVec 64) (hasExecveat : Bool) :
    (∀ nr ∈ [85, 129, 200, 234, 435, 437], ∀ args, (generalFilter exe hasExecveat).eval (Req.mk' nr args) = .allow) ∧
    ∀ nr ∈ [85, 437], ∀ args, (golangFilter hasExecveat).eval (Req.mk' nr args) = .allow := by
  constructor
  · intro nr hn args
    rw [general_eval _ _ (by rfl)]
    simp only [List.mem_cons, List.not_mem_nil, or_false] at hn
    rcases hn with rfl | rfl | rfl | rfl | rfl | rfl <;> simp [generalAnswer, Req.mk']
  · intro nr hn args
    rw [golang_eval _ (by rfl)]
    simp only [List.mem_cons, List.not_mem_nil, or_false] at hn
    rcases hn with rfl | rfl <;> simp [golangAnswer, Req.mk']

/-- C29: the calls left over by `C29_creation_only_by_open_partial` are all let through: `open` and `openat` with read-only access mode, whatever other flags are set. -/
theorem C29_loopholes_open (exe : BitVec 64) (r : Req) (hn : r.native = true)
    (h : r.nr = 2 ∧ readOnly (r.args 1) = true ∨ r.nr = 257 ∧ readOnly (r.args 2) = true) : (cCppFilter exe).eval r = .allow := by
  rw [cCpp_eval _ hn]
  rcases h with ⟨h1, h2⟩ | ⟨h1, h2⟩ <;> simp [cCppAnswer, h1, h2]

/-- C69: `prlimit64` is let through by both C/C++ rule sets with any arguments. -/
theorem C69_loopholes_open (exe : BitVec 64) (r : Req) (hn : r.native = true) (h : r.nr = 302) :
    (cCppFilter exe).eval r = .allow ∧ (cCppFileIoFilter exe).eval r = .allow := by
  rw [cCpp_eval _ hn, cCppFileIo_eval _ hn]
  constructor <;> simp [cCppFileIoAnswer, cCppAnswer, h]

/-- `open("/tmp/x", O_CREAT|O_TRUNC)` and `prlimit64(4711, ...)`. -/
example : (cCppFilter 0x7ffe1000).eval (Req.mk' 2 [0x1000, 0x240]) = .allow ∧ (cCppFilter 0x7ffe1000).eval (Req.mk' 302 [4711, 7, 0x1000, 0]) = .allow :=
  ⟨C29_loopholes_open _ _ rfl (.inl ⟨rfl, by decide⟩), (C69_loopholes_open _ _ rfl rfl).1⟩

/-- `creat` is let through and gives a new writable descriptor. -/
example : ∃ w1 w2, Judged c!"general" (sampleChild fun _ => false) (sampleWorld [generalFilter 0x7ffe1000 true]) w1 ∧
    evalAll w1.filters (Req.mk' 85 [0x1000]) = .allow ∧ Kernel (Req.mk' 85 [0x1000]) w1 w2 ∧ w2.fds 7 = some ⟨9, true⟩ ∧ w1.fds 7 = none :=
  ⟨_, _, sample_judged c!"general" (generalFilter 0x7ffe1000 true) (by decide) rfl, by decide, Kernel.creats _ _ 7 9 (by decide) rfl, rfl, rfl⟩

/-- `tgkill` is let through and sends a signal. -/
example : ∃ w1 w2, Judged c!"general" (sampleChild fun _ => false) (sampleWorld [generalFilter 0x7ffe1000 true]) w1 ∧
    evalAll w1.filters (Req.mk' 234 [4711, 4711, 9]) = .allow ∧ Kernel (Req.mk' 234 [4711, 4711, 9]) w1 w2 ∧ .signalled 4711 ∈ w2.events ∧ w1.events = [] :=
  ⟨_, _, sample_judged c!"general" (generalFilter 0x7ffe1000 true) (by decide) rfl, by decide, Kernel.signalsThread _ _ rfl, by decide, rfl⟩

/-- C34 fails for every request with one of the three rule sets, if no filter was in force before: the program can execute any path. -/
theorem C34_any_file (name : CStr) (c : Config) (e : ChildEnv) (p q : Proc) (w : World) (path : CStr)
    (hname : name = c!"c_cpp" ∨ name = c!"c_cpp_file_io" ∨ name = c!"general") (hc : c.seccompRuleName = some name)
    (hs : Started c e p q) (hp : p.filters = []) (hw : w.filters = q.filters) :
    ∃ w', Run w w' ∧ .execed e.exeAddr path ∈ w'.events := by
  have hf : ∃ f, profileOf e name = some f ∧ f.eval (Req.mk' 59 [e.exeAddr, 0, 0]) = .allow := by
    rcases hname with rfl | rfl | rfl
    · exact ⟨_, rfl, by rw [cCpp_eval _ rfl]; simp [cCppAnswer, Req.mk']⟩
    · exact ⟨_, rfl, by rw [cCppFileIo_eval _ rfl]; simp [cCppFileIoAnswer, cCppAnswer, Req.mk']⟩
    · exact ⟨_, rfl, by rw [general_eval _ _ rfl]; simp [generalAnswer, Req.mk']⟩
  obtain ⟨f, h1, h2⟩ := hf
  have hq : q.filters = [f] := by
    obtain ⟨rfl, _⟩ := started_inv hs
    rw [stateAtExec_eq, (afterSeccomp_filters c _ _ f name hc h1).1, (ids_filters _ _).1, (redirections_frame _ _).2.2.2.2.1, hp]
  have ha : evalAll { w with mem := fun _ => path }.filters (Req.mk' 59 [e.exeAddr, 0, 0]) = .allow := by
    show evalAll w.filters _ = _
    rw [hw, hq, evalAll, h2]; rfl
  exact ⟨_, ((Run.start w).compute fun _ => path).call _ ha (Kernel.execs _ _ (fun _ => c!"") (fun _ => false) rfl), by simp [Req.mk']⟩

/-- The sample can execute a shell, and this is not the file of the request. -/
example : ∃ w', Run (sampleWorld [cCppFilter 0x7ffe1000]) w' ∧ .execed 0x7ffe1000 c!"/bin/sh" ∈ w'.events ∧ c!"/bin/sh" ≠ (sampleAs c!"c_cpp").exePath := by
  obtain ⟨q, h⟩ := sampleAs_started c!"c_cpp" (by decide)
  have hq := sample_filters c!"c_cpp" (cCppFilter 0x7ffe1000) rfl q h
  obtain ⟨w', h1, h2⟩ := C34_any_file c!"c_cpp" _ _ _ q (sampleWorld [cCppFilter 0x7ffe1000]) c!"/bin/sh" (.inl rfl) rfl h rfl hq.symm
  exact ⟨w', h1, h2, by decide⟩

end Judger
