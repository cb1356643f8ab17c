import Verif.Props.Child
import Verif.Spec.Touch

/-! # C120: a judging opens the files it is told to open, in order, and no others -/

set_option autoImplicit false

namespace Judger

open Spec M

section

variable {e : ChildEnv} {l l' : List OpenFile} {α β : Type}

/-- Going on, it has opened these files; having stopped, without starting the program, the first few of them. -/
def Opens (e : ChildEnv) (l : List OpenFile) (m : M α) : Prop := ∀ p, match m e p with
  | .ok _ q => q.ofds = p.ofds ++ l
  | .stop s q => (∃ k, k <+: l ∧ q.ofds = p.ofds ++ k) ∧ ∀ a b d, s ≠ .execed a b d

/-- The same for what may start the program, which it does with all files open. -/
def OpensAll (e : ChildEnv) (l : List OpenFile) (m : M α) : Prop := ∀ p, match m e p with
  | .ok _ q => q.ofds = p.ofds ++ l
  | .stop s q => (∃ k, k <+: l ∧ q.ofds = p.ofds ++ k ∧ ∀ a b d, s = .execed a b d → k = l)

theorem opens_all {m : M α} (h : Opens e l m) : OpensAll e l m := by
  intro p
  have := h p
  revert this
  cases m e p with
  | ok a q => exact id
  | stop s q => rintro ⟨⟨k, h1, h2⟩, h3⟩; exact ⟨k, h1, h2, fun a b d hs => absurd hs (h3 a b d)⟩

theorem opens_pure (a : α) : Opens e [] (pure a : M α) := fun _ => (List.append_nil _).symm

theorem opens_stop {s : Stop} (h : ∀ a b d, s ≠ .execed a b d) : Opens e l (stopWith s : M α) :=
  fun _ => ⟨⟨[], List.nil_prefix, (List.append_nil _).symm⟩, h⟩

theorem opens_bind {m : M α} {f : α → M β} (hm : Opens e l m) (hf : ∀ a, Opens e l' (f a)) : Opens e (l ++ l') (m >>= f) := by
  intro p
  have h1 := hm p
  simp only [bind_run]
  revert h1
  cases m e p with
  | stop s q =>
    rintro ⟨⟨k, h1, h2⟩, h3⟩
    exact ⟨⟨k, h1.trans (List.prefix_append _ _), h2⟩, h3⟩
  | ok a q =>
    intro h1
    have h2 := hf a q
    revert h2
    dsimp only
    cases f a e q with
    | ok b q' => intro h2; dsimp only at h1 h2 ⊢; rw [h2, h1, List.append_assoc]
    | stop s q' =>
      rintro ⟨⟨k, h2, h3⟩, h4⟩
      dsimp only at h1
      exact ⟨⟨l ++ k, (List.prefix_append_right_inj l).2 h2, by rw [h3, h1, List.append_assoc]⟩, h4⟩

theorem opens_bind_all {m : M α} {f : α → M β} (hm : Opens e l m) (hf : ∀ a, OpensAll e l' (f a)) : OpensAll e (l ++ l') (m >>= f) := by
  intro p
  have h1 := hm p
  simp only [bind_run]
  revert h1
  cases m e p with
  | stop s q =>
    rintro ⟨⟨k, h1, h2⟩, h3⟩
    exact ⟨k, h1.trans (List.prefix_append _ _), h2, fun a b d hs => absurd hs (h3 a b d)⟩
  | ok a q =>
    intro h1
    have h2 := hf a q
    revert h2
    dsimp only
    cases f a e q with
    | ok b q' => intro h2; dsimp only at h1 h2 ⊢; rw [h2, h1, List.append_assoc]
    | stop s q' =>
      rintro ⟨k, h2, h3, h4⟩
      dsimp only at h1
      exact ⟨l ++ k, (List.prefix_append_right_inj l).2 h2, by rw [h3, h1, List.append_assoc], fun a b d hs => by rw [h4 a b d hs]⟩

theorem opens_nil_bind {m : M α} {f : α → M β} (hm : Opens e [] m) (hf : ∀ a, Opens e l (f a)) : Opens e l (m >>= f) := by
  simpa using opens_bind hm hf

theorem opens_bind_nil {m : M α} {f : α → M β} (hm : Opens e l m) (hf : ∀ a, Opens e [] (f a)) : Opens e l (m >>= f) := by
  simpa using opens_bind hm hf

theorem opens_getEnv_bind {f : ChildEnv → M β} (hf : Opens e l (f e)) : Opens e l (getEnv >>= f) := hf

theorem opens_getProc_bind {f : Proc → M β} (hf : ∀ p, Opens e l (f p)) : Opens e l (getProc >>= f) := fun p => hf p p

theorem opens_modify {g : Proc → Proc} (h : ∀ p, (g p).ofds = p.ofds) : Opens e [] (modify g) := by
  intro p; simp [M.modify, h]

theorem opens_enter (r : Req) : Opens e [] (enter r) := by
  intro p
  rw [enter_run]
  cases evalAll p.filters r with
  | kill => exact ⟨⟨[], List.nil_prefix, (List.append_nil _).symm⟩, by intros; simp⟩
  | errno n => exact (List.append_nil _).symm
  | allow => exact (List.append_nil _).symm

theorem opens_plain (nr : Nat) (args : List (BitVec 64)) : Opens e [] (plain nr args) := opens_nil_bind (opens_enter _) fun _ => opens_pure _

theorem opens_attempt (s : Site) (r : Req) : Opens e [] (attempt s r) := opens_getEnv_bind (opens_nil_bind (opens_enter _) fun _ => opens_pure _)

theorem opens_ite {c : Prop} [Decidable c] {x y : M α} (hx : Opens e l x) (hy : Opens e l y) : Opens e l (if c then x else y) := by
  split <;> assumption

theorem opens_setrlimit (r : Res) (v : Int) : Opens e [] (setrlimit r v) :=
  opens_getEnv_bind (opens_nil_bind (opens_attempt _ _) fun _ => opens_getProc_bind fun _ => opens_ite (opens_nil_bind (opens_modify fun _ => rfl) fun _ => opens_pure _) (opens_pure _))

theorem opens_dup2 (s : Site) (a b : Nat) : Opens e [] (dup2 s a b) :=
  opens_nil_bind (opens_attempt _ _) fun _ => opens_getProc_bind fun _ => opens_ite (opens_nil_bind (opens_modify fun _ => rfl) fun _ => opens_pure _) (opens_pure _)

theorem opens_fclose (f : File) : Opens e [] (fclose f) :=
  opens_getProc_bind fun _ => opens_ite (opens_nil_bind (opens_enter _) fun _ => opens_modify fun _ => rfl) (opens_modify fun _ => rfl)

theorem opens_setgid (g : Int) : Opens e [] (setgid g) :=
  opens_nil_bind (opens_attempt _ _) fun _ => opens_getProc_bind fun _ => opens_ite (opens_nil_bind (opens_modify fun _ => rfl) fun _ => opens_pure _)
    (opens_ite (opens_nil_bind (opens_modify fun _ => rfl) fun _ => opens_pure _) (opens_pure _))

theorem opens_setgroups (g : List Int) : Opens e [] (setgroups g) :=
  opens_getEnv_bind (opens_nil_bind (opens_attempt _ _) fun _ => opens_getProc_bind fun _ => opens_ite (opens_nil_bind (opens_modify fun _ => rfl) fun _ => opens_pure _) (opens_pure _))

theorem opens_setuid (u : Int) : Opens e [] (setuid u) :=
  opens_nil_bind (opens_attempt _ _) fun _ => opens_getProc_bind fun _ => opens_ite (opens_nil_bind (opens_modify fun _ => rfl) fun _ => opens_pure _)
    (opens_ite (opens_nil_bind (opens_modify fun _ => rfl) fun _ => opens_pure _) (opens_pure _))

theorem opens_noteStderr : Opens e [] noteStderr := by
  refine opens_getEnv_bind (opens_nil_bind (opens_enter _) fun _ => ?_)
  split
  · exact opens_stop (by intros; simp)
  · exact opens_pure _

theorem opens_localTime : Opens e [] localTime :=
  opens_getEnv_bind (opens_ite (opens_stop (by intros; simp)) (opens_pure _))

theorem opens_logWrite (msg : CStr) : Opens e [] (logWriteChild msg) := by
  refine opens_getEnv_bind ?_
  split
  · exact opens_noteStderr
  · refine opens_nil_bind opens_localTime fun _ => opens_nil_bind (opens_attempt _ _) fun _ => opens_ite ?_ opens_noteStderr
    refine opens_nil_bind (opens_enter _) fun _ => opens_getProc_bind fun _ => opens_ite (opens_stop (by intros; simp)) (opens_ite ?_ opens_noteStderr)
    exact opens_nil_bind (opens_modify fun _ => rfl) fun _ => opens_nil_bind (opens_attempt _ _) fun _ => opens_pure _

theorem opens_closeFile (f : Option File) : Opens e [] (closeFile f) := by
  cases f with
  | none => exact opens_pure _
  | some f => exact opens_fclose f

theorem opens_raise : Opens e [] raiseUsr1 := by
  refine opens_getEnv_bind (opens_nil_bind (opens_plain _ _) fun _ => opens_nil_bind (opens_plain _ _) fun _ => opens_nil_bind (opens_plain _ _) fun _ =>
    opens_nil_bind (opens_enter _) fun _ => opens_getProc_bind fun _ => opens_ite (opens_stop (by intros; simp)) (opens_plain _ _))

/-- The way out of the child opens nothing, and does not come back. -/
theorem opens_error (code : CStr) (i o r : Option File) : Opens e l (childErrorExit code i o r : M α) := by
  refine opens_nil_bind ?_ fun _ => opens_nil_bind (opens_plain _ _) fun _ => opens_stop (by intros; simp)
  refine opens_getEnv_bind (opens_nil_bind (opens_logWrite _) fun _ => opens_nil_bind (opens_closeFile _) fun _ => ?_)
  split
  · exact opens_nil_bind (opens_closeFile _) fun _ => opens_raise
  · exact opens_nil_bind (opens_closeFile _) fun _ => opens_nil_bind (opens_closeFile _) fun _ => opens_raise

theorem opens_limitStep (r : Res) (w : Bool) (v : Int) : Opens e [] (limitStep r w v) :=
  opens_ite (opens_nil_bind (opens_setrlimit _ _) fun _ => opens_ite (opens_error _ _ _ _) (opens_pure _)) (opens_pure _)

theorem opens_cpuStep (c : Config) : Opens e [] (cpuStep c) := by
  refine opens_ite ?_ (opens_pure _)
  split
  · exact opens_stop (by intros; simp)
  · exact opens_nil_bind (opens_setrlimit _ _) fun _ => opens_ite (opens_error _ _ _ _) (opens_pure _)

/-- Opening a file and going on. -/
theorem opens_fopen_bind {s : Site} {path : CStr} {w : Bool} {f : Option File → M β} (h0 : Opens e [⟨path, !w, w, w⟩] (f none))
    (h1 : ∀ x, Opens e [] (f (some x))) : Opens e [⟨path, !w, w, w⟩] (fopen s path w >>= f) := by
  intro p
  unfold fopen
  simp only [bind_run, getEnv_run, attempt_run]
  cases evalAll p.filters (Req.mk' NR_openat [argOf (-100), e.bufAddr, if w = true then O_WRONLY ||| O_CREAT ||| O_TRUNC else O_RDONLY, 0o666]) with
  | kill => exact ⟨⟨[], List.nil_prefix, (List.append_nil _).symm⟩, by intros; simp⟩
  | errno n => exact h0 p
  | allow =>
    cases e.fails s with
    | true => exact h0 p
    | false =>
      have := h1 ⟨p.nextFile, p.fds.lowest⟩ { p with
        fds := p.fds.set p.fds.lowest (some p.ofds.length)
        ofds := p.ofds ++ [⟨path, !w, w, w⟩]
        files := ⟨p.nextFile, p.fds.lowest⟩ :: p.files
        nextFile := p.nextFile + 1
        rights := p.rights ++ [(p.uid.e, p.gid.e)] }
      simp only [bind_run, Bool.not_false, if_true, getProc_run, M.modify, pure_run]
      revert this
      cases f (some ⟨p.nextFile, p.fds.lowest⟩) e { p with
        fds := p.fds.set p.fds.lowest (some p.ofds.length)
        ofds := p.ofds ++ [⟨path, !w, w, w⟩]
        files := ⟨p.nextFile, p.fds.lowest⟩ :: p.files
        nextFile := p.nextFile + 1
        rights := p.rights ++ [(p.uid.e, p.gid.e)] } with
      | ok a q => intro h; simpa using h
      | stop st q =>
        rintro ⟨⟨k, h2, h3⟩, h4⟩
        refine ⟨⟨[⟨path, !w, w, w⟩], List.prefix_rfl, ?_⟩, h4⟩
        rw [h3, List.prefix_nil.1 h2, List.append_nil]

/-- What each of the three steps opens. -/
def inputFiles (c : Config) : List OpenFile := match c.inputPath with
  | some i => [⟨i, true, false, false⟩]
  | none => []
def outputFiles (c : Config) : List OpenFile := match c.outputPath with
  | some o => [⟨o, false, true, true⟩]
  | none => []
def errorFiles (c : Config) : List OpenFile := match c.errorPath with
  | some r => if c.outputPath = some r then [] else [⟨r, false, true, true⟩]
  | none => []

theorem opens_inputStep (c : Config) : Opens e (inputFiles c) (inputStep c) := by
  unfold inputStep inputFiles
  cases c.inputPath with
  | none => exact opens_pure _
  | some i =>
    refine opens_fopen_bind (w := false) (opens_error _ _ _ _) fun f => ?_
    exact opens_nil_bind (opens_dup2 _ _ _) fun _ => opens_ite (opens_nil_bind (opens_error _ _ _ _) fun _ => opens_pure _) (opens_pure _)

theorem opens_outputStep (c : Config) (i : Option File) : Opens e (outputFiles c) (outputStep c i) := by
  unfold outputStep outputFiles
  cases c.outputPath with
  | none => exact opens_pure _
  | some o =>
    refine opens_fopen_bind (w := true) (opens_error _ _ _ _) fun f => ?_
    exact opens_nil_bind (opens_dup2 _ _ _) fun _ => opens_ite (opens_nil_bind (opens_error _ _ _ _) fun _ => opens_pure _) (opens_pure _)

theorem opens_errorStep (c : Config) (i o : Option File) : Opens e (errorFiles c) (errorStep c i o) := by
  unfold errorStep errorFiles
  cases c.errorPath with
  | none => exact opens_pure _
  | some path =>
    have hk : ∀ f : Option File, Opens e [] (match f with
        | none => stopWith .ub
        | some f => do
          if !(← dup2 .dupError f.fd 2) then
            childErrorExit c!"DUP2_FAILED" i o (some f)
          return some f) := by
      intro f
      split
      · exact opens_stop (by intros; simp)
      · exact opens_nil_bind (opens_dup2 _ _ _) fun _ => opens_ite (opens_nil_bind (opens_error _ _ _ _) fun _ => opens_pure _) (opens_pure _)
    dsimp only
    split
    · exact opens_nil_bind (opens_pure _) hk
    · refine opens_fopen_bind (w := true) (opens_bind_nil (opens_error _ _ _ _) hk) fun f => opens_nil_bind (opens_pure _) hk

theorem opens_gidStep (c : Config) (i o r : Option File) : Opens e [] (gidStep c i o r) := by
  have h2 : Opens e [] (do
      if !(← setgroups [c.gid]) then
        childErrorExit c!"SETUID_FAILED" i o r : M Unit) :=
    opens_nil_bind (opens_setgroups _) fun _ => opens_ite (opens_error _ _ _ _) (opens_pure _)
  exact opens_ite (opens_nil_bind (opens_setgid _) fun _ => opens_ite (opens_nil_bind (opens_error _ _ _ _) fun _ => h2) h2) (opens_pure _)

theorem opens_uidStep (c : Config) (i o r : Option File) : Opens e [] (uidStep c i o r) :=
  opens_ite (opens_nil_bind (opens_setuid _) fun _ => opens_ite (opens_error _ _ _ _) (opens_pure _)) (opens_pure _)

theorem opens_ruleAdd (us : List Rule) : ∀ (k : Nat) (ctx : Filter), Opens e [] (ruleAddAll k ctx us) := by
  induction us with
  | nil => exact fun _ _ => opens_pure _
  | cons u us ih => exact fun k ctx => opens_getEnv_bind (opens_ite (opens_pure _) (ih _ _))

theorem opens_load (d : Action) (us : List Rule) : Opens e [] (loadRules d us) := by
  refine opens_getEnv_bind ?_
  have h1 : Opens e [] (do
      match ← ruleAddAll 0 ⟨d, []⟩ us with
      | none => return LOAD_SECCOMP_FAILED
      | some ctx =>
        if !(← seccompLoad ctx) then
          return LOAD_SECCOMP_FAILED
        return 0 : M Int) := by
    refine opens_nil_bind (opens_ruleAdd us _ _) fun o => ?_
    split
    · exact opens_pure _
    · refine opens_nil_bind ?_ fun _ => opens_ite (opens_pure _) (opens_pure _)
      refine opens_getEnv_bind (opens_nil_bind (opens_enter _) fun _ => opens_ite ?_ (opens_pure _))
      refine opens_nil_bind (opens_modify fun _ => rfl) fun _ => opens_nil_bind (opens_attempt _ _) fun _ => opens_ite ?_ (opens_pure _)
      exact opens_nil_bind (opens_modify fun _ => rfl) fun _ => opens_pure _
  exact opens_ite (opens_pure _) h1

theorem opens_seccompStep (c : Config) (i o r : Option File) : Opens e [] (seccompStep c i o r) := by
  unfold seccompStep
  split
  · exact opens_pure _
  · refine opens_nil_bind ?_ fun _ => opens_ite (opens_error _ _ _ _) (opens_pure _)
    refine opens_ite ?_ (opens_ite ?_ (opens_ite ?_ (opens_ite ?_ (opens_ite ?_ (opens_pure _)))))
    all_goals exact opens_getEnv_bind (opens_load _ _)

/-- After the standard streams are in place. -/
theorem opens_tail (c : Config) (i o r : Option File) : OpensAll e [] (do
    gidStep c i o r
    uidStep c i o r
    seccompStep c i o r
    execve c.exePath c.args c.env
    childErrorExit c!"EXECVE_FAILED" i o r : M Unit) := by
  refine opens_bind_all (l := []) (l' := []) (opens_gidStep c i o r) fun _ => opens_bind_all (l := []) (l' := []) (opens_uidStep c i o r) fun _ =>
    opens_bind_all (l := []) (l' := []) (opens_seccompStep c i o r) fun _ => ?_
  intro p
  unfold execve
  simp only [bind_run, getEnv_run, attempt_run]
  have h1 := opens_all (opens_error (e := e) (l := []) (α := Unit) c!"EXECVE_FAILED" i o r) p
  cases evalAll p.filters (Req.mk' NR_execve [e.exeAddr, e.bufAddr, e.bufAddr]) with
  | kill => exact ⟨[], List.nil_prefix, (List.append_nil _).symm, fun _ _ _ _ => rfl⟩
  | errno n => exact h1
  | allow =>
    cases e.fails .exec with
    | true => exact h1
    | false => exact ⟨[], List.nil_prefix, (List.append_nil _).symm, fun _ _ _ _ => rfl⟩

theorem opens_limits (c : Config) {f : Unit → M β} (hf : ∀ a, OpensAll e l (f a)) : OpensAll e l (do
    limitStep .stack (c.maxStack ≠ UNLIMITED) (castU64 c.maxStack)
    limitStep .as (c.memoryLimitCheckOnly = 0 ∧ c.maxMemory ≠ UNLIMITED) (castU64 (castU64 c.maxMemory * 2))
    cpuStep c
    limitStep .nproc (c.maxProcessNumber ≠ UNLIMITED) (castU64 c.maxProcessNumber)
    let a ← limitStep .fsize (c.maxOutputSize ≠ UNLIMITED) (castU64 c.maxOutputSize)
    f a) := by
  exact opens_bind_all (l := []) (opens_limitStep _ _ _) fun _ => opens_bind_all (l := []) (opens_limitStep _ _ _) fun _ =>
    opens_bind_all (l := []) (opens_cpuStep c) fun _ => opens_bind_all (l := []) (opens_limitStep _ _ _) fun _ =>
    opens_bind_all (l := []) (opens_limitStep _ _ _) hf

end

/-- **C120**: however the child of a judging ends, it has opened the first few of the files the request names, in order, and no other; if the program was
started, all of them. -/
theorem C120_named (c : Config) (e : ChildEnv) (p : Proc) (s : Stop) (q : Proc) (h : childProcess c e p = .stop s q) :
    ∃ k, k <+: namedFiles c ∧ q.ofds = p.ofds ++ k ∧ ∀ a b d, s = .execed a b d → k = namedFiles c := by
  have : OpensAll e (namedFiles c) (childProcess c) := by
    refine opens_limits c fun _ => ?_
    have := opens_bind_all (e := e) (opens_inputStep c) fun i => opens_bind_all (opens_outputStep c i) fun o => opens_bind_all (opens_errorStep c i o) fun r =>
      opens_tail c i o r
    rw [show namedFiles c = inputFiles c ++ (outputFiles c ++ (errorFiles c ++ [])) by
      unfold namedFiles inputFiles outputFiles errorFiles
      cases c.inputPath <;> cases c.outputPath <;> cases c.errorPath <;> simp]
    exact this
  have h1 := this p
  rw [h] at h1
  exact h1

/-- The sample program has its input, its output and its errors open. -/
example : ∃ k, (stateAtExec sampleConfig (sampleChild fun _ => false) sampleProc).ofds = sampleProc.ofds ++ k ∧
    k.map (·.path) = [c!"/in", c!"/out", c!"/err"] := by
  obtain ⟨k, _, h2, h3⟩ := C120_named _ _ _ _ _ (started_inv sample_started).2.2.2.2
  exact ⟨k, h2, by rw [h3 _ _ _ rfl]; decide⟩

/-- **C120**: whatever a judging opens for writing or empties is the output or the errors of the request. -/
theorem C120_writes (c : Config) (e : ChildEnv) (p : Proc) (s : Stop) (q : Proc) (h : childProcess c e p = .stop s q) :
    ∀ f ∈ q.ofds.drop p.ofds.length, f.writable = true ∨ f.truncated = true → c.outputPath = some f.path ∨ c.errorPath = some f.path := by
  obtain ⟨k, h1, h2, _⟩ := C120_named c e p s q h
  intro f hf hw
  rw [h2, List.drop_left] at hf
  have hm := h1.subset hf
  simp only [namedFiles, List.mem_append] at hm
  rcases hm with (hm | hm) | hm
  · revert hm
    cases c.inputPath with
    | none => simp
    | some i => intro hm; rw [List.mem_singleton.1 hm] at hw; simp at hw
  · revert hm
    cases c.outputPath with
    | none => simp
    | some o => intro hm; rw [List.mem_singleton.1 hm]; exact .inl rfl
  · revert hm
    cases c.errorPath with
    | none => simp
    | some r =>
      dsimp only
      split
      · simp
      · intro hm; rw [List.mem_singleton.1 hm]; exact .inr rfl

theorem ends_with {x : Step Unit} {st : Stop} (h : (match x with | .ok _ _ => none | .stop s _ => some s) = some st) : x = .stop st (lastState x) := by
  cases x with
  | ok a q => cases h
  | stop s q => cases h; rfl

/-- The sample judging with an executable that does not exist: output and errors have been emptied all the same. -/
example : ∃ q, childProcess { sampleConfig with seccompRuleName := none } (sampleChild fun s => s = .exec) sampleProc = .stop (.killed 10) q ∧
    (q.ofds.drop sampleProc.ofds.length).filterMap (fun f => if f.truncated then some f.path else none) = [c!"/out", c!"/err"] :=
  ⟨_, ends_with (by decide +kernel), by decide +kernel⟩

section

variable {e : ChildEnv} {α β : Type}

/-- What does not come back opens nothing later. -/
theorem opens_dead {m : M α} {f : α → M β} (h : ∀ l, Opens e l m) : OpensAll e [] (m >>= f) := by
  intro p
  have h0 := h [] p
  have h1 := h [⟨[], true, true, true⟩] p
  simp only [bind_run]
  revert h0 h1
  cases m e p with
  | ok a q =>
    intro h0 h1
    dsimp only at h0 h1
    rw [h0] at h1
    simp at h1
  | stop s q => rintro ⟨⟨k, h1, h2⟩, _⟩ _; exact ⟨k, h1, h2, fun _ _ _ _ => List.prefix_nil.1 h1⟩

theorem dead_bind {m : M α} {f : α → M β} {l : List OpenFile} (hm : Opens e [] m) (hf : ∀ a q p, m e p = .ok a q → Opens e l (f a)) : Opens e l (m >>= f) := by
  intro p
  have h1 := hm p
  simp only [bind_run]
  revert h1
  cases h : m e p with
  | stop s q =>
    rintro ⟨⟨k, h1, h2⟩, h3⟩
    exact ⟨⟨k, h1.trans List.nil_prefix, h2⟩, h3⟩
  | ok a q =>
    intro h1
    have h2 := hf a q p h q
    rw [show q.ofds = p.ofds by simpa using h1] at h2
    exact h2

theorem attempt_failing {s : Site} {r : Req} (h : e.fails s = true) {a : Bool} {p q : Proc} (ha : attempt s r e p = .ok a q) : a = false := by
  rw [attempt_run] at ha
  cases hr : evalAll p.filters r <;> rw [hr] at ha <;> simp [h] at ha
  · exact ha.1
  · exact ha.1

theorem setrlimit_failing {r : Res} {v : Int} (h : e.fails (.rlimit r) = true) {a : Bool} {p q : Proc} (ha : setrlimit r v e p = .ok a q) : a = false := by
  unfold setrlimit at ha
  simp only [bind_run, getEnv_run] at ha
  cases hb : attempt (.rlimit r) (Req.mk' NR_prlimit64 [0, argOf r.code, e.bufAddr, 0]) e p with
  | stop s q' => rw [hb] at ha; cases ha
  | ok b q' =>
    rw [hb, attempt_failing h hb] at ha
    simp at ha
    exact ha.1

theorem limitStep_failing {r : Res} {v : Int} (h : e.fails (.rlimit r) = true) (l : List OpenFile) : Opens e l (limitStep r true v) := by
  refine dead_bind (opens_setrlimit _ _) fun a q p ha => ?_
  rw [setrlimit_failing h ha]
  exact opens_error _ _ _ _

theorem cpuStep_failing {c : Config} (hc : c.maxCpuTime ≠ -1) (h : e.fails (.rlimit .cpu) = true) (l : List OpenFile) : Opens e l (cpuStep c) := by
  unfold cpuStep
  rw [if_pos (show c.maxCpuTime ≠ UNLIMITED from hc)]
  split
  · exact opens_stop (by intros; simp)
  · refine dead_bind (opens_setrlimit _ _) fun a q p ha => ?_
    rw [setrlimit_failing h ha]
    exact opens_error _ _ _ _

theorem fopen_failing {s : Site} {path : CStr} {w : Bool} (h : e.fails s = true) {a : Option File} {p q : Proc} (ha : fopen s path w e p = .ok a q) :
    a = none ∧ q = p := by
  unfold fopen at ha
  simp only [bind_run, getEnv_run, attempt_run] at ha
  cases hb : evalAll p.filters (Req.mk' NR_openat [argOf (-100), e.bufAddr, if w = true then O_WRONLY ||| O_CREAT ||| O_TRUNC else O_RDONLY, 0o666]) <;>
    rw [hb] at ha <;> simp [h] at ha
  · exact ⟨ha.1.symm, ha.2.symm⟩
  · exact ⟨ha.1.symm, ha.2.symm⟩

theorem opens_fopen_failing {s : Site} {path : CStr} {w : Bool} (h : e.fails s = true) : Opens e [] (fopen s path w) := by
  intro p
  unfold fopen
  simp only [bind_run, getEnv_run, attempt_run]
  cases evalAll p.filters (Req.mk' NR_openat [argOf (-100), e.bufAddr, if w = true then O_WRONLY ||| O_CREAT ||| O_TRUNC else O_RDONLY, 0o666]) with
  | kill => exact ⟨⟨[], List.nil_prefix, (List.append_nil _).symm⟩, by intros; simp⟩
  | errno n => exact (List.append_nil _).symm
  | allow => simp [h]

theorem inputStep_failing {c : Config} {i : CStr} (hi : c.inputPath = some i) (h : e.fails .openInput = true) (l : List OpenFile) :
    Opens e l (inputStep c) := by
  unfold inputStep
  rw [hi]
  refine dead_bind (opens_fopen_failing h) fun a q p ha => ?_
  rw [(fopen_failing h ha).1]
  exact opens_error _ _ _ _

theorem outputStep_failing {c : Config} {o : CStr} (hi : c.outputPath = some o) (h : e.fails .openOutput = true) (i : Option File) (l : List OpenFile) :
    Opens e l (outputStep c i) := by
  unfold outputStep
  rw [hi]
  refine dead_bind (opens_fopen_failing h) fun a q p ha => ?_
  rw [(fopen_failing h ha).1]
  exact opens_error _ _ _ _

end

theorem opens_nothing {c : Config} {e : ChildEnv} {p q : Proc} {s : Stop} (h : OpensAll e [] (childProcess c)) (hq : childProcess c e p = .stop s q) :
    q.ofds = p.ofds := by
  have := h p
  rw [hq] at this
  obtain ⟨k, h1, h2, _⟩ := this
  rw [h2, List.prefix_nil.1 h1, List.append_nil]

/-- **C120**: a judging whose input cannot be opened leaves the files of the output and the errors as they are. -/
theorem C120_input_first (c : Config) (e : ChildEnv) (p q : Proc) (s : Stop) (i : CStr) (hi : c.inputPath = some i) (hf : e.fails .openInput = true)
    (h : childProcess c e p = .stop s q) : q.ofds = p.ofds :=
  opens_nothing (opens_limits c fun _ => opens_dead (inputStep_failing hi hf)) h

/-- The sample judging without its input. -/
example : ∃ q, childProcess sampleConfig (sampleChild fun s => s = .openInput) sampleProc = .stop (.killed 10) q ∧ q.ofds = sampleProc.ofds :=
  have h := ends_with (by decide +kernel : _ = some (.killed 10))
  ⟨_, h, C120_input_first _ _ _ _ _ _ rfl rfl h⟩

/-- **C120**: a judging one of whose limits cannot be set opens no file. -/
theorem C120_limits_first (c : Config) (e : ChildEnv) (p q : Proc) (s : Stop) (r : Res) (hc : ConfigOk c) (hr : wantedLimit c r ≠ none)
    (hf : e.fails (.rlimit r) = true) (h : childProcess c e p = .stop s q) : q.ofds = p.ofds := by
  refine opens_nothing ?_ h
  unfold childProcess
  have hb : ∀ {x : Prop} [Decidable x], x → decide x = true := fun h => decide_eq_true h
  cases r with
  | stack =>
    have : c.maxStack ≠ UNLIMITED := by have := hc.2.2.2.2.2; simp only [UNLIMITED]; omega
    rw [hb this]
    exact opens_dead (limitStep_failing hf)
  | as =>
    have : c.memoryLimitCheckOnly = 0 ∧ c.maxMemory ≠ UNLIMITED := by
      simp only [wantedLimit, UNLIMITED] at hr ⊢
      split at hr
      · exact absurd rfl hr
      · omega
    rw [hb this]
    exact opens_bind_all (l := []) (opens_limitStep _ _ _) fun _ => opens_dead (limitStep_failing hf)
  | cpu =>
    have : c.maxCpuTime ≠ -1 := by
      intro h'
      exact hr (if_pos h')
    exact opens_bind_all (l := []) (opens_limitStep _ _ _) fun _ => opens_bind_all (l := []) (opens_limitStep _ _ _) fun _ => opens_dead (cpuStep_failing this hf)
  | nproc =>
    have : c.maxProcessNumber ≠ UNLIMITED := by
      intro h'
      exact hr (if_pos h')
    rw [hb this]
    exact opens_bind_all (l := []) (opens_limitStep _ _ _) fun _ => opens_bind_all (l := []) (opens_limitStep _ _ _) fun _ =>
      opens_bind_all (l := []) (opens_cpuStep c) fun _ => opens_dead (limitStep_failing hf)
  | fsize =>
    have : c.maxOutputSize ≠ UNLIMITED := by
      intro h'
      exact hr (if_pos h')
    rw [hb this]
    exact opens_bind_all (l := []) (opens_limitStep _ _ _) fun _ => opens_bind_all (l := []) (opens_limitStep _ _ _) fun _ =>
      opens_bind_all (l := []) (opens_cpuStep c) fun _ => opens_bind_all (l := []) (opens_limitStep _ _ _) fun _ => opens_dead (limitStep_failing hf)

/-- The sample judging when the limit on processes cannot be set. -/
example : ∃ q, childProcess sampleConfig (sampleChild fun s => s = .rlimit .nproc) sampleProc = .stop (.killed 10) q ∧ q.ofds = sampleProc.ofds :=
  have h := ends_with (by decide +kernel : _ = some (.killed 10))
  ⟨_, h, C120_limits_first _ _ _ _ _ .nproc sampleConfig_ok (by decide) rfl h⟩

/-- **C120**: a judging whose output cannot be opened leaves the file of the errors as it is. -/
theorem C120_output_first (c : Config) (e : ChildEnv) (p q : Proc) (s : Stop) (o : CStr) (ho : c.outputPath = some o) (hf : e.fails .openOutput = true)
    (h : childProcess c e p = .stop s q) : ∀ f ∈ q.ofds.drop p.ofds.length, f.writable = false ∧ f.truncated = false := by
  have h1 : OpensAll e (inputFiles c ++ []) (childProcess c) :=
    opens_limits c fun _ => opens_bind_all (opens_inputStep c) fun i => opens_dead (outputStep_failing ho hf i)
  have h2 := h1 p
  rw [h] at h2
  obtain ⟨k, h2, h3, _⟩ := h2
  intro f hm
  rw [h3, List.drop_left] at hm
  have := h2.subset hm
  revert this
  unfold inputFiles
  cases c.inputPath with
  | none => simp
  | some i => intro hm; rw [List.append_nil] at hm; rw [List.mem_singleton.1 hm]; exact ⟨rfl, rfl⟩

/-- The sample judging when its output cannot be opened: only its input has been opened. -/
example : ∃ q, childProcess sampleConfig (sampleChild fun s => s = .openOutput) sampleProc = .stop (.killed 10) q ∧
    (q.ofds.drop sampleProc.ofds.length).map (·.path) = [c!"/in"] ∧ ∀ f ∈ q.ofds.drop sampleProc.ofds.length, f.writable = false ∧ f.truncated = false :=
  have h := ends_with (by decide +kernel : _ = some (.killed 10))
  ⟨_, h, by decide +kernel, C120_output_first _ _ _ _ _ _ rfl rfl h⟩

end Judger
