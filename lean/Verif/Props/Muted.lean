import Verif.Props.ExecLost

/-! # C24: a caller that ignores or blocks SIGUSR1 never learns of a failure before the program -/

set_option autoImplicit false

namespace Judger

open Judger.Spec
open M

namespace Muted

/-- SIGUSR1 does not end the process. -/
def Mute (p : Proc) : Prop := p.deadly 10 = false

/-- From such a state the piece comes to such a state or ends, not by SIGUSR1. -/
def Quits {α : Type} (m : M α) : Prop :=
  ∀ e p, e.stderrKills ≠ some 10 → Mute p → match m e p with
    | .ok _ p' => Mute p'
    | .stop s _ => s ≠ .killed 10

theorem quits_pure {α : Type} (a : α) : Quits (pure a) := fun _ _ _ h => h

theorem quits_bind {α β : Type} {m : M α} {f : α → M β} (h : Quits m) (hf : ∀ a, Quits (f a)) : Quits (m >>= f) := by
  intro e p he hp
  have h1 := h e p he hp
  show match bind' m f e p with | .ok _ p' => Mute p' | .stop s _ => s ≠ .killed 10
  unfold bind'
  cases hm : m e p with
  | ok a p' =>
    rw [hm] at h1
    exact hf a e p' he h1
  | stop s p' =>
    rw [hm] at h1
    exact h1

theorem quits_modify {f : Proc → Proc} (h : ∀ p, (f p).ignored = p.ignored ∧ (f p).blocked = p.blocked) : Quits (M.modify f) := by
  intro e p _ hp
  show Mute (f p)
  unfold Mute Proc.deadly at *
  rw [(h p).1, (h p).2]
  exact hp

theorem quits_stop {α : Type} {s : Stop} (h : s ≠ .killed 10) : Quits (stopWith s : M α) := fun _ _ _ _ => h

theorem quits_enter (r : Req) : Quits (enter r) := by
  intro e p _ hp
  rw [enter_run]
  cases h : evalAll p.filters r with
  | kill => exact (by decide : Stop.killed SIGSYS ≠ .killed 10)
  | errno n => exact hp
  | allow => exact hp

theorem quits_getEnv : Quits getEnv := fun _ _ _ h => h

theorem quits_getProc : Quits getProc := fun _ _ _ h => h

theorem quits_ite {α : Type} {P : Prop} [Decidable P] {m m' : M α} (h : Quits m) (h' : Quits m') : Quits (if P then m else m') := by
  split
  · exact h
  · exact h'

theorem quits_attempt (s : Site) (r : Req) : Quits (attempt s r) :=
  quits_bind quits_getEnv fun _ => quits_bind (quits_enter r) fun _ => quits_pure _

theorem quits_plain (nr : Nat) (args : List (BitVec 64)) : Quits (plain nr args) := quits_bind (quits_enter _) fun _ => quits_pure _

theorem quits_setrlimit (r : Res) (v : Int) : Quits (setrlimit r v) :=
  quits_bind quits_getEnv fun _ => quits_bind (quits_attempt _ _) fun _ => quits_bind quits_getProc fun _ =>
    quits_ite (quits_bind (quits_modify fun _ => ⟨rfl, rfl⟩) fun _ => quits_pure _) (quits_pure _)

theorem quits_fopen (s : Site) (path : CStr) (w : Bool) : Quits (fopen s path w) :=
  quits_bind quits_getEnv fun _ => quits_bind (quits_attempt _ _) fun _ =>
    quits_ite (quits_bind quits_getProc fun _ => quits_bind (quits_modify fun _ => ⟨rfl, rfl⟩) fun _ => quits_pure _) (quits_pure _)

theorem quits_dup2 (s : Site) (a b : Nat) : Quits (dup2 s a b) :=
  quits_bind (quits_attempt _ _) fun _ => quits_bind quits_getProc fun _ =>
    quits_ite (quits_bind (quits_modify fun _ => ⟨rfl, rfl⟩) fun _ => quits_pure _) (quits_pure _)

theorem quits_fclose (f : File) : Quits (fclose f) :=
  quits_bind quits_getProc fun _ =>
    quits_ite (quits_bind (quits_enter _) fun _ => quits_modify fun _ => ⟨rfl, rfl⟩) (quits_modify fun _ => ⟨rfl, rfl⟩)

theorem quits_setgid (g : Int) : Quits (setgid g) :=
  quits_bind (quits_attempt _ _) fun _ => quits_bind quits_getProc fun _ =>
    quits_ite (quits_bind (quits_modify fun _ => ⟨rfl, rfl⟩) fun _ => quits_pure _)
      (quits_ite (quits_bind (quits_modify fun _ => ⟨rfl, rfl⟩) fun _ => quits_pure _) (quits_pure _))

theorem quits_setgroups (gs : List Int) : Quits (setgroups gs) :=
  quits_bind quits_getEnv fun _ => quits_bind (quits_attempt _ _) fun _ => quits_bind quits_getProc fun _ =>
    quits_ite (quits_bind (quits_modify fun _ => ⟨rfl, rfl⟩) fun _ => quits_pure _) (quits_pure _)

theorem quits_setuid (u : Int) : Quits (setuid u) :=
  quits_bind (quits_attempt _ _) fun _ => quits_bind quits_getProc fun _ =>
    quits_ite (quits_bind (quits_modify fun _ => ⟨rfl, rfl⟩) fun _ => quits_pure _)
      (quits_ite (quits_bind (quits_modify fun _ => ⟨rfl, rfl⟩) fun _ => quits_pure _) (quits_pure _))

theorem quits_execve (path : CStr) (a b : List CStr) : Quits (execve path a b) :=
  quits_bind quits_getEnv fun _ => quits_bind (quits_attempt _ _) fun _ => quits_ite (quits_stop (by simp)) (quits_pure _)

theorem quits_note : Quits noteStderr := by
  intro e p he hp
  refine quits_bind (m := enter _) (quits_enter _) (f := fun go => match go, e.stderrKills with
    | true, some sig => stopWith (.killed sig)
    | _, _ => pure ()) (fun go => ?_) e p he hp
  split
  · rename_i sig hk
    refine quits_stop ?_
    rintro h
    cases h
    exact he hk
  · exact quits_pure _

theorem quits_localTime : Quits localTime :=
  quits_bind quits_getEnv fun _ => quits_ite (quits_stop (by simp)) (quits_pure _)

theorem quits_log (msg : CStr) : Quits (logWriteChild msg) := by
  refine quits_bind quits_getEnv fun e => ?_
  split
  · exact quits_note
  · refine quits_bind quits_localTime fun _ => quits_bind (quits_attempt _ _) fun _ => quits_ite ?_ quits_note
    refine quits_bind (quits_enter _) fun _ => quits_bind quits_getProc fun _ => quits_ite (quits_stop (by simp [SIGXFSZ])) (quits_ite ?_ quits_note)
    exact quits_bind (quits_modify fun _ => ⟨rfl, rfl⟩) fun _ => quits_bind (quits_attempt _ _) fun _ => quits_pure _

theorem quits_close (f : Option File) : Quits (closeFile f) := by
  cases f with
  | none => exact quits_pure _
  | some f => exact quits_fclose f

theorem quits_raise : Quits raiseUsr1 := by
  refine quits_bind quits_getEnv fun e => quits_bind (quits_plain _ _) fun _ => quits_bind (quits_plain _ _) fun _ => quits_bind (quits_plain _ _) fun _ =>
    quits_bind (quits_enter _) fun go => ?_
  intro e' p he hp
  have hr : (getProc >>= fun p => if (go && p.deadly SIGUSR1) = true then stopWith (.killed SIGUSR1) else plain NR_rt_sigprocmask [2, e.bufAddr, 0, 8] : M Unit) e' p =
      plain NR_rt_sigprocmask [2, e.bufAddr, 0, 8] e' p := by
    show (if (go && p.deadly SIGUSR1) = true then stopWith (.killed SIGUSR1) else plain NR_rt_sigprocmask [2, e.bufAddr, 0, 8] : M Unit) e' p = _
    rw [if_neg (by rw [show p.deadly SIGUSR1 = false from hp, Bool.and_false]; exact Bool.false_ne_true)]
  rw [hr]
  exact quits_plain _ _ e' p he hp

theorem quits_error {α : Type} (code : CStr) (i o r : Option File) : Quits (childErrorExit code i o r : M α) := by
  refine quits_bind (quits_bind quits_getEnv fun e => quits_bind (quits_log _) fun _ => quits_bind (quits_close _) fun _ => ?_)
    fun _ => quits_bind (quits_plain _ _) fun _ => quits_stop nofun
  split
  · exact quits_bind (quits_close _) fun _ => quits_raise
  · exact quits_bind (quits_close _) fun _ => quits_bind (quits_close _) fun _ => quits_raise

theorem quits_limitStep (r : Res) (w : Bool) (v : Int) : Quits (limitStep r w v) :=
  quits_ite (quits_bind (quits_setrlimit _ _) fun _ => quits_ite (quits_error _ _ _ _) (quits_pure _)) (quits_pure _)

theorem quits_cpuStep (c : Config) : Quits (cpuStep c) := by
  refine quits_ite ?_ (quits_pure _)
  split
  · exact quits_stop (by simp)
  · exact quits_bind (quits_setrlimit _ _) fun _ => quits_ite (quits_error _ _ _ _) (quits_pure _)

theorem quits_inputStep (c : Config) : Quits (inputStep c) := by
  unfold inputStep
  split
  · exact quits_pure _
  · refine quits_bind (quits_fopen _ _ _) fun f => ?_
    split
    · exact quits_error _ _ _ _
    · exact quits_bind (quits_dup2 _ _ _) fun _ => quits_ite (quits_bind (quits_error _ _ _ _) fun _ => quits_pure _) (quits_pure _)

theorem quits_outputStep (c : Config) (i : Option File) : Quits (outputStep c i) := by
  unfold outputStep
  split
  · exact quits_pure _
  · refine quits_bind (quits_fopen _ _ _) fun f => ?_
    split
    · exact quits_error _ _ _ _
    · exact quits_bind (quits_dup2 _ _ _) fun _ => quits_ite (quits_bind (quits_error _ _ _ _) fun _ => quits_pure _) (quits_pure _)

theorem quits_errorStep (c : Config) (i o : Option File) : Quits (errorStep c i o) := by
  unfold errorStep
  split
  · exact quits_pure _
  · have hk : ∀ f : Option File, Quits (match f with
        | none => stopWith .ub
        | some f => do
          if !(← dup2 .dupError f.fd 2) then
            childErrorExit c!"DUP2_FAILED" i o (some f)
          return some f) := by
      intro f
      split
      · exact quits_stop (by simp)
      · exact quits_bind (quits_dup2 _ _ _) fun _ => quits_ite (quits_bind (quits_error _ _ _ _) fun _ => quits_pure _) (quits_pure _)
    refine quits_ite (quits_bind (quits_pure _) hk) (quits_bind (quits_fopen _ _ _) fun f => ?_)
    split
    · exact quits_bind (quits_error _ _ _ _) hk
    · exact quits_bind (quits_pure _) hk

theorem quits_gidStep (c : Config) (i o r : Option File) : Quits (gidStep c i o r) := by
  have h2 : Quits (do
      if !(← setgroups [c.gid]) then
        childErrorExit c!"SETUID_FAILED" i o r : M Unit) :=
    quits_bind (quits_setgroups _) fun _ => quits_ite (quits_error _ _ _ _) (quits_pure _)
  refine quits_ite ?_ (quits_pure _)
  exact quits_bind (quits_setgid _) fun _ => quits_ite (quits_bind (quits_error _ _ _ _) fun _ => h2) h2

theorem quits_uidStep (c : Config) (i o r : Option File) : Quits (uidStep c i o r) := by
  refine quits_ite ?_ (quits_pure _)
  exact quits_bind (quits_setuid _) fun _ => quits_ite (quits_error _ _ _ _) (quits_pure _)

theorem quits_seccompLoad (f : Filter) : Quits (seccompLoad f) := by
  refine quits_bind quits_getEnv fun e => quits_bind (quits_enter _) fun _ => quits_ite ?_ (quits_pure _)
  refine quits_bind (quits_modify fun _ => ⟨rfl, rfl⟩) fun _ => quits_bind (quits_attempt _ _) fun _ => quits_ite ?_ (quits_pure _)
  exact quits_bind (quits_modify fun _ => ⟨rfl, rfl⟩) fun _ => quits_pure _

theorem quits_load (d : Action) (us : List Rule) : Quits (loadRules d us) := by
  refine quits_bind quits_getEnv fun e => ?_
  have h1 : Quits (do
      match ← ruleAddAll 0 ⟨d, []⟩ us with
      | none => return LOAD_SECCOMP_FAILED
      | some ctx =>
        if !(← seccompLoad ctx) then
          return LOAD_SECCOMP_FAILED
        return 0 : M Int) := by
    intro e p he hp
    rw [bind_run]
    rcases ruleAddAll_run (e := e) (p := p) us 0 ⟨d, []⟩ with ⟨h, _⟩ | ⟨h, _⟩
    · rw [h]
      exact hp
    · rw [h]
      exact quits_bind (quits_seccompLoad ⟨d, [] ++ us⟩) (fun _ => quits_ite (quits_pure _) (quits_pure _)) e p he hp
  exact quits_ite (quits_pure _) h1

theorem quits_named (name : CStr) : Quits (namedRules name) := by
  refine quits_ite ?_ (quits_ite ?_ (quits_ite ?_ (quits_ite ?_ (quits_ite ?_ (quits_pure _)))))
  all_goals exact quits_bind quits_getEnv fun e => quits_load _ _

theorem quits_seccompStep (c : Config) (i o r : Option File) : Quits (seccompStep c i o r) := by
  unfold seccompStep
  split
  · exact quits_pure _
  · exact quits_bind (quits_named _) fun _ => quits_ite (quits_error _ _ _ _) (quits_pure _)

theorem childProcess_quits (c : Config) : Quits (childProcess c) :=
  quits_bind (quits_limitStep _ _ _) fun _ => quits_bind (quits_limitStep _ _ _) fun _ => quits_bind (quits_cpuStep c) fun _ =>
    quits_bind (quits_limitStep _ _ _) fun _ => quits_bind (quits_limitStep _ _ _) fun _ => quits_bind (quits_inputStep c) fun i =>
    quits_bind (quits_outputStep c i) fun o => quits_bind (quits_errorStep c i o) fun r => quits_bind (quits_gidStep c i o r) fun _ =>
    quits_bind (quits_uidStep c i o r) fun _ => quits_bind (quits_seccompStep c i o r) fun _ => quits_bind (quits_execve _ _ _) fun _ => quits_error _ _ _ _

end Muted

/-- C24, for a caller in which SIGUSR1 is ignored or blocked: whatever fails before the program runs, and whatever rule set is asked for, `run()` does not say
SYSTEM_ERROR (unless the note on stderr kills with SIGUSR1 itself). -/
theorem C24_muted (c : Config) (e : ChildEnv) (p q : Proc) (s : Stop) (t : Termination) (env : RunEnv) (pid : Nat) (prior : Result) (hc : ConfigOk c)
    (hmute : p.deadly 10 = false) (hnote : e.stderrKills ≠ some 10) (hd : childProcess c e p = .stop s q) (hrep : Reports s t) (hcomp : Completed c env pid t) :
    ∃ r effs, run c prior env = .returned r effs ∧ r.error = 0 ∧ r.result ≠ 5 := by
  have hs := Muted.childProcess_quits c e p hnote hmute
  rw [hd] at hs
  have hs : s ≠ .killed 10 := hs
  obtain ⟨r, effs, h1, h0, h2⟩ := verdict_of_death c env pid prior t hc hcomp
  refine ⟨r, effs, h1, h0, ?_⟩
  have ht : ∀ core, t ≠ .signaled 10 core := by
    rintro core rfl
    cases s with
    | killed sig =>
      have : sig = 10 := hrep
      subst this
      exact hs rfl
    | hung => exact absurd (show (10 : Nat) = 9 from hrep) (by decide)
    | exited _ | execed _ _ _ | ub => exact hrep
  rw [h2]
  unfold verdict
  split
  · exact absurd rfl (ht _)
  · split <;> decide
  · repeat' split
    all_goals decide

/-- The input file is missing and the caller ignores SIGUSR1: exit code 1, a runtime error. -/
example : ∃ q, childProcess sampleConfig (sampleChild (· == .openInput)) { sampleProc with ignored := (· == 10) } = .stop (.exited 1) q ∧
    { sampleProc with ignored := (· == 10) : Proc }.deadly 10 = false ∧ (sampleChild (· == .openInput)).stderrKills ≠ some 10 ∧ Reports (.exited 1) (.exited 1) ∧
    Completed sampleConfig (sampleEnv (Termination.exited 1).waitStatus) 4242 (.exited 1) :=
  ⟨_, rfl, by decide, nofun, rfl, sampleEnv_completed (.exited 1) (by decide)⟩

end Judger
