import Verif.Spec.Pending
import Verif.Props.Child

/-! # C124: what the caller had not yet written is written once -/

set_option autoImplicit false

namespace Judger

open Judger.Spec
open M

/-- C124, the full claim: the child writes nothing of what its caller has in hand and calls none of its functions. -/
def C124_full : Prop :=
  ∀ (c : Config) (e : ChildEnv) (p q : Proc) (s : Stop) (h : InHand), ConfigOk c → childProcess c e p = .stop s q → s ≠ .ub →
    (∀ fd, comesTo h s fd = h.texts fd) ∧ (spilt h s).atexit = []

/-- SIGUSR1 ends the process, and no filter answers tgkill (number 234) with an error. -/
def Loud (p : Proc) : Prop := p.deadly 10 = true ∧ ∀ r n, r.nr = 234 → evalAll p.filters r ≠ .errno n

/-- From such a state the piece comes to such a state or ends without `exit`. -/
def Quits {α : Type} (m : M α) : Prop :=
  ∀ e p, Loud p → match m e p with
    | .ok _ p' => Loud p'
    | .stop s _ => ∀ n, s ≠ .exited n

/-- From such a state the piece ends, without `exit`. -/
def Finishes {α : Type} (m : M α) : Prop := ∀ e p, Loud p → ∃ s q, m e p = .stop s q ∧ ∀ n, s ≠ .exited n

theorem Finishes.quits {α : Type} {m : M α} (h : Finishes m) : Quits m := by
  intro e p hp
  obtain ⟨s, q, h1, h2⟩ := h e p hp
  rw [h1]
  exact h2

theorem quits_pure {α : Type} (a : α) : Quits (pure a) := fun _ _ h => h

theorem quits_bind {α β : Type} {m : M α} {f : α → M β} (h : Quits m) (hf : ∀ a, Quits (f a)) : Quits (m >>= f) := by
  intro e p hp
  have h1 := h e p hp
  show match bind' m f e p with | .ok _ p' => Loud p' | .stop s _ => ∀ n, s ≠ .exited n
  unfold bind'
  cases hm : m e p with
  | ok a p' =>
    rw [hm] at h1
    exact hf a e p' h1
  | stop s p' =>
    rw [hm] at h1
    exact h1

theorem ends_bind_left {α β : Type} {m : M α} {f : α → M β} (h : Finishes m) : Finishes (m >>= f) := by
  intro e p hp
  obtain ⟨s, q, h1, h2⟩ := h e p hp
  refine ⟨s, q, ?_, h2⟩
  show bind' m f e p = _
  unfold bind'
  rw [h1]

theorem ends_bind {α β : Type} {m : M α} {f : α → M β} (h : Quits m) (hf : ∀ a, Finishes (f a)) : Finishes (m >>= f) := by
  intro e p hp
  have h1 := h e p hp
  show ∃ s q, bind' m f e p = _ ∧ _
  unfold bind'
  cases hm : m e p with
  | ok a p' =>
    rw [hm] at h1
    exact hf a e p' h1
  | stop s p' =>
    rw [hm] at h1
    exact ⟨s, p', rfl, h1⟩

theorem quits_getEnv : Quits getEnv := fun _ _ h => h

theorem quits_getProc : Quits getProc := fun _ _ h => h

theorem quits_modify {f : Proc → Proc} (h : ∀ p, (f p).ignored = p.ignored ∧ (f p).blocked = p.blocked ∧ (f p).filters = p.filters) :
    Quits (M.modify f) := by
  intro e p hp
  show Loud (f p)
  unfold Loud Proc.deadly at *
  rw [(h p).1, (h p).2.1, (h p).2.2]
  exact hp

theorem ends_stopWith {α : Type} {s : Stop} (h : ∀ n, s ≠ .exited n) : Finishes (stopWith s : M α) := fun _ p _ => ⟨s, p, rfl, h⟩

theorem quits_ite {α : Type} {P : Prop} [Decidable P] {m m' : M α} (h : Quits m) (h' : Quits m') : Quits (if P then m else m') := by
  split
  · exact h
  · exact h'

theorem quits_enter (r : Req) : Quits (enter r) := by
  intro e p hp
  rw [enter_run]
  cases h : evalAll p.filters r with
  | kill => exact fun n => nofun
  | errno n => exact hp
  | allow => exact hp

theorem quits_attempt (s : Site) (r : Req) : Quits (attempt s r) :=
  quits_bind quits_getEnv fun _ => quits_bind (quits_enter r) fun _ => quits_pure _

theorem quits_plain (nr : Nat) (args : List (BitVec 64)) : Quits (plain nr args) := quits_bind (quits_enter _) fun _ => quits_pure _

theorem quits_setrlimit (r : Res) (v : Int) : Quits (setrlimit r v) :=
  quits_bind quits_getEnv fun _ => quits_bind (quits_attempt _ _) fun _ => quits_bind quits_getProc fun _ =>
    quits_ite (quits_bind (quits_modify fun _ => ⟨rfl, rfl, rfl⟩) fun _ => quits_pure _) (quits_pure _)

theorem quits_fopen (s : Site) (path : CStr) (w : Bool) : Quits (fopen s path w) :=
  quits_bind quits_getEnv fun _ => quits_bind (quits_attempt _ _) fun _ =>
    quits_ite (quits_bind quits_getProc fun _ => quits_bind (quits_modify fun _ => ⟨rfl, rfl, rfl⟩) fun _ => quits_pure _) (quits_pure _)

theorem quits_dup2 (s : Site) (a b : Nat) : Quits (dup2 s a b) :=
  quits_bind (quits_attempt _ _) fun _ => quits_bind quits_getProc fun _ =>
    quits_ite (quits_bind (quits_modify fun _ => ⟨rfl, rfl, rfl⟩) fun _ => quits_pure _) (quits_pure _)

theorem quits_fclose (f : File) : Quits (fclose f) :=
  quits_bind quits_getProc fun _ =>
    quits_ite (quits_bind (quits_enter _) fun _ => quits_modify fun _ => ⟨rfl, rfl, rfl⟩) (quits_modify fun _ => ⟨rfl, rfl, rfl⟩)

theorem quits_setgid (g : Int) : Quits (setgid g) :=
  quits_bind (quits_attempt _ _) fun _ => quits_bind quits_getProc fun _ =>
    quits_ite (quits_bind (quits_modify fun _ => ⟨rfl, rfl, rfl⟩) fun _ => quits_pure _)
      (quits_ite (quits_bind (quits_modify fun _ => ⟨rfl, rfl, rfl⟩) fun _ => quits_pure _) (quits_pure _))

theorem quits_setgroups (gs : List Int) : Quits (setgroups gs) :=
  quits_bind quits_getEnv fun _ => quits_bind (quits_attempt _ _) fun _ => quits_bind quits_getProc fun _ =>
    quits_ite (quits_bind (quits_modify fun _ => ⟨rfl, rfl, rfl⟩) fun _ => quits_pure _) (quits_pure _)

theorem quits_setuid (u : Int) : Quits (setuid u) :=
  quits_bind (quits_attempt _ _) fun _ => quits_bind quits_getProc fun _ =>
    quits_ite (quits_bind (quits_modify fun _ => ⟨rfl, rfl, rfl⟩) fun _ => quits_pure _)
      (quits_ite (quits_bind (quits_modify fun _ => ⟨rfl, rfl, rfl⟩) fun _ => quits_pure _) (quits_pure _))

theorem quits_execve (path : CStr) (a b : List CStr) : Quits (execve path a b) :=
  quits_bind quits_getEnv fun _ => quits_bind (quits_attempt _ _) fun _ => quits_ite (ends_stopWith (by simp)).quits (quits_pure _)

theorem quits_note : Quits noteStderr := by
  refine quits_bind quits_getEnv fun e => quits_bind (quits_enter _) fun go => ?_
  split
  · exact (ends_stopWith (by simp)).quits
  · exact quits_pure _

theorem quits_localTime : Quits localTime :=
  quits_bind quits_getEnv fun _ => quits_ite (ends_stopWith (by simp)).quits (quits_pure _)

theorem quits_log (msg : CStr) : Quits (logWriteChild msg) := by
  refine quits_bind quits_getEnv fun e => ?_
  split
  · exact quits_note
  · refine quits_bind quits_localTime fun _ => quits_bind (quits_attempt _ _) fun _ => quits_ite ?_ quits_note
    refine quits_bind (quits_enter _) fun _ => quits_bind quits_getProc fun _ => quits_ite (ends_stopWith (by simp)).quits (quits_ite ?_ quits_note)
    exact quits_bind (quits_modify fun _ => ⟨rfl, rfl, rfl⟩) fun _ => quits_bind (quits_attempt _ _) fun _ => quits_pure _

theorem quits_close (f : Option File) : Quits (closeFile f) := by
  cases f with
  | none => exact quits_pure _
  | some f => exact quits_fclose f

/-- `raise(SIGUSR1)` is the end. -/
theorem ends_raise : Finishes raiseUsr1 := by
  refine ends_bind quits_getEnv fun e => ends_bind (quits_plain _ _) fun _ => ends_bind (quits_plain _ _) fun _ => ends_bind (quits_plain _ _) fun _ => ?_
  intro e' p hp
  show ∃ s q, bind' (enter _) _ e' p = _ ∧ _
  unfold bind'
  rw [enter_run]
  cases h : evalAll p.filters (Req.mk' NR_tgkill [e.bufAddr, e.bufAddr, argOf SIGUSR1]) with
  | kill => exact ⟨_, _, rfl, fun _ => nofun⟩
  | errno n => exact absurd h (hp.2 _ n rfl)
  | allow =>
    refine ⟨.killed 10, p, ?_, fun _ => nofun⟩
    show (if (true && p.deadly SIGUSR1) = true then stopWith (.killed SIGUSR1) else _ : M Unit) e' p = _
    rw [if_pos (by rw [Bool.true_and]; exact hp.1)]
    rfl

theorem ends_error {α : Type} (code : CStr) (i o r : Option File) : Finishes (childErrorExit code i o r : M α) := by
  refine ends_bind_left (ends_bind quits_getEnv fun e => ends_bind (quits_log _) fun _ => ends_bind (quits_close _) fun _ => ?_)
  split
  · exact ends_bind (quits_close _) fun _ => ends_raise
  · exact ends_bind (quits_close _) fun _ => ends_bind (quits_close _) fun _ => ends_raise

theorem quits_error {α : Type} (code : CStr) (i o r : Option File) : Quits (childErrorExit code i o r : M α) := (ends_error code i o r).quits

theorem quits_limitStep (r : Res) (w : Bool) (v : Int) : Quits (limitStep r w v) :=
  quits_ite (quits_bind (quits_setrlimit _ _) fun _ => quits_ite (quits_error _ _ _ _) (quits_pure _)) (quits_pure _)

theorem quits_cpuStep (c : Config) : Quits (cpuStep c) := by
  refine quits_ite ?_ (quits_pure _)
  split
  · exact (ends_stopWith (by simp)).quits
  · exact quits_bind (quits_setrlimit _ _) fun _ => quits_ite (quits_error _ _ _ _) (quits_pure _)

theorem quits_inputStep (c : Config) : Quits (inputStep c) := by
  unfold inputStep
  split
  · exact quits_pure _
  · refine quits_bind (quits_fopen _ _ _) fun f => ?_
    split
    · exact quits_error _ _ _ _
    · exact quits_bind (quits_dup2 _ _ _) fun _ => quits_ite (quits_bind (quits_error _ _ _ _) fun _ => quits_pure _) (quits_pure _)

theorem quits_outputStep (c : Config) (i : Option File) : Quits (outputStep c i) := by
  unfold outputStep
  split
  · exact quits_pure _
  · refine quits_bind (quits_fopen _ _ _) fun f => ?_
    split
    · exact quits_error _ _ _ _
    · exact quits_bind (quits_dup2 _ _ _) fun _ => quits_ite (quits_bind (quits_error _ _ _ _) fun _ => quits_pure _) (quits_pure _)

theorem quits_errorStep (c : Config) (i o : Option File) : Quits (errorStep c i o) := by
  unfold errorStep
  split
  · exact quits_pure _
  · have hk : ∀ f : Option File, Quits (match f with
        | none => stopWith .ub
        | some f => do
          if !(← dup2 .dupError f.fd 2) then
            childErrorExit c!"DUP2_FAILED" i o (some f)
          return some f) := by
      intro f
      split
      · exact (ends_stopWith (by simp)).quits
      · exact quits_bind (quits_dup2 _ _ _) fun _ => quits_ite (quits_bind (quits_error _ _ _ _) fun _ => quits_pure _) (quits_pure _)
    refine quits_ite (quits_bind (quits_pure _) hk) (quits_bind (quits_fopen _ _ _) fun f => ?_)
    split
    · exact quits_bind (quits_error _ _ _ _) hk
    · exact quits_bind (quits_pure _) hk

theorem quits_gidStep (c : Config) (i o r : Option File) : Quits (gidStep c i o r) := by
  have h2 : Quits (do
      if !(← setgroups [c.gid]) then
        childErrorExit c!"SETUID_FAILED" i o r : M Unit) :=
    quits_bind (quits_setgroups _) fun _ => quits_ite (quits_error _ _ _ _) (quits_pure _)
  refine quits_ite ?_ (quits_pure _)
  exact quits_bind (quits_setgid _) fun _ => quits_ite (quits_bind (quits_error _ _ _ _) fun _ => h2) h2

theorem quits_uidStep (c : Config) (i o r : Option File) : Quits (uidStep c i o r) := by
  refine quits_ite ?_ (quits_pure _)
  exact quits_bind (quits_setuid _) fun _ => quits_ite (quits_error _ _ _ _) (quits_pure _)

/-- No rule of the list answers tgkill with an error. -/
def SparesTgkill (us : List Rule) : Prop := ∀ u ∈ us, u.nr = 234 → ∀ n, u.action ≠ .errno n

theorem eval_spared {d : Action} {us : List Rule} (hd : ∀ n, d ≠ .errno n) (hu : SparesTgkill us) (r : Req) (hr : r.nr = 234) (n : Nat) :
    Filter.eval ⟨d, us⟩ r ≠ .errno n := by
  unfold Filter.eval
  split
  · split
    · rename_i u hf
      have h1 := List.find?_some hf
      simp only [Rule.applies, Bool.and_eq_true, beq_iff_eq] at h1
      exact hu u (List.mem_of_find?_eq_some hf) (by rw [h1.1, hr]) n
    · exact hd n
  · exact nofun

theorem min_errno {a b : Action} {n : Nat} (h : a.min b = .errno n) : a = .errno n ∨ b = .errno n := by
  cases a <;> cases b <;> simp_all [Action.min]

theorem quits_seccompLoad {f : Filter} (hf : ∀ r, r.nr = 234 → ∀ n, f.eval r ≠ .errno n) : Quits (seccompLoad f) := by
  refine quits_bind quits_getEnv fun e => quits_bind (quits_enter _) fun _ => quits_ite ?_ (quits_pure _)
  refine quits_bind (quits_modify fun _ => ⟨rfl, rfl, rfl⟩) fun _ => quits_bind (quits_attempt _ _) fun _ => quits_ite ?_ (quits_pure _)
  refine quits_bind ?_ fun _ => quits_pure _
  intro e p hp
  refine ⟨hp.1, fun r n hr h => ?_⟩
  rcases min_errno h with h | h
  · exact hf r hr n h
  · exact hp.2 r n hr h

theorem quits_load (d : Action) (us : List Rule) (hd : ∀ n, d ≠ .errno n) (hu : SparesTgkill us) : Quits (loadRules d us) := by
  refine quits_bind quits_getEnv fun e => ?_
  have h1 : Quits (do
      match ← ruleAddAll 0 ⟨d, []⟩ us with
      | none => return LOAD_SECCOMP_FAILED
      | some ctx =>
        if !(← seccompLoad ctx) then
          return LOAD_SECCOMP_FAILED
        return 0 : M Int) := by
    intro e p hp
    rw [bind_run]
    rcases ruleAddAll_run (e := e) (p := p) us 0 ⟨d, []⟩ with ⟨h, _⟩ | ⟨h, _⟩
    · rw [h]
      exact hp
    · rw [h]
      exact quits_bind (quits_seccompLoad (f := ⟨d, [] ++ us⟩) fun r hr n => eval_spared hd hu r hr n)
        (fun _ => quits_ite (quits_pure _) (quits_pure _)) e p hp
  exact quits_ite (quits_pure _) h1

theorem quits_named (name : CStr) : Quits (namedRules name) := by
  have hk : ∀ n, Action.kill ≠ .errno n := fun _ => nofun
  have ha : ∀ n, Action.allow ≠ .errno n := fun _ => nofun
  refine quits_ite ?_ (quits_ite ?_ (quits_ite ?_ (quits_ite ?_ (quits_ite ?_ (quits_pure _)))))
  · exact quits_bind quits_getEnv fun e => quits_load _ _ hk (by
      simp [SparesTgkill, cCppRules, cCppFileRules, cCppWhitelist])
  · exact quits_bind quits_getEnv fun e => quits_load _ _ hk (by
      simp [SparesTgkill, cCppRules, cCppFileRules, cCppWhitelist])
  · refine quits_bind quits_getEnv fun e => quits_load _ _ ha ?_
    cases e.hasExecveat <;> simp [SparesTgkill, generalRules, generalBlacklist, noWriteOpenRules, NR_socket]
  · refine quits_bind quits_getEnv fun e => quits_load _ _ ha ?_
    cases e.hasExecveat <;> simp [SparesTgkill, golangRules, golangBlacklist, noWriteOpenRules]
  · refine quits_bind quits_getEnv fun e => quits_load _ _ ha ?_
    cases e.hasExecveat <;> simp [SparesTgkill, nodeRules]

theorem quits_seccompStep (c : Config) (i o r : Option File) : Quits (seccompStep c i o r) := by
  unfold seccompStep
  split
  · exact quits_pure _
  · exact quits_bind (quits_named _) fun _ => quits_ite (quits_error _ _ _ _) (quits_pure _)

theorem childProcess_quits (c : Config) : Quits (childProcess c) :=
  quits_bind (quits_limitStep _ _ _) fun _ => quits_bind (quits_limitStep _ _ _) fun _ => quits_bind (quits_cpuStep c) fun _ =>
    quits_bind (quits_limitStep _ _ _) fun _ => quits_bind (quits_limitStep _ _ _) fun _ => quits_bind (quits_inputStep c) fun i =>
    quits_bind (quits_outputStep c i) fun o => quits_bind (quits_errorStep c i o) fun r => quits_bind (quits_gidStep c i o r) fun _ =>
    quits_bind (quits_uidStep c i o r) fun _ => quits_bind (quits_seccompStep c i o r) fun _ => quits_bind (quits_execve _ _ _) fun _ => quits_error _ _ _ _

/-- C124, the part that holds: so it is when SIGUSR1 is neither ignored nor blocked in the caller, and no filter it is under answers tgkill with an error.
Missing: the others (`C124_witness`). -/
theorem C124_once_partial (c : Config) (e : ChildEnv) (p q : Proc) (s : Stop) (h : InHand) (hd : p.deadly 10 = true)
    (hf : ∀ r n, r.nr = 234 → evalAll p.filters r ≠ .errno n) (hs : childProcess c e p = .stop s q) :
    (∀ fd, comesTo h s fd = h.texts fd) ∧ (spilt h s).atexit = [] := by
  have h1 := childProcess_quits c e p ⟨hd, hf⟩
  rw [hs] at h1
  cases s with
  | exited n => exact absurd rfl (h1 n)
  | killed _ | execed _ _ _ | ub | hung => exact ⟨fun _ => rfl, rfl⟩

/-- A caller that has printed a line, not yet written, and registered a function. -/
def sampleInHand : InHand := ⟨fun fd => if fd = 1 then c!"judging 17\n" else [], [c!"remove_lock"]⟩

/-- The input file is missing: SIGUSR1 ends the child, and the line is written once. -/
example : ∃ q, childProcess sampleConfig (sampleChild (· == .openInput)) sampleProc = .stop (.killed 10) q ∧
    comesTo sampleInHand (.killed 10) 1 = c!"judging 17\n" :=
  ⟨_, rfl, by decide⟩

example : sampleProc.deadly 10 = true ∧ ∀ r n, r.nr = 234 → evalAll sampleProc.filters r ≠ .errno n := ⟨by decide, fun _ _ _ => nofun⟩

/-- The input file is missing and the caller ignores SIGUSR1: the child calls `exit`; the line is written twice, and the caller's function is called
in the child. -/
theorem C124_witness :
    ∃ q, childProcess sampleConfig (sampleChild (· == .openInput)) { sampleProc with ignored := (· == 10) } = .stop (.exited 1) q ∧
      comesTo sampleInHand (.exited 1) 1 = c!"judging 17\njudging 17\n" ∧ (spilt sampleInHand (.exited 1)).atexit = [c!"remove_lock"] :=
  ⟨_, rfl, by decide, rfl⟩

/-- C124, settled by the way the child ends: the claim holds for every caller exactly if the child does not end by `exit`. -/
theorem C124_end_exact (s : Stop) :
    (∀ h : InHand, (∀ fd, comesTo h s fd = h.texts fd) ∧ (spilt h s).atexit = []) ↔ ∀ n, s ≠ .exited n := by
  constructor
  · rintro hall n rfl
    exact absurd (hall sampleInHand).2 (List.cons_ne_nil _ _)
  · intro hs h
    cases s with
    | exited n => exact absurd rfl (hs n)
    | killed _ | execed _ _ _ | ub | hung => exact ⟨fun _ => rfl, rfl⟩

/-- C124 is false. -/
theorem C124_false : ¬ C124_full := by
  intro h
  obtain ⟨q, h1, h2, h3⟩ := C124_witness
  have := (h sampleConfig _ _ q _ sampleInHand sampleConfig_ok h1 nofun).2
  rw [h3] at this
  cases this

end Judger
