import Verif.Props.Child
import Verif.Spec.Confine

/-! # C119: a confined judger works the same -/

set_option autoImplicit false

namespace Judger

open Spec M

section

variable {outer : List Filter} {α β : Type}

/-- Confining the process changes nothing but the filters. -/
def Indifferent (outer : List Filter) (m : M α) : Prop := ∀ e p, m e (confined outer p) = outcome outer (m e p)

theorem evalAll_outer {r : Req} (h : evalAll outer r = .allow) (fs : List Filter) : evalAll (fs ++ outer) r = evalAll fs r := by
  induction fs with
  | nil => exact h
  | cons f fs ih => simp only [List.cons_append, evalAll, ih]

theorem indifferent_pure (a : α) : Indifferent outer (pure a : M α) := fun _ _ => rfl

theorem indifferent_stop (s : Stop) : Indifferent outer (stopWith s : M α) := fun _ _ => rfl

theorem indifferent_getEnv : Indifferent outer getEnv := fun _ _ => rfl

theorem indifferent_bind {m : M α} {f : α → M β} (hm : Indifferent outer m) (hf : ∀ a, Indifferent outer (f a)) : Indifferent outer (m >>= f) := by
  intro e p
  simp only [bind_run, hm e p]
  cases m e p with
  | ok a q => exact hf a e q
  | stop s q => rfl

theorem indifferent_modify {g : Proc → Proc} (h : ∀ p, g (confined outer p) = confined outer (g p)) : Indifferent outer (modify g) := by
  intro e p
  simp only [M.modify, outcome, h]

/-- Looking at the process, as long as what is looked at is not the filters. -/
theorem indifferent_getProc {f : Proc → M α} (h : ∀ p, Indifferent outer (f p)) (hf : ∀ p, f (confined outer p) = f p) :
    Indifferent outer (getProc >>= f) := by
  intro e p
  simp only [bind_run, getProc_run, hf]
  exact h p e p

theorem indifferent_enter (h : LetsWork outer) (nr : Nat) (args : List (BitVec 64)) (hn : nr ∈ judgerCalls) : Indifferent outer (enter (Req.mk' nr args)) := by
  intro e p
  simp only [enter_run]
  rw [show (confined outer p).filters = p.filters ++ outer from rfl, evalAll_outer (h _ rfl hn)]
  cases evalAll p.filters (Req.mk' nr args) <;> rfl

theorem indifferent_plain (h : LetsWork outer) (nr : Nat) (args : List (BitVec 64)) (hn : nr ∈ judgerCalls) : Indifferent outer (plain nr args) :=
  indifferent_bind (indifferent_enter h nr args hn) fun _ => indifferent_pure _

theorem indifferent_attempt (h : LetsWork outer) (s : Site) (nr : Nat) (args : List (BitVec 64)) (hn : nr ∈ judgerCalls) :
    Indifferent outer (attempt s (Req.mk' nr args)) :=
  indifferent_bind indifferent_getEnv fun _ => indifferent_bind (indifferent_enter h nr args hn) fun _ => indifferent_pure _

theorem indifferent_ite {c : Prop} [Decidable c] {x y : M α} (hx : Indifferent outer x) (hy : Indifferent outer y) : Indifferent outer (if c then x else y) := by
  split <;> assumption

theorem indifferent_setrlimit (h : LetsWork outer) (r : Res) (v : Int) : Indifferent outer (setrlimit r v) := by
  refine indifferent_bind indifferent_getEnv fun _ => indifferent_bind (indifferent_attempt h _ _ _ (by decide)) fun _ => indifferent_getProc (fun p => ?_) fun p => rfl
  exact indifferent_ite (indifferent_bind (indifferent_modify fun _ => rfl) fun _ => indifferent_pure _) (indifferent_pure _)

theorem indifferent_fopen (h : LetsWork outer) (s : Site) (path : CStr) (w : Bool) : Indifferent outer (fopen s path w) := by
  refine indifferent_bind indifferent_getEnv fun _ => indifferent_bind (indifferent_attempt h _ _ _ (by decide)) fun _ => indifferent_ite ?_ (indifferent_pure _)
  exact indifferent_getProc (fun p => indifferent_bind (indifferent_modify fun _ => rfl) fun _ => indifferent_pure _) fun p => rfl

theorem indifferent_dup2 (h : LetsWork outer) (s : Site) (a b : Nat) : Indifferent outer (dup2 s a b) := by
  refine indifferent_bind (indifferent_attempt h _ _ _ (by decide)) fun _ => indifferent_getProc (fun p => ?_) fun p => rfl
  exact indifferent_ite (indifferent_bind (indifferent_modify fun _ => rfl) fun _ => indifferent_pure _) (indifferent_pure _)

theorem indifferent_fclose (h : LetsWork outer) (f : File) : Indifferent outer (fclose f) := by
  refine indifferent_getProc (fun p => indifferent_ite ?_ (indifferent_modify fun _ => rfl)) fun p => rfl
  exact indifferent_bind (indifferent_enter h _ _ (by decide)) fun _ => indifferent_modify fun _ => rfl

theorem indifferent_setgid (h : LetsWork outer) (g : Int) : Indifferent outer (setgid g) := by
  refine indifferent_bind (indifferent_attempt h _ _ _ (by decide)) fun _ => indifferent_getProc (fun p => ?_) fun p => rfl
  exact indifferent_ite (indifferent_bind (indifferent_modify fun _ => rfl) fun _ => indifferent_pure _)
    (indifferent_ite (indifferent_bind (indifferent_modify fun _ => rfl) fun _ => indifferent_pure _) (indifferent_pure _))

theorem indifferent_setgroups (h : LetsWork outer) (g : List Int) : Indifferent outer (setgroups g) := by
  refine indifferent_bind indifferent_getEnv fun _ => indifferent_bind (indifferent_attempt h _ _ _ (by decide)) fun _ => indifferent_getProc (fun p => ?_) fun p => rfl
  exact indifferent_ite (indifferent_bind (indifferent_modify fun _ => rfl) fun _ => indifferent_pure _) (indifferent_pure _)

theorem indifferent_setuid (h : LetsWork outer) (u : Int) : Indifferent outer (setuid u) := by
  refine indifferent_bind (indifferent_attempt h _ _ _ (by decide)) fun _ => indifferent_getProc (fun p => ?_) fun p => rfl
  exact indifferent_ite (indifferent_bind (indifferent_modify fun _ => rfl) fun _ => indifferent_pure _)
    (indifferent_ite (indifferent_bind (indifferent_modify fun _ => rfl) fun _ => indifferent_pure _) (indifferent_pure _))

theorem indifferent_execve (h : LetsWork outer) (path : CStr) (argv envp : List CStr) : Indifferent outer (execve path argv envp) :=
  indifferent_bind indifferent_getEnv fun _ => indifferent_bind (indifferent_attempt h _ _ _ (by decide)) fun _ =>
    indifferent_ite (indifferent_stop _) (indifferent_pure _)

theorem indifferent_noteStderr (h : LetsWork outer) : Indifferent outer noteStderr := by
  refine indifferent_bind indifferent_getEnv fun _ => indifferent_bind (indifferent_enter h _ _ (by decide)) fun _ => ?_
  split
  · exact indifferent_stop _
  · exact indifferent_pure _

theorem indifferent_localTime : Indifferent outer localTime :=
  indifferent_bind indifferent_getEnv fun _ => indifferent_ite (indifferent_stop _) (indifferent_pure _)

theorem indifferent_logWrite (h : LetsWork outer) (msg : CStr) : Indifferent outer (logWriteChild msg) := by
  refine indifferent_bind indifferent_getEnv fun e => ?_
  split
  · exact indifferent_noteStderr h
  · refine indifferent_bind indifferent_localTime fun _ => indifferent_bind (indifferent_attempt h _ _ _ (by decide)) fun _ =>
      indifferent_ite ?_ (indifferent_noteStderr h)
    refine indifferent_bind (indifferent_enter h _ _ (by decide)) fun _ => indifferent_getProc (fun p => ?_) fun p => rfl
    refine indifferent_ite (indifferent_stop _) (indifferent_ite ?_ (indifferent_noteStderr h))
    exact indifferent_bind (indifferent_modify fun _ => rfl) fun _ => indifferent_bind (indifferent_attempt h _ _ _ (by decide)) fun _ => indifferent_pure _

theorem indifferent_closeFile (h : LetsWork outer) (f : Option File) : Indifferent outer (closeFile f) := by
  cases f with
  | none => exact indifferent_pure _
  | some f => exact indifferent_fclose h f

theorem indifferent_raise (h : LetsWork outer) : Indifferent outer raiseUsr1 := by
  refine indifferent_bind indifferent_getEnv fun e => indifferent_bind (indifferent_plain h _ _ (by decide)) fun _ => indifferent_bind (indifferent_plain h _ _ (by decide)) fun _ =>
    indifferent_bind (indifferent_plain h _ _ (by decide)) fun _ => indifferent_bind (indifferent_enter h _ _ (by decide)) fun _ => indifferent_getProc (fun p => ?_) fun p => rfl
  exact indifferent_ite (indifferent_stop _) (indifferent_plain h _ _ (by decide))

theorem indifferent_error (h : LetsWork outer) (code : CStr) (i o r : Option File) : Indifferent outer (childErrorExit code i o r : M α) := by
  refine indifferent_bind ?_ fun _ => indifferent_bind (indifferent_plain h _ _ (by decide)) fun _ => indifferent_stop _
  refine indifferent_bind indifferent_getEnv fun e => indifferent_bind (indifferent_logWrite h _) fun _ => indifferent_bind (indifferent_closeFile h _) fun _ => ?_
  split
  · exact indifferent_bind (indifferent_closeFile h _) fun _ => indifferent_raise h
  · exact indifferent_bind (indifferent_closeFile h _) fun _ => indifferent_bind (indifferent_closeFile h _) fun _ => indifferent_raise h

theorem indifferent_limitStep (h : LetsWork outer) (r : Res) (w : Bool) (v : Int) : Indifferent outer (limitStep r w v) := by
  refine indifferent_ite ?_ (indifferent_pure _)
  exact indifferent_bind (indifferent_setrlimit h _ _) fun _ => indifferent_ite (indifferent_error h _ _ _ _) (indifferent_pure _)

theorem indifferent_cpuStep (h : LetsWork outer) (c : Config) : Indifferent outer (cpuStep c) := by
  refine indifferent_ite ?_ (indifferent_pure _)
  split
  · exact indifferent_stop _
  · exact indifferent_bind (indifferent_setrlimit h _ _) fun _ => indifferent_ite (indifferent_error h _ _ _ _) (indifferent_pure _)

theorem indifferent_inputStep (h : LetsWork outer) (c : Config) : Indifferent outer (inputStep c) := by
  unfold inputStep
  split
  · exact indifferent_pure _
  · refine indifferent_bind (indifferent_fopen h _ _ _) fun f => ?_
    split
    · exact indifferent_error h _ _ _ _
    · exact indifferent_bind (indifferent_dup2 h _ _ _) fun _ => indifferent_ite (indifferent_bind (indifferent_error h _ _ _ _) fun _ => indifferent_pure _) (indifferent_pure _)

theorem indifferent_outputStep (h : LetsWork outer) (c : Config) (i : Option File) : Indifferent outer (outputStep c i) := by
  unfold outputStep
  split
  · exact indifferent_pure _
  · refine indifferent_bind (indifferent_fopen h _ _ _) fun f => ?_
    split
    · exact indifferent_error h _ _ _ _
    · exact indifferent_bind (indifferent_dup2 h _ _ _) fun _ => indifferent_ite (indifferent_bind (indifferent_error h _ _ _ _) fun _ => indifferent_pure _) (indifferent_pure _)

theorem indifferent_errorStep (h : LetsWork outer) (c : Config) (i o : Option File) : Indifferent outer (errorStep c i o) := by
  unfold errorStep
  split
  · exact indifferent_pure _
  · have hk : ∀ f : Option File, Indifferent outer (match f with
        | none => stopWith .ub
        | some f => do
          if !(← dup2 .dupError f.fd 2) then
            childErrorExit c!"DUP2_FAILED" i o (some f)
          return some f) := by
      intro f
      split
      · exact indifferent_stop _
      · exact indifferent_bind (indifferent_dup2 h _ _ _) fun _ => indifferent_ite (indifferent_bind (indifferent_error h _ _ _ _) fun _ => indifferent_pure _) (indifferent_pure _)
    refine indifferent_ite (indifferent_bind (indifferent_pure _) hk) (indifferent_bind (indifferent_fopen h _ _ _) fun f => ?_)
    split
    · exact indifferent_bind (indifferent_error h _ _ _ _) hk
    · exact indifferent_bind (indifferent_pure _) hk

theorem indifferent_gidStep (h : LetsWork outer) (c : Config) (i o r : Option File) : Indifferent outer (gidStep c i o r) := by
  have h2 : Indifferent outer (do
      if !(← setgroups [c.gid]) then
        childErrorExit c!"SETUID_FAILED" i o r : M Unit) :=
    indifferent_bind (indifferent_setgroups h _) fun _ => indifferent_ite (indifferent_error h _ _ _ _) (indifferent_pure _)
  refine indifferent_ite ?_ (indifferent_pure _)
  exact indifferent_bind (indifferent_setgid h _) fun _ => indifferent_ite (indifferent_bind (indifferent_error h _ _ _ _) fun _ => h2) h2

theorem indifferent_uidStep (h : LetsWork outer) (c : Config) (i o r : Option File) : Indifferent outer (uidStep c i o r) := by
  refine indifferent_ite ?_ (indifferent_pure _)
  exact indifferent_bind (indifferent_setuid h _) fun _ => indifferent_ite (indifferent_error h _ _ _ _) (indifferent_pure _)

theorem indifferent_ruleAdd (us : List Rule) : ∀ (k : Nat) (ctx : Filter), Indifferent outer (ruleAddAll k ctx us) := by
  induction us with
  | nil => exact fun _ _ => indifferent_pure _
  | cons u us ih => exact fun k ctx => indifferent_bind indifferent_getEnv fun e => indifferent_ite (indifferent_pure _) (ih _ _)

theorem indifferent_load (h : LetsWork outer) (d : Action) (us : List Rule) : Indifferent outer (loadRules d us) := by
  refine indifferent_bind indifferent_getEnv fun e => ?_
  have h1 : Indifferent outer (do
      match ← ruleAddAll 0 ⟨d, []⟩ us with
      | none => return LOAD_SECCOMP_FAILED
      | some ctx =>
        if !(← seccompLoad ctx) then
          return LOAD_SECCOMP_FAILED
        return 0 : M Int) := by
    refine indifferent_bind (indifferent_ruleAdd us _ _) fun o => ?_
    split
    · exact indifferent_pure _
    · refine indifferent_bind ?_ fun _ => indifferent_ite (indifferent_pure _) (indifferent_pure _)
      refine indifferent_bind indifferent_getEnv fun e => indifferent_bind (indifferent_enter h _ _ (by decide)) fun _ => indifferent_ite ?_ (indifferent_pure _)
      refine indifferent_bind (indifferent_modify fun _ => rfl) fun _ => indifferent_bind (indifferent_attempt h _ _ _ (by decide)) fun _ => indifferent_ite ?_ (indifferent_pure _)
      exact indifferent_bind (indifferent_modify fun _ => rfl) fun _ => indifferent_pure _
  exact indifferent_ite (indifferent_pure _) h1

theorem indifferent_named (h : LetsWork outer) (name : CStr) : Indifferent outer (namedRules name) := by
  refine indifferent_ite ?_ (indifferent_ite ?_ (indifferent_ite ?_ (indifferent_ite ?_ (indifferent_ite ?_ (indifferent_pure _)))))
  all_goals exact indifferent_bind indifferent_getEnv fun e => indifferent_load h _ _

theorem indifferent_seccompStep (h : LetsWork outer) (c : Config) (i o r : Option File) : Indifferent outer (seccompStep c i o r) := by
  unfold seccompStep
  split
  · exact indifferent_pure _
  · exact indifferent_bind (indifferent_named h _) fun _ => indifferent_ite (indifferent_error h _ _ _ _) (indifferent_pure _)

end

/-- **C119**: confined by filters that let the judger work, the child does exactly what it does otherwise, whatever the request, the failures and the
state it starts in; its filters are those it would have and the outer ones. -/
theorem C119_same (outer : List Filter) (h : LetsWork outer) (c : Config) (e : ChildEnv) (p : Proc) :
    childProcess c e (confined outer p) = outcome outer (childProcess c e p) := by
  suffices Indifferent outer (childProcess c) from this e p
  refine indifferent_bind (indifferent_limitStep h _ _ _) fun _ => indifferent_bind (indifferent_limitStep h _ _ _) fun _ =>
    indifferent_bind (indifferent_cpuStep h c) fun _ => indifferent_bind (indifferent_limitStep h _ _ _) fun _ =>
    indifferent_bind (indifferent_limitStep h _ _ _) fun _ => indifferent_bind (indifferent_inputStep h c) fun i =>
    indifferent_bind (indifferent_outputStep h c i) fun o => indifferent_bind (indifferent_errorStep h c i o) fun r =>
    indifferent_bind (indifferent_gidStep h c i o r) fun _ => indifferent_bind (indifferent_uidStep h c i o r) fun _ =>
    indifferent_bind (indifferent_seccompStep h c i o r) fun _ => indifferent_bind (indifferent_execve h _ _ _) fun _ => indifferent_error h _ _ _ _

/-- Refuses to open a socket and lets everything else through. -/
theorem no_socket_works : LetsWork [refusing 41] := by
  intro r hr hn
  have : r.nr ≠ 41 := by intro h; rw [h] at hn; exact absurd hn (by decide)
  simp [evalAll, Filter.eval, hr, refusing, Rule.applies, Ne.symm this, Action.min]

/-- The sample program is started in such a container as well. -/
example : childProcess sampleConfig (sampleChild fun _ => false) (confined [refusing 41] sampleProc) =
    .stop (.execed sampleConfig.exePath sampleConfig.args sampleConfig.env) (confined [refusing 41] (stateAtExec sampleConfig (sampleChild fun _ => false) sampleProc)) := by
  rw [C119_same _ no_socket_works, (started_inv sample_started).2.2.2.2]
  rfl

/-- **C119**: the program is started exactly when it would be, in the state it would be in, its filters apart. -/
theorem C119_started (outer : List Filter) (h : LetsWork outer) (c : Config) (e : ChildEnv) (p q : Proc) :
    Started c e (confined outer p) q ↔ ∃ q', Started c e p q' ∧ q = confined outer q' := by
  unfold Started
  rw [C119_same outer h]
  cases childProcess c e p with
  | ok a q' => simp [outcome]
  | stop s q' =>
    simp only [outcome, Step.stop.injEq]
    constructor
    · rintro ⟨a, b, d, h1, h2⟩
      exact ⟨q', ⟨a, b, d, h1, rfl⟩, h2.symm⟩
    · rintro ⟨_, ⟨a, b, d, h1, rfl⟩, h2⟩
      exact ⟨a, b, d, h1, h2.symm⟩

/-- The sample program, with the outer filter behind the one of its rule set. -/
example : ∃ q, Started sampleConfig (sampleChild fun _ => false) (confined [refusing 41] sampleProc) q ∧ q.filters.length = 2 :=
  ⟨_, (C119_started _ no_socket_works _ _ _ _).2 ⟨_, sample_started, rfl⟩, by decide⟩

/-- **C119**: what the program may call is what its rule set and the outer filters both allow. -/
theorem C119_both (outer : List Filter) (p : Proc) (r : Req) :
    evalAll (confined outer p).filters r = .allow ↔ evalAll p.filters r = .allow ∧ evalAll outer r = .allow := by
  have hm : ∀ a b : Action, a.min b = .allow ↔ a = .allow ∧ b = .allow := by
    intro a b; cases a <;> cases b <;> simp [Action.min]
  show evalAll (p.filters ++ outer) r = .allow ↔ _
  generalize p.filters = fs
  induction fs with
  | nil => simp [evalAll]
  | cons f fs ih => simp only [List.cons_append, evalAll, hm, ih, and_assoc]

/-- In the container above the sample program can read, which both allow, but open no socket. -/
example : evalAll (confined [refusing 41] (stateAtExec sampleConfig (sampleChild fun _ => false) sampleProc)).filters (Req.mk' 0 [0]) = .allow ∧
    evalAll (confined [refusing 41] (stateAtExec sampleConfig (sampleChild fun _ => false) sampleProc)).filters (Req.mk' 41 [2]) = .kill := by decide

/-- The sample process with SIGUSR1 blocked. -/
def deafProc : Proc := { sampleProc with blocked := fun s => s = 10 }

/-- **C119**: none of these calls can be spared: refusing one of them changes how some judging ends.  Refusing any other call changes none. -/
theorem C119_exact (nr : Nat) :
    (∀ c e p, ending (childProcess c e (confined [refusing nr] p)) = ending (childProcess c e p)) ↔ nr ∉ judgerCalls := by
  constructor
  · intro h hn
    simp only [judgerCalls, List.mem_cons, List.not_mem_nil, or_false] at hn
    have h0 := h sampleConfig (sampleChild fun _ => false) sampleProc
    have h1 := h { sampleConfig with seccompRuleName := none } (sampleChild fun s => s = .exec) sampleProc
    have h2 := h { sampleConfig with seccompRuleName := none } (sampleChild fun s => s = .exec) deafProc
    rcases hn with rfl | rfl | rfl | rfl | rfl | rfl | rfl | rfl | rfl | rfl | rfl | rfl | rfl | rfl | rfl | rfl | rfl <;>
      first
      | exact absurd h0 (by decide +kernel)
      | exact absurd h1 (by decide +kernel)
      | exact absurd h2 (by decide +kernel)
  · intro hn c e p
    have hw : LetsWork [refusing nr] := by
      intro r hr hm
      have : nr ≠ r.nr := by rintro rfl; exact hn hm
      simp [evalAll, Filter.eval, hr, refusing, Rule.applies, this, Action.min]
    rw [C119_same _ hw]
    cases childProcess c e p <;> rfl

/-- A filter against kill(2), number 62, disturbs no judging; one against tgkill(2), number 234, does. -/
example : (∀ c e p, ending (childProcess c e (confined [refusing 62] p)) = ending (childProcess c e p)) ∧
    ¬(∀ c e p, ending (childProcess c e (confined [refusing 234] p)) = ending (childProcess c e p)) :=
  ⟨(C119_exact 62).2 (by decide), fun h => (C119_exact 234).1 h (by decide)⟩

end Judger
