import Verif.Props.Child

/-! # C130: a child that cannot start the program ends -/

set_option autoImplicit false

namespace Judger

open Judger.Spec
open M

/-- C130, the full claim: the child becomes the program or ends; it does not wait for ever. -/
def C130_full : Prop :=
  ∀ (c : Config) (e : ChildEnv) (p q : Proc) (s : Stop), ConfigOk c → c.InRange → childProcess c e p = .stop s q → s ≠ .hung

/-- The piece went on in a state that meets `G`, or waits for ever, or it is the program now, or undefined behaviour. -/
def Jammed {α : Type} (G : Proc → Prop) : Step α → Prop
  | .ok _ q => G q
  | .stop s _ => s = .hung ∨ s = .ub ∨ ∃ a b d, s = .execed a b d

/-- So it is for every process under no filter. -/
def Jams {α : Type} (e : ChildEnv) (G : Proc → Prop) (m : M α) : Prop := ∀ p, p.filters = [] → Jammed G (m e p)

/-- Under no filter. -/
def Bare (p : Proc) : Prop := p.filters = []

variable {e : ChildEnv}

theorem jams_pure {α : Type} (a : α) : Jams e Bare (pure a : M α) := fun _ h => h

theorem jams_bind {α β : Type} {m : M α} {f : α → M β} {G : Proc → Prop} (h : Jams e Bare m) (hf : ∀ a, Jams e G (f a)) : Jams e G (m >>= f) := by
  intro p hp
  have h1 := h p hp
  show Jammed G (bind' m f e p)
  unfold bind'
  cases hm : m e p with
  | ok a p' =>
    rw [hm] at h1
    exact hf a p' h1
  | stop s p' =>
    rw [hm] at h1
    exact h1

theorem jams_getEnv : Jams e Bare getEnv := fun _ h => h

theorem jams_getProc : Jams e Bare getProc := fun _ h => h

theorem jams_modify {f : Proc → Proc} (h : ∀ p, (f p).filters = p.filters) : Jams e Bare (M.modify f) := by
  intro p hp
  show (f p).filters = []
  rw [h, hp]

theorem jams_ite {α : Type} {P : Prop} [Decidable P] {G : Proc → Prop} {m m' : M α} (h : Jams e G m) (h' : Jams e G m') :
    Jams e G (if P then m else m') := by
  split
  · exact h
  · exact h'

theorem jams_enter (r : Req) : Jams e Bare (enter r) := by
  intro p hp
  rw [enter_run, hp]
  exact hp

theorem jams_attempt (s : Site) (r : Req) : Jams e Bare (attempt s r) :=
  jams_bind jams_getEnv fun _ => jams_bind (jams_enter r) fun _ => jams_pure _

theorem jams_setrlimit (r : Res) (v : Int) : Jams e Bare (setrlimit r v) :=
  jams_bind jams_getEnv fun _ => jams_bind (jams_attempt _ _) fun _ => jams_bind jams_getProc fun _ =>
    jams_ite (jams_bind (jams_modify fun _ => rfl) fun _ => jams_pure _) (jams_pure _)

theorem jams_fopen (s : Site) (path : CStr) (w : Bool) : Jams e Bare (fopen s path w) :=
  jams_bind jams_getEnv fun _ => jams_bind (jams_attempt _ _) fun _ =>
    jams_ite (jams_bind jams_getProc fun _ => jams_bind (jams_modify fun _ => rfl) fun _ => jams_pure _) (jams_pure _)

theorem jams_dup2 (s : Site) (a b : Nat) : Jams e Bare (dup2 s a b) :=
  jams_bind (jams_attempt _ _) fun _ => jams_bind jams_getProc fun _ =>
    jams_ite (jams_bind (jams_modify fun _ => rfl) fun _ => jams_pure _) (jams_pure _)

theorem jams_setgid (g : Int) : Jams e Bare (setgid g) :=
  jams_bind (jams_attempt _ _) fun _ => jams_bind jams_getProc fun _ =>
    jams_ite (jams_bind (jams_modify fun _ => rfl) fun _ => jams_pure _)
      (jams_ite (jams_bind (jams_modify fun _ => rfl) fun _ => jams_pure _) (jams_pure _))

theorem jams_setgroups (gs : List Int) : Jams e Bare (setgroups gs) :=
  jams_bind jams_getEnv fun _ => jams_bind (jams_attempt _ _) fun _ => jams_bind jams_getProc fun _ =>
    jams_ite (jams_bind (jams_modify fun _ => rfl) fun _ => jams_pure _) (jams_pure _)

theorem jams_setuid (u : Int) : Jams e Bare (setuid u) :=
  jams_bind (jams_attempt _ _) fun _ => jams_bind jams_getProc fun _ =>
    jams_ite (jams_bind (jams_modify fun _ => rfl) fun _ => jams_pure _)
      (jams_ite (jams_bind (jams_modify fun _ => rfl) fun _ => jams_pure _) (jams_pure _))

theorem jams_ub {α : Type} {G : Proc → Prop} : Jams e G (stopWith .ub : M α) := fun _ _ => .inr (.inl rfl)

/-- With a log, and the lock of the time zone taken, the failure path waits for ever, under whatever filter. -/
theorem error_hangs {α : Type} (hl : e.log ≠ none) (hc : e.clockHeld = true) (code : CStr) (i o r : Option File) (p : Proc) :
    (childErrorExit code i o r : M α) e p = .stop .hung p := by
  cases h : e.log with
  | none => exact absurd h hl
  | some f => simp [childErrorExit, childErrorBody, logWriteChild, bind_run, getEnv_run, localTime_run, h, hc]

theorem jams_error {α : Type} {G : Proc → Prop} (hl : e.log ≠ none) (hc : e.clockHeld = true) (code : CStr) (i o r : Option File) :
    Jams e G (childErrorExit code i o r : M α) := by
  intro p _
  rw [error_hangs hl hc]
  exact .inl rfl

section
variable (hl : e.log ≠ none) (hc : e.clockHeld = true)
include hl hc

theorem jams_limitStep (r : Res) (w : Bool) (v : Int) : Jams e Bare (limitStep r w v) :=
  jams_ite (jams_bind (jams_setrlimit _ _) fun _ => jams_ite (jams_error hl hc _ _ _ _) (jams_pure _)) (jams_pure _)

theorem jams_cpuStep (c : Config) : Jams e Bare (cpuStep c) := by
  refine jams_ite ?_ (jams_pure _)
  split
  · exact jams_ub
  · exact jams_bind (jams_setrlimit _ _) fun _ => jams_ite (jams_error hl hc _ _ _ _) (jams_pure _)

theorem jams_inputStep (c : Config) : Jams e Bare (inputStep c) := by
  unfold inputStep
  split
  · exact jams_pure _
  · refine jams_bind (jams_fopen _ _ _) fun f => ?_
    split
    · exact jams_error hl hc _ _ _ _
    · exact jams_bind (jams_dup2 _ _ _) fun _ => jams_ite (jams_bind (jams_error hl hc _ _ _ _) fun _ => jams_pure _) (jams_pure _)

theorem jams_outputStep (c : Config) (i : Option File) : Jams e Bare (outputStep c i) := by
  unfold outputStep
  split
  · exact jams_pure _
  · refine jams_bind (jams_fopen _ _ _) fun f => ?_
    split
    · exact jams_error hl hc _ _ _ _
    · exact jams_bind (jams_dup2 _ _ _) fun _ => jams_ite (jams_bind (jams_error hl hc _ _ _ _) fun _ => jams_pure _) (jams_pure _)

theorem jams_errorStep (c : Config) (i o : Option File) : Jams e Bare (errorStep c i o) := by
  unfold errorStep
  split
  · exact jams_pure _
  · have hk : ∀ f : Option File, Jams e Bare (match f with
        | none => stopWith .ub
        | some f => do
          if !(← dup2 .dupError f.fd 2) then
            childErrorExit c!"DUP2_FAILED" i o (some f)
          return some f) := by
      intro f
      split
      · exact jams_ub
      · exact jams_bind (jams_dup2 _ _ _) fun _ => jams_ite (jams_bind (jams_error hl hc _ _ _ _) fun _ => jams_pure _) (jams_pure _)
    refine jams_ite (jams_bind (jams_pure _) hk) (jams_bind (jams_fopen _ _ _) fun f => ?_)
    split
    · exact jams_bind (jams_error hl hc _ _ _ _) hk
    · exact jams_bind (jams_pure _) hk

theorem jams_gidStep (c : Config) (i o r : Option File) : Jams e Bare (gidStep c i o r) := by
  have h2 : Jams e Bare (do
      if !(← setgroups [c.gid]) then
        childErrorExit c!"SETUID_FAILED" i o r : M Unit) :=
    jams_bind (jams_setgroups _) fun _ => jams_ite (jams_error hl hc _ _ _ _) (jams_pure _)
  refine jams_ite ?_ (jams_pure _)
  exact jams_bind (jams_setgid _) fun _ => jams_ite (jams_bind (jams_error hl hc _ _ _ _) fun _ => h2) h2

theorem jams_uidStep (c : Config) (i o r : Option File) : Jams e Bare (uidStep c i o r) := by
  refine jams_ite ?_ (jams_pure _)
  exact jams_bind (jams_setuid _) fun _ => jams_ite (jams_error hl hc _ _ _ _) (jams_pure _)

/-- From the rule set on: it is loaded, and lets the `execve` through. -/
theorem jams_rest (c : Config) (i o r : Option File) : Jams e (fun _ => False) (do
      seccompStep c i o r
      execve c.exePath c.args c.env
      childErrorExit c!"EXECVE_FAILED" i o r : M Unit) := by
  intro p hp
  have last : ∀ q : Proc, evalAll q.filters (Req.mk' NR_execve [e.exeAddr, e.bufAddr, e.bufAddr]) = .allow →
      Jammed (fun _ => False) ((do execve c.exePath c.args c.env; childErrorExit c!"EXECVE_FAILED" i o r : M Unit) e q) := by
    intro q hq
    simp only [execve, bind_run, getEnv_run]
    rw [attempt_run, hq]
    cases hx : e.fails .exec with
    | false => exact .inr (.inr ⟨_, _, _, rfl⟩)
    | true =>
      simp only [pure_run, Bool.not_true, Bool.false_eq_true, if_false]
      rw [error_hangs hl hc]
      exact .inl rfl
  rw [bind_run]
  unfold seccompStep
  cases hn : c.seccompRuleName with
  | none => exact last p (by rw [hp]; rfl)
  | some name =>
    simp only [bind_run]
    have hcalm : Calm False e p.notes p := ⟨nofun, hp, rfl⟩
    rcases namedRules_calm hcalm name with ⟨n, h1, _⟩ | ⟨f, hf, _, h1⟩ <;> rw [h1]
    · have hne : ((-6 : Int) ≠ SUCCESS) = True := by simp [SUCCESS]
      simp only [hne, if_true, error_hangs hl hc]
      exact .inl rfl
    · exact last _ (by rw [hp]; show evalAll [f] _ = _; rw [evalAll_one, own_exec e name f hf])

theorem childProcess_jams (c : Config) : Jams e (fun _ => False) (childProcess c) :=
  jams_bind (jams_limitStep hl hc _ _ _) fun _ => jams_bind (jams_limitStep hl hc _ _ _) fun _ => jams_bind (jams_cpuStep hl hc c) fun _ =>
    jams_bind (jams_limitStep hl hc _ _ _) fun _ => jams_bind (jams_limitStep hl hc _ _ _) fun _ => jams_bind (jams_inputStep hl hc c) fun i =>
    jams_bind (jams_outputStep hl hc c i) fun o => jams_bind (jams_errorStep hl hc c i o) fun r => jams_bind (jams_gidStep hl hc c i o r) fun _ =>
    jams_bind (jams_uidStep hl hc c i o r) fun _ => jams_rest hl hc c i o r

end

/-- C130, the part that holds: the child does not wait for ever if there is no log, or no other thread of the caller was in `localtime` at the `fork`.
Missing: the other children (`C130_exact`, `C130_witness`). -/
theorem C130_ends_partial (c : Config) (e : ChildEnv) (p q : Proc) (s : Stop) (hfree : e.log = none ∨ e.clockHeld = false)
    (h : childProcess c e p = .stop s q) : s ≠ .hung := by
  rintro rfl
  have key : ¬ FailStop e .hung := by
    rintro (h | h | h | h | h | h) <;> simp_all
  by_cases hub : addInt c.maxCpuTime 1000 ≠ .ub ∨ c.maxCpuTime = UNLIMITED
  · rcases childProcess_run (e := e) (p := p) c hub with ⟨s, q', h1, h2, _⟩ | ⟨h1, _⟩ <;> rw [h] at h1 <;> cases h1
    exact key h2
  · simp only [not_or, Decidable.not_not] at hub
    rcases childProcess_ub (e := e) (p := p) c hub.1 hub.2 with ⟨s, q', h1, h2, _⟩ | ⟨q', h1⟩ <;> rw [h] at h1 <;> cases h1
    exact key h2

/-- Which children wait for ever: with a log, a thread in `localtime` at the `fork` and no filter of the caller's own, precisely those which do not start the
program. -/
theorem C130_exact (c : Config) (e : ChildEnv) (p : Proc) (hcpu : c.maxCpuTime ≤ 2147482647) (hf : p.filters = []) (hl : e.log ≠ none)
    (hk : e.clockHeld = true) (hr : c.InRange) : (∃ q, childProcess c e p = .stop .hung q) ↔ ¬ ∃ q, Started c e p q := by
  have hub : addInt c.maxCpuTime 1000 ≠ .ub ∨ c.maxCpuTime = UNLIMITED := by
    by_cases h : c.maxCpuTime = UNLIMITED
    · exact .inr h
    · left
      have := hr.cpu
      simp only [IsInt, INT_MIN, INT_MAX] at this
      unfold addInt
      rw [if_pos (by simp only [IsInt, INT_MIN, INT_MAX]; omega)]
      simp
  have h := childProcess_jams hl hk c p hf
  constructor
  · rintro ⟨q, hq⟩ ⟨q', _, _, _, hs⟩
    rw [hq] at hs
    cases hs
  · intro hn
    cases hm : childProcess c e p with
    | ok a q => rw [hm] at h; exact h.elim
    | stop s q =>
      rw [hm] at h
      rcases h with rfl | rfl | ⟨a, b, d, rfl⟩
      · exact ⟨q, rfl⟩
      · rcases childProcess_run (e := e) (p := p) c hub with ⟨s, q', h1, h2, _⟩ | ⟨h1, _⟩ <;> rw [hm] at h1 <;> cases h1
        rcases h2 with h | h | h | h | h | h <;> simp_all
      · exact absurd ⟨q, a, b, d, hm⟩ hn

example : sampleConfig.maxCpuTime ≤ 2147482647 ∧ sampleProc.filters = [] ∧ ({ sampleChild (fun _ => false) with clockHeld := true }).log ≠ none ∧
    sampleConfig.InRange ∧ ∃ q, Started sampleConfig { sampleChild (fun _ => false) with clockHeld := true } sampleProc q :=
  ⟨by decide, rfl, by simp [sampleChild], sampleConfig_range, _, _, _, _, rfl⟩

/-- What the caller gets: the child is killed by the watchdog, and the verdict is neither SYSTEM_ERROR nor SUCCESS; it is a limit of the
configuration, or a runtime error, of a program that never ran. -/
theorem C130_verdict (c : Config) (prior : Result) (env : RunEnv) (pid : Nat) (t : Termination) (hc : ConfigOk c) (ht : Reports .hung t)
    (h : Completed c env pid t) : ∃ r effs, run c prior env = .returned r effs ∧ r.error = 0 ∧ 1 ≤ r.result ∧ r.result ≤ 4 ∧ r.signal = 9 := by
  cases t with
  | exited _ => exact ht.elim
  | stopped _ => exact ht.elim
  | signaled sig core =>
    have h9 : sig = 9 := ht
    subst h9
    obtain ⟨r, effs, h1, h2, h3⟩ := C04_verdict c prior env pid _ hc h
    obtain ⟨r', effs', h4, _, h5⟩ := C07_signal_exit_code c prior env pid _ hc h
    rw [h1] at h4
    cases h4
    refine ⟨r, effs, h1, h2, ?_, ?_, (h5 9 core rfl).2⟩
    all_goals
      rw [h3]
      simp only [verdict]
      split
      · decide
      · split
        · decide
        · split
          · decide
          · rw [if_neg (by simp)]
            decide

/-- The input file is missing, and another thread of the caller was in `localtime` at the `fork`. -/
theorem C130_witness : ∃ q, childProcess sampleConfig { sampleChild (· == .openInput) with clockHeld := true } sampleProc = .stop .hung q := ⟨_, rfl⟩

/-- C130 is false of the code. -/
theorem C130_false : ¬ C130_full := by
  intro h
  obtain ⟨q, hq⟩ := C130_witness
  exact h _ _ _ q _ sampleConfig_ok sampleConfig_range hq rfl

/-- The same failure ends the child when no thread was there. -/
example : ∃ s q, childProcess sampleConfig (sampleChild (· == .openInput)) sampleProc = .stop s q ∧ (sampleChild (· == .openInput)).clockHeld = false :=
  ⟨_, _, rfl, rfl⟩

end Judger
