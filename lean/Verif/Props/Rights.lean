import Verif.Props.Touch
import Verif.Props.Child
import Verif.Spec.Rights

/-! # C136: the files of a judging are opened with the rights of the judger, and belong to it -/

set_option autoImplicit false

namespace Judger

open Spec M

section

variable {e : ChildEnv} {I : Proc → Proc → Prop} {α β : Type}

/-- A relation between earlier and later states that does not look at anything but the open files, the rights they were opened with, and the ids. -/
structure FilesOnly (I : Proc → Proc → Prop) : Prop where
  trans : ∀ {p q r}, I p q → I q r → I p r
  same : ∀ {p q : Proc}, q.ofds = p.ofds → q.rights = p.rights → q.uid = p.uid → q.gid = p.gid → I p q

theorem FilesOnly.refl (h : FilesOnly I) (p : Proc) : I p p := h.same rfl rfl rfl rfl

def Kept (I : Proc → Proc → Prop) (e : ChildEnv) (m : M α) : Prop := ∀ p, I p (lastState (m e p))

variable (hI : FilesOnly I)
include hI

theorem kept_pure (a : α) : Kept I e (pure a : M α) := fun p => hI.refl p

theorem kept_stop (s : Stop) : Kept I e (stopWith s : M α) := fun p => hI.refl p

theorem kept_bind {m : M α} {f : α → M β} (hm : Kept I e m) (hf : ∀ a, Kept I e (f a)) : Kept I e (m >>= f) := by
  intro p
  have h1 := hm p
  simp only [bind_run]
  revert h1
  cases m e p with
  | stop s q => exact id
  | ok a q => exact fun h1 => hI.trans h1 (hf a q)

omit hI in
theorem kept_getEnv {f : ChildEnv → M β} (hf : Kept I e (f e)) : Kept I e (getEnv >>= f) := hf

omit hI in
theorem kept_getProc {f : Proc → M β} (hf : ∀ p, Kept I e (f p)) : Kept I e (getProc >>= f) := fun p => hf p p

omit hI in
theorem kept_ite {c : Prop} [Decidable c] {x y : M α} (hx : Kept I e x) (hy : Kept I e y) : Kept I e (if c then x else y) := by
  split <;> assumption

theorem kept_modify {g : Proc → Proc} (h : ∀ p, (g p).ofds = p.ofds ∧ (g p).rights = p.rights ∧ (g p).uid = p.uid ∧ (g p).gid = p.gid) :
    Kept I e (modify g) := fun p => hI.same (h p).1 (h p).2.1 (h p).2.2.1 (h p).2.2.2

theorem kept_enter (r : Req) : Kept I e (enter r) := by
  intro p
  rw [enter_run]
  cases evalAll p.filters r <;> exact hI.refl p

theorem kept_plain (nr : Nat) (args : List (BitVec 64)) : Kept I e (plain nr args) := kept_bind hI (kept_enter hI _) fun _ => kept_pure hI _

theorem kept_attempt (s : Site) (r : Req) : Kept I e (attempt s r) := kept_getEnv (kept_bind hI (kept_enter hI _) fun _ => kept_pure hI _)

theorem kept_setrlimit (r : Res) (v : Int) : Kept I e (setrlimit r v) :=
  kept_getEnv (kept_bind hI (kept_attempt hI _ _) fun _ => kept_getProc fun _ =>
    kept_ite (kept_bind hI (kept_modify hI fun _ => ⟨rfl, rfl, rfl, rfl⟩) fun _ => kept_pure hI _) (kept_pure hI _))

theorem kept_dup2 (s : Site) (a b : Nat) : Kept I e (dup2 s a b) :=
  kept_bind hI (kept_attempt hI _ _) fun _ => kept_getProc fun _ =>
    kept_ite (kept_bind hI (kept_modify hI fun _ => ⟨rfl, rfl, rfl, rfl⟩) fun _ => kept_pure hI _) (kept_pure hI _)

theorem kept_fclose (f : File) : Kept I e (fclose f) :=
  kept_getProc fun _ => kept_ite (kept_bind hI (kept_enter hI _) fun _ => kept_modify hI fun _ => ⟨rfl, rfl, rfl, rfl⟩)
    (kept_modify hI fun _ => ⟨rfl, rfl, rfl, rfl⟩)

theorem kept_noteStderr : Kept I e noteStderr := by
  refine kept_getEnv (kept_bind hI (kept_enter hI _) fun _ => ?_)
  split
  · exact kept_stop hI _
  · exact kept_pure hI _

theorem kept_logWrite (msg : CStr) : Kept I e (logWriteChild msg) := by
  refine kept_getEnv ?_
  split
  · exact kept_noteStderr hI
  · refine kept_bind hI (kept_getEnv (kept_ite (kept_stop hI _) (kept_pure hI _))) fun _ => kept_bind hI (kept_attempt hI _ _) fun _ =>
      kept_ite ?_ (kept_noteStderr hI)
    refine kept_bind hI (kept_enter hI _) fun _ => kept_getProc fun _ => kept_ite (kept_stop hI _) (kept_ite ?_ (kept_noteStderr hI))
    exact kept_bind hI (kept_modify hI fun _ => ⟨rfl, rfl, rfl, rfl⟩) fun _ => kept_bind hI (kept_attempt hI _ _) fun _ => kept_pure hI _

theorem kept_closeFile (f : Option File) : Kept I e (closeFile f) := by
  cases f with
  | none => exact kept_pure hI _
  | some f => exact kept_fclose hI f

theorem kept_raise : Kept I e raiseUsr1 :=
  kept_getEnv (kept_bind hI (kept_plain hI _ _) fun _ => kept_bind hI (kept_plain hI _ _) fun _ => kept_bind hI (kept_plain hI _ _) fun _ =>
    kept_bind hI (kept_enter hI _) fun _ => kept_getProc fun _ => kept_ite (kept_stop hI _) (kept_plain hI _ _))

theorem kept_error (code : CStr) (i o r : Option File) : Kept I e (childErrorExit code i o r : M α) := by
  refine kept_bind hI ?_ fun _ => kept_bind hI (kept_plain hI _ _) fun _ => kept_stop hI _
  refine kept_getEnv (kept_bind hI (kept_logWrite hI _) fun _ => kept_bind hI (kept_closeFile hI _) fun _ => ?_)
  split
  · exact kept_bind hI (kept_closeFile hI _) fun _ => kept_raise hI
  · exact kept_bind hI (kept_closeFile hI _) fun _ => kept_bind hI (kept_closeFile hI _) fun _ => kept_raise hI

theorem kept_limitStep (r : Res) (w : Bool) (v : Int) : Kept I e (limitStep r w v) :=
  kept_ite (kept_bind hI (kept_setrlimit hI _ _) fun _ => kept_ite (kept_error hI _ _ _ _) (kept_pure hI _)) (kept_pure hI _)

theorem kept_cpuStep (c : Config) : Kept I e (cpuStep c) := by
  refine kept_ite ?_ (kept_pure hI _)
  split
  · exact kept_stop hI _
  · exact kept_bind hI (kept_setrlimit hI _ _) fun _ => kept_ite (kept_error hI _ _ _ _) (kept_pure hI _)

/-- What `fopen` does to the open files, the rights and the ids. -/
theorem kept_fopen (ho : ∀ p q : Proc, (∃ f, q.ofds = p.ofds ++ [f]) → q.rights = p.rights ++ [(p.uid.e, p.gid.e)] → q.uid = p.uid → q.gid = p.gid → I p q)
    (s : Site) (path : CStr) (w : Bool) : Kept I e (fopen s path w) := by
  refine kept_getEnv (kept_bind hI (kept_attempt hI _ _) fun ok => kept_ite ?_ (kept_pure hI _))
  refine fun p => ho p _ ⟨_, rfl⟩ rfl rfl rfl

variable (ho : ∀ p q : Proc, (∃ f, q.ofds = p.ofds ++ [f]) → q.rights = p.rights ++ [(p.uid.e, p.gid.e)] → q.uid = p.uid → q.gid = p.gid → I p q)
include ho

theorem kept_inputStep (c : Config) : Kept I e (inputStep c) := by
  unfold inputStep
  split
  · exact kept_pure hI _
  · refine kept_bind hI (kept_fopen hI ho _ _ _) fun f => ?_
    split
    · exact kept_error hI _ _ _ _
    · exact kept_bind hI (kept_dup2 hI _ _ _) fun _ => kept_ite (kept_bind hI (kept_error hI _ _ _ _) fun _ => kept_pure hI _) (kept_pure hI _)

theorem kept_outputStep (c : Config) (i : Option File) : Kept I e (outputStep c i) := by
  unfold outputStep
  split
  · exact kept_pure hI _
  · refine kept_bind hI (kept_fopen hI ho _ _ _) fun f => ?_
    split
    · exact kept_error hI _ _ _ _
    · exact kept_bind hI (kept_dup2 hI _ _ _) fun _ => kept_ite (kept_bind hI (kept_error hI _ _ _ _) fun _ => kept_pure hI _) (kept_pure hI _)

theorem kept_errorStep (c : Config) (i o : Option File) : Kept I e (errorStep c i o) := by
  unfold errorStep
  split
  · exact kept_pure hI _
  · have hk : ∀ f : Option File, Kept I e (match f with
        | none => stopWith .ub
        | some f => do
          if !(← dup2 .dupError f.fd 2) then
            childErrorExit c!"DUP2_FAILED" i o (some f)
          return some f) := by
      intro f
      split
      · exact kept_stop hI _
      · exact kept_bind hI (kept_dup2 hI _ _ _) fun _ => kept_ite (kept_bind hI (kept_error hI _ _ _ _) fun _ => kept_pure hI _) (kept_pure hI _)
    dsimp only
    split
    · exact kept_bind hI (kept_pure hI _) hk
    · refine kept_bind hI (kept_fopen hI ho _ _ _) fun f => ?_
      split
      · exact kept_bind hI (kept_error hI _ _ _ _) hk
      · exact kept_bind hI (kept_pure hI _) hk

end

section

variable {e : ChildEnv} {α β : Type}

/-- Opening the standard streams: one right is noted for each file, that of the ids the process has and keeps. -/
def EarlyRights (p q : Proc) : Prop :=
  (∃ l, q.ofds = p.ofds ++ l ∧ q.rights = p.rights ++ List.replicate l.length (p.uid.e, p.gid.e)) ∧ q.uid = p.uid ∧ q.gid = p.gid

/-- Afterwards: no file is opened. -/
def LateRights (p q : Proc) : Prop := q.ofds = p.ofds ∧ q.rights = p.rights

/-- All together. -/
def WholeRights (p q : Proc) : Prop :=
  ∃ l, q.ofds = p.ofds ++ l ∧ q.rights = p.rights ++ List.replicate l.length (p.uid.e, p.gid.e)

theorem early_then {p q r : Proc} (h : EarlyRights p q) (h' : WholeRights q r) : WholeRights p r := by
  obtain ⟨⟨l, h1, h2⟩, h3, h4⟩ := h
  obtain ⟨l', h5, h6⟩ := h'
  refine ⟨l ++ l', by rw [h5, h1, List.append_assoc], ?_⟩
  rw [h6, h2, h3, h4, List.append_assoc, List.replicate_append_replicate, List.length_append]

theorem early_files : FilesOnly EarlyRights := by
  constructor
  · intro p q r h h'
    obtain ⟨hw, h3, h4⟩ := h'
    exact ⟨early_then h hw, h3.trans h.2.1, h4.trans h.2.2⟩
  · intro p q h1 h2 h3 h4
    exact ⟨⟨[], by rw [h1, List.append_nil], by rw [h2]; exact (List.append_nil _).symm⟩, h3, h4⟩

theorem early_opens (p q : Proc) (h : ∃ f, q.ofds = p.ofds ++ [f]) (h' : q.rights = p.rights ++ [(p.uid.e, p.gid.e)]) (hu : q.uid = p.uid)
    (hg : q.gid = p.gid) : EarlyRights p q := by
  obtain ⟨f, h⟩ := h
  exact ⟨⟨[f], h, h'⟩, hu, hg⟩

theorem late_files : FilesOnly LateRights :=
  ⟨fun h h' => ⟨h'.1.trans h.1, h'.2.trans h.2⟩, fun h1 h2 _ _ => ⟨h1, h2⟩⟩

theorem late_setgid (g : Int) : Kept LateRights e (setgid g) :=
  kept_bind late_files (kept_attempt late_files _ _) fun _ => kept_getProc fun _ =>
    kept_ite (kept_bind late_files (fun _ => ⟨rfl, rfl⟩) fun _ => kept_pure late_files _)
      (kept_ite (kept_bind late_files (fun _ => ⟨rfl, rfl⟩) fun _ => kept_pure late_files _) (kept_pure late_files _))

theorem late_setuid (g : Int) : Kept LateRights e (setuid g) :=
  kept_bind late_files (kept_attempt late_files _ _) fun _ => kept_getProc fun _ =>
    kept_ite (kept_bind late_files (fun _ => ⟨rfl, rfl⟩) fun _ => kept_pure late_files _)
      (kept_ite (kept_bind late_files (fun _ => ⟨rfl, rfl⟩) fun _ => kept_pure late_files _) (kept_pure late_files _))

theorem late_setgroups (g : List Int) : Kept LateRights e (setgroups g) :=
  kept_getEnv (kept_bind late_files (kept_attempt late_files _ _) fun _ => kept_getProc fun _ =>
    kept_ite (kept_bind late_files (fun _ => ⟨rfl, rfl⟩) fun _ => kept_pure late_files _) (kept_pure late_files _))

theorem late_gidStep (c : Config) (i o r : Option File) : Kept LateRights e (gidStep c i o r) := by
  have h2 : Kept LateRights e (do
      if !(← setgroups [c.gid]) then
        childErrorExit c!"SETUID_FAILED" i o r : M Unit) :=
    kept_bind late_files (late_setgroups _) fun _ => kept_ite (kept_error late_files _ _ _ _) (kept_pure late_files _)
  exact kept_ite (kept_bind late_files (late_setgid _) fun _ => kept_ite (kept_bind late_files (kept_error late_files _ _ _ _) fun _ => h2) h2)
    (kept_pure late_files _)

theorem late_uidStep (c : Config) (i o r : Option File) : Kept LateRights e (uidStep c i o r) :=
  kept_ite (kept_bind late_files (late_setuid _) fun _ => kept_ite (kept_error late_files _ _ _ _) (kept_pure late_files _)) (kept_pure late_files _)

theorem late_ruleAdd (us : List Rule) : ∀ (k : Nat) (ctx : Filter), Kept LateRights e (ruleAddAll k ctx us) := by
  induction us with
  | nil => exact fun _ _ => kept_pure late_files _
  | cons u us ih => exact fun k ctx => kept_getEnv (kept_ite (kept_pure late_files _) (ih _ _))

theorem late_load (d : Action) (us : List Rule) : Kept LateRights e (loadRules d us) := by
  refine kept_getEnv ?_
  have h1 : Kept LateRights e (do
      match ← ruleAddAll 0 ⟨d, []⟩ us with
      | none => return LOAD_SECCOMP_FAILED
      | some ctx =>
        if !(← seccompLoad ctx) then
          return LOAD_SECCOMP_FAILED
        return 0 : M Int) := by
    refine kept_bind late_files (late_ruleAdd us _ _) fun o => ?_
    split
    · exact kept_pure late_files _
    · refine kept_bind late_files ?_ fun _ => kept_ite (kept_pure late_files _) (kept_pure late_files _)
      refine kept_getEnv (kept_bind late_files (kept_enter late_files _) fun _ => kept_ite ?_ (kept_pure late_files _))
      refine kept_bind late_files (fun _ => ⟨rfl, rfl⟩) fun _ => kept_bind late_files (kept_attempt late_files _ _) fun _ =>
        kept_ite ?_ (kept_pure late_files _)
      exact kept_bind late_files (fun _ => ⟨rfl, rfl⟩) fun _ => kept_pure late_files _
  exact kept_ite (kept_pure late_files _) h1

theorem late_seccompStep (c : Config) (i o r : Option File) : Kept LateRights e (seccompStep c i o r) := by
  unfold seccompStep
  split
  · exact kept_pure late_files _
  · refine kept_bind late_files ?_ fun _ => kept_ite (kept_error late_files _ _ _ _) (kept_pure late_files _)
    refine kept_ite ?_ (kept_ite ?_ (kept_ite ?_ (kept_ite ?_ (kept_ite ?_ (kept_pure late_files _)))))
    all_goals exact kept_getEnv (late_load _ _)

theorem late_tail (c : Config) (i o r : Option File) : Kept LateRights e (do
    gidStep c i o r
    uidStep c i o r
    seccompStep c i o r
    execve c.exePath c.args c.env
    childErrorExit c!"EXECVE_FAILED" i o r : M Unit) :=
  kept_bind late_files (late_gidStep c i o r) fun _ => kept_bind late_files (late_uidStep c i o r) fun _ =>
    kept_bind late_files (late_seccompStep c i o r) fun _ => kept_bind late_files
      (kept_getEnv (kept_bind late_files (kept_attempt late_files _ _) fun _ => kept_ite (kept_stop late_files _) (kept_pure late_files _)))
      fun _ => kept_error late_files _ _ _ _

theorem whole_bind {m : M α} {f : α → M β} (hm : Kept EarlyRights e m) (hf : ∀ a, Kept WholeRights e (f a)) : Kept WholeRights e (m >>= f) := by
  intro p
  have h1 := hm p
  simp only [bind_run]
  revert h1
  cases m e p with
  | stop s q => exact fun h => h.1
  | ok a q => exact fun h => early_then h (hf a q)

theorem whole_child (c : Config) : Kept WholeRights e (childProcess c) := by
  refine whole_bind (kept_limitStep early_files _ _ _) fun _ => whole_bind (kept_limitStep early_files _ _ _) fun _ =>
    whole_bind (kept_cpuStep early_files c) fun _ => whole_bind (kept_limitStep early_files _ _ _) fun _ =>
    whole_bind (kept_limitStep early_files _ _ _) fun _ => whole_bind (kept_inputStep early_files early_opens c) fun i =>
    whole_bind (kept_outputStep early_files early_opens c i) fun o => whole_bind (kept_errorStep early_files early_opens c i o) fun r => ?_
  intro p
  obtain ⟨h1, h2⟩ := late_tail c i o r p
  exact ⟨[], h1.trans (List.append_nil _).symm, h2.trans (List.append_nil _).symm⟩

end

/-- **C136** (rights): every file that the child of a judging opens it opens with the effective user and group of the process that called `run`, whatever user and
group the request names. -/
theorem C136_rights (c : Config) (e : ChildEnv) (p : Proc) (s : Stop) (q : Proc) (h : childProcess c e p = .stop s q) :
    ∃ l, q.ofds = p.ofds ++ l ∧ q.rights = p.rights ++ l.map fun _ => (p.uid.e, p.gid.e) := by
  have h1 := whole_child (e := e) c p
  rw [h] at h1
  simpa only [WholeRights, List.map_const', lastState] using h1

/-- The sample program, which runs as nobody, has three files open that root opened. -/
example : (stateAtExec sampleConfig (sampleChild fun _ => false) sampleProc).rights = [(0, 0), (0, 0), (0, 0)] ∧
    (stateAtExec sampleConfig (sampleChild fun _ => false) sampleProc).uid.e = 65534 := by
  decide +kernel

/-- The program, as the kernel sees it when it opens a file. -/
def Proc.who (q : Proc) : Who := ⟨q.uid.e, q.gid.e, q.groups⟩

/-- The rights noted since `p`. -/
def rightsSince (p q : Proc) : List (Int × Int) := q.rights.drop p.rights.length

theorem rightsSince_caller {c : Config} {e : ChildEnv} {p q : Proc} (h : Started c e p q) {r : Int × Int} (hr : r ∈ rightsSince p q) :
    r = (p.uid.e, p.gid.e) := by
  obtain ⟨_, _, _, h⟩ := h
  obtain ⟨l, _, h2⟩ := C136_rights c e p _ q h
  rw [rightsSince, h2, List.drop_left] at hr
  obtain ⟨_, _, rfl⟩ := List.mem_map.1 hr
  rfl

theorem made_bits (r : Int × Int) (umask : Nat) (h : umask &&& 0o022 = 0o022) :
    (made r umask).mode / 8 % 8 / 2 % 2 = 0 ∧ (made r umask).mode % 8 / 2 % 2 = 0 := by
  have key : ∀ u, u < 512 → u &&& 0o022 = 0o022 →
      (0o666 &&& (0o777 ^^^ u)) / 8 % 8 / 2 % 2 = 0 ∧ (0o666 &&& (0o777 ^^^ u)) % 8 / 2 % 2 = 0 := by decide +kernel
  refine key (umask &&& 0o777) (Nat.lt_of_le_of_lt Nat.and_le_right (by decide)) ?_
  rw [Nat.and_assoc]
  exact h

/-- **C136** (output): what the judging makes belongs to the judger. Where root judges a program as another user and the umask keeps others from writing (as
022 does), the program may neither open the files of the judging anew to write into them nor change their mode. -/
theorem C136_output (c : Config) (e : ChildEnv) (p q : Proc) (hroot : p.uid.e = 0) (hu : c.uid ≠ keepId) (h0 : c.uid ≠ 0) (h : Started c e p q)
    (umask : Nat) (hm : umask &&& 0o022 = 0o022) (r : Int × Int) (hr : r ∈ rightsSince p q) :
    ¬ q.who.mayWrite (made r umask) ∧ ¬ q.who.mayChange (made r umask) := by
  have h1 := rightsSince_caller h hr
  have h2 := (C18_each_id c e p q hroot h).1
  rw [if_neg hu] at h2
  have h3 : q.who.uid = c.uid := by rw [Proc.who, h2]
  have h4 : (made r umask).owner = 0 := by rw [h1, ← hroot]; rfl
  obtain ⟨hg, ho⟩ := made_bits r umask hm
  constructor
  · rintro (hz | hb)
    · exact h0 (h3 ▸ hz)
    · rw [Who.bits, h3, h4, if_neg h0] at hb
      split at hb <;> omega
  · rintro (hz | hb)
    · exact h0 (h3 ▸ hz)
    · rw [h3, h4] at hb
      exact h0 hb

/-- **C136** (input): a file that is closed to everybody but its owner and root can be the input of a judging by root, and the program, which reads it as its standard
input, may not open it itself. -/
theorem C136_input (c : Config) (e : ChildEnv) (p q : Proc) (hroot : p.uid.e = 0) (hu : c.uid ≠ keepId) (h0 : c.uid ≠ 0) (h : Started c e p q)
    (i : Inode) (hi : i.owner ≠ c.uid) (hm : i.mode % 64 = 0) :
    (∀ r ∈ rightsSince p q, (⟨r.1, r.2, p.groups⟩ : Who).mayRead i) ∧ ¬ q.who.mayRead i := by
  have h2 := (C18_each_id c e p q hroot h).1
  rw [if_neg hu] at h2
  have h3 : q.who.uid = c.uid := by rw [Proc.who, h2]
  refine ⟨fun r hr => .inl ?_, ?_⟩
  · rw [rightsSince_caller h hr]
    exact hroot
  · rintro (hz | hb)
    · exact h0 (h3 ▸ hz)
    · rw [Who.bits, h3, if_neg (Ne.symm hi)] at hb
      split at hb <;> omega

/-- **C136** (no uid): without a uid the program is the owner of what the judging makes, and may do what it wants with it. -/
theorem C136_keeps (c : Config) (e : ChildEnv) (p q : Proc) (hu : c.uid = keepId) (h : Started c e p q) (umask : Nat) (r : Int × Int)
    (hr : r ∈ rightsSince p q) : q.who.mayChange (made r umask) := by
  rw [rightsSince_caller h hr]
  obtain ⟨rfl, ok, _⟩ := started_inv h
  have hk : castU32 (-1) = keepId := rfl
  right
  rw [stateAtExec_eq, Proc.who, (afterSeccomp_ids c e _).1]
  unfold afterUid
  rw [if_pos (hu.trans hk.symm)]
  unfold afterGid
  split
  · rw [(redirections_frame c p).2.1]; rfl
  · show (redirections c p).uid.e = _
    rw [(redirections_frame c p).2.1]; rfl

/-- The output of the sample judging under the usual umask: rw-r--r-- root root; nobody may read it but not write. -/
example : made (0, 0) 0o022 = ⟨0, 0, 0o644⟩ ∧ ¬ (⟨65534, 65534, [65534]⟩ : Who).mayWrite (made (0, 0) 0o022) ∧
    (⟨65534, 65534, [65534]⟩ : Who).mayRead (made (0, 0) 0o022) := by
  simp only [Who.mayWrite, Who.mayRead]; decide +kernel

/-- Under umask 0 anybody may write into it. -/
example : (⟨65534, 65534, [65534]⟩ : Who).mayWrite (made (0, 0) 0) := by
  simp only [Who.mayWrite]; decide +kernel

end Judger
