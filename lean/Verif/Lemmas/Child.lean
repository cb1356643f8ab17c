import Verif.Model.Child

/-! # Running pieces of `child_process`: inversion lemmas -/

set_option autoImplicit false

namespace Judger

open M

section basic
variable {α β : Type} {e : ChildEnv} {p q : Proc}

theorem bind_eq_ok {m : M α} {f : α → M β} {b : β} :
    (m >>= f) e p = .ok b q ↔ ∃ a p1, m e p = .ok a p1 ∧ f a e p1 = .ok b q := by
  show bind' m f e p = _ ↔ _
  unfold bind'
  cases h : m e p <;> simp [and_assoc]

theorem bind_eq_stop {m : M α} {f : α → M β} {s : Stop} :
    (m >>= f) e p = .stop s q ↔ m e p = .stop s q ∨ ∃ a p1, m e p = .ok a p1 ∧ f a e p1 = .stop s q := by
  show bind' m f e p = _ ↔ _
  unfold bind'
  cases h : m e p <;> simp [and_assoc]

theorem bind_run {m : M α} {f : α → M β} : (m >>= f) e p = match m e p with
  | .ok a p' => f a e p'
  | .stop s p' => .stop s p' := rfl

@[simp] theorem pure_run (a : α) : (pure a : M α) e p = .ok a p := rfl
@[simp] theorem getEnv_run : getEnv e p = .ok e p := rfl
@[simp] theorem getProc_run : getProc e p = .ok p p := rfl
@[simp] theorem modify_run (f : Proc → Proc) : modify f e p = .ok () (f p) := rfl
@[simp] theorem stopWith_run (s : Stop) : (stopWith s : M α) e p = .stop s p := rfl

theorem bind_assoc_run {γ : Type} {m : M α} {f : α → M β} {g : β → M γ} :
    ((m >>= f) >>= g) e p = (m >>= fun a => f a >>= g) e p := by
  simp only [bind_run]
  cases m e p <;> rfl

end basic

variable {e : ChildEnv} {p q : Proc}

theorem enter_run (r : Req) : enter r e p = match evalAll p.filters r with
    | .kill => .stop (.killed SIGSYS) p
    | .errno _ => .ok false p
    | .allow => .ok true p := by
  unfold enter
  simp only [bind_run, getProc_run]
  cases evalAll p.filters r <;> rfl

theorem attempt_run (s : Site) (r : Req) : attempt s r e p = match evalAll p.filters r with
    | .kill => .stop (.killed SIGSYS) p
    | .errno _ => .ok false p
    | .allow => .ok (!e.fails s) p := by
  unfold attempt
  simp only [bind_run, getEnv_run, enter_run]
  cases evalAll p.filters r <;> simp

/-- `Lost s`: the child is gone without running the program. -/
def Lost : Stop → Prop
  | .execed .. => False
  | _ => True

theorem enter_cases (r : Req) :
    (evalAll p.filters r = .kill ∧ enter r e p = .stop (.killed SIGSYS) p) ∨
    (enter r e p = .ok false p) ∨ (evalAll p.filters r = .allow ∧ enter r e p = .ok true p) := by
  rw [enter_run]; cases evalAll p.filters r <;> simp

theorem attempt_cases (s : Site) (r : Req) :
    (evalAll p.filters r = .kill ∧ attempt s r e p = .stop (.killed SIGSYS) p) ∨
    (attempt s r e p = .ok false p) ∨
    (evalAll p.filters r = .allow ∧ e.fails s = false ∧ attempt s r e p = .ok true p) := by
  rw [attempt_run]; cases evalAll p.filters r <;> cases e.fails s <;> simp

/-- What one call may do: be killed by a filter, fail without effect (refused by a filter or for the reason `why`), or
succeed with the stated effect. -/
inductive Call {α} (p : Proc) (why : Prop) (bad : α) (good : α → Proc → Prop) : Step α → Prop
  | killed : (∃ r, evalAll p.filters r = .kill) → Call p why bad good (.stop (.killed SIGSYS) p)
  | failed : (∃ r n, evalAll p.filters r = .errno n) ∨ why → Call p why bad good (.ok bad p)
  | done {a q} : good a q → Call p why bad good (.ok a q)

theorem attempt_cases' (s : Site) (r : Req) :
    ((∃ r, evalAll p.filters r = .kill) ∧ attempt s r e p = .stop (.killed SIGSYS) p) ∨
    (((∃ r n, evalAll p.filters r = .errno n) ∨ e.fails s = true) ∧ attempt s r e p = .ok false p) ∨
    (e.fails s = false ∧ attempt s r e p = .ok true p) := by
  rw [attempt_run]
  cases h : evalAll p.filters r with
  | kill => exact .inl ⟨⟨r, h⟩, rfl⟩
  | errno n => exact .inr (.inl ⟨.inl ⟨r, n, h⟩, rfl⟩)
  | allow => cases hf : e.fails s <;> simp

theorem setrlimit_call (r : Res) (v : Int) :
    Call p (e.fails (.rlimit r) = true ∨ p.uid.e ≠ 0) false (fun ok q => ok = true ∧ e.fails (.rlimit r) = false ∧
      q = { p with limits := fun r' => if r' = r then ⟨v, v⟩ else p.limits r' }) (setrlimit r v e p) := by
  unfold setrlimit
  simp only [bind_run, getEnv_run]
  rcases attempt_cases' (e := e) (p := p) (.rlimit r) (Req.mk' NR_prlimit64 [0, argOf r.code, e.bufAddr, 0])
    with ⟨hk, h⟩ | ⟨hk, h⟩ | ⟨hf, h⟩ <;> rw [h]
  · exact .killed hk
  · exact .failed (hk.imp_right .inl)
  · simp only [getProc_run, Bool.true_and]
    split
    · exact .done ⟨rfl, hf, rfl⟩
    · rename_i hn
      simp only [Proc.privileged, Bool.or_eq_true, not_or, beq_iff_eq] at hn
      exact .failed (.inr (.inr hn.1))

/-- The state after a successful `fopen`. -/
def opened (p : Proc) (path : CStr) (write : Bool) : Proc :=
  { p with
    fds := p.fds.set p.fds.lowest (some p.ofds.length)
    ofds := p.ofds ++ [⟨path, !write, write, write⟩]
    files := ⟨p.nextFile, p.fds.lowest⟩ :: p.files
    nextFile := p.nextFile + 1
    rights := p.rights ++ [(p.uid.e, p.gid.e)] }

theorem fopen_call (s : Site) (path : CStr) (w : Bool) :
    Call p (e.fails s = true) none
      (fun f q => f = some ⟨p.nextFile, p.fds.lowest⟩ ∧ e.fails s = false ∧ q = opened p path w)
      (fopen s path w e p) := by
  unfold fopen
  simp only [bind_run, getEnv_run]
  rcases attempt_cases' (e := e) (p := p) s
    (Req.mk' NR_openat [argOf (-100), e.bufAddr, if w then O_WRONLY ||| O_CREAT ||| O_TRUNC else O_RDONLY, 0o666])
    with ⟨hk, h⟩ | ⟨hk, h⟩ | ⟨hf, h⟩ <;> rw [h]
  · exact .killed hk
  · exact .failed hk
  · exact .done ⟨rfl, hf, rfl⟩

theorem dup2_call (s : Site) (old new : Nat) :
    Call p (e.fails s = true ∨ p.fds.get old = none) false
      (fun ok q => ok = true ∧ e.fails s = false ∧ (p.fds.get old).isSome ∧
      q = { p with fds := p.fds.set new (p.fds.get old) }) (dup2 s old new e p) := by
  unfold dup2
  simp only [bind_run]
  rcases attempt_cases' (e := e) (p := p) s (Req.mk' NR_dup2 [argOf old, argOf new])
    with ⟨hk, h⟩ | ⟨hk, h⟩ | ⟨hf, h⟩ <;> rw [h]
  · exact .killed hk
  · exact .failed (hk.imp_right .inl)
  · simp only [getProc_run, Bool.true_and]
    split
    · exact .done ⟨rfl, hf, by assumption, rfl⟩
    · rename_i hn
      exact .failed (.inr (.inr (by simpa using hn)))

theorem setgid_call (g : Int) :
    Call p (e.fails .setgid = true ∨ p.uid.e ≠ 0) false (fun ok q => ok = true ∧ e.fails .setgid = false ∧
      ((p.uid.e = 0 ∧ q = { p with gid := ⟨g, g, g⟩ }) ∨
       (p.uid.e ≠ 0 ∧ (g = p.gid.r ∨ g = p.gid.s) ∧ q = { p with gid := { p.gid with e := g } }))) (setgid g e p) := by
  unfold setgid
  simp only [bind_run]
  rcases attempt_cases' (e := e) (p := p) .setgid (Req.mk' NR_setgid [argOf g])
    with ⟨hk, h⟩ | ⟨hk, h⟩ | ⟨hf, h⟩ <;> rw [h]
  · exact .killed hk
  · exact .failed (hk.imp_right .inl)
  · simp only [getProc_run, Bool.true_and]
    split
    · rename_i hp
      exact .done ⟨rfl, hf, .inl ⟨by simpa [Proc.privileged] using hp, rfl⟩⟩
    · rename_i hp
      have hp : p.uid.e ≠ 0 := by simpa [Proc.privileged] using hp
      split
      · rename_i hg
        exact .done ⟨rfl, hf, .inr ⟨hp, by simpa using hg, rfl⟩⟩
      · exact .failed (.inr (.inr hp))

theorem setuid_call (u : Int) :
    Call p (e.fails .setuid = true ∨ p.uid.e ≠ 0) false (fun ok q => ok = true ∧ e.fails .setuid = false ∧
      ((p.uid.e = 0 ∧ q = { p with uid := ⟨u, u, u⟩ }) ∨
       (p.uid.e ≠ 0 ∧ (u = p.uid.r ∨ u = p.uid.s) ∧ q = { p with uid := { p.uid with e := u } }))) (setuid u e p) := by
  unfold setuid
  simp only [bind_run]
  rcases attempt_cases' (e := e) (p := p) .setuid (Req.mk' NR_setuid [argOf u])
    with ⟨hk, h⟩ | ⟨hk, h⟩ | ⟨hf, h⟩ <;> rw [h]
  · exact .killed hk
  · exact .failed (hk.imp_right .inl)
  · simp only [getProc_run, Bool.true_and]
    split
    · rename_i hp
      exact .done ⟨rfl, hf, .inl ⟨by simpa [Proc.privileged] using hp, rfl⟩⟩
    · rename_i hp
      have hp : p.uid.e ≠ 0 := by simpa [Proc.privileged] using hp
      split
      · rename_i hg
        exact .done ⟨rfl, hf, .inr ⟨hp, by simpa using hg, rfl⟩⟩
      · exact .failed (.inr (.inr hp))

theorem setgroups_call (gs : List Int) :
    Call p (e.fails .setgroups = true ∨ p.uid.e ≠ 0) false
      (fun ok q => ok = true ∧ e.fails .setgroups = false ∧ p.uid.e = 0 ∧ q = { p with groups := gs })
      (setgroups gs e p) := by
  unfold setgroups
  simp only [bind_run, getEnv_run]
  rcases attempt_cases' (e := e) (p := p) .setgroups (Req.mk' NR_setgroups [argOf gs.length, e.bufAddr])
    with ⟨hk, h⟩ | ⟨hk, h⟩ | ⟨hf, h⟩ <;> rw [h]
  · exact .killed hk
  · exact .failed (hk.imp_right .inl)
  · simp only [getProc_run, Bool.true_and]
    split
    · rename_i hp
      exact .done ⟨rfl, hf, by simpa [Proc.privileged] using hp, rfl⟩
    · rename_i hp
      exact .failed (.inr (.inr (by simpa [Proc.privileged] using hp)))

/-! ## The failure path -/

/-- The ways the failure path can end. -/
def FailStop (e : ChildEnv) (s : Stop) : Prop :=
  s = .killed SIGSYS ∨ s = .killed SIGXFSZ ∨ (∃ sig, e.stderrKills = some sig ∧ s = .killed sig) ∨
  s = .killed SIGUSR1 ∨ s = .exited 1 ∨ (s = .hung ∧ e.clockHeld = true ∧ e.log ≠ none)

/-- The state in the failure path differs from `p` at most in `files`, `fds`, `badClose`. -/
theorem noteStderr_run :
    (∃ s, FailStop e s ∧ noteStderr e p = .stop s p) ∨ noteStderr e p = .ok () p := by
  unfold noteStderr
  simp only [bind_run, getEnv_run]
  rcases enter_cases (e := e) (p := p) (Req.mk' NR_write [2, e.bufAddr, 21]) with ⟨_, h⟩ | h | ⟨_, h⟩ <;> rw [h]
  · exact .inl ⟨_, .inl rfl, rfl⟩
  · exact .inr rfl
  · cases hk : e.stderrKills with
    | none => exact .inr rfl
    | some sig => exact .inl ⟨.killed sig, .inr (.inr (.inl ⟨sig, hk, rfl⟩)), rfl⟩

theorem localTime_run : localTime e p = if e.clockHeld then .stop .hung p else .ok () p := by
  unfold localTime
  simp only [bind_run, getEnv_run]
  split <;> simp

theorem logWriteChild_run (msg : CStr) :
    (∃ s n, FailStop e s ∧ logWriteChild msg e p = .stop s { p with notes := n }) ∨
    ∃ n, logWriteChild msg e p = .ok () { p with notes := n } := by
  have note : (∃ s n, FailStop e s ∧ noteStderr e p = .stop s { p with notes := n }) ∨ ∃ n, noteStderr e p = .ok () { p with notes := n } := by
    rcases noteStderr_run (e := e) (p := p) with ⟨s, h1, h2⟩ | h
    · exact .inl ⟨s, p.notes, h1, h2⟩
    · exact .inr ⟨p.notes, h⟩
  unfold logWriteChild
  simp only [bind_run, getEnv_run]
  cases hl : e.log with
  | none => exact note
  | some f =>
    cases hc : e.clockHeld with
    | true => exact .inl ⟨.hung, p.notes, by simp [FailStop, hc, hl], by simp [bind_run, localTime_run, hc]⟩
    | false =>
    simp only [bind_run, localTime_run, hc, Bool.false_eq_true, if_false]
    rcases attempt_cases (e := e) (p := p) .logLock (Req.mk' NR_flock [argOf f.fd, 2]) with ⟨_, h⟩ | h | ⟨_, _, h⟩ <;> rw [h]
    · exact .inl ⟨_, p.notes, .inl rfl, rfl⟩
    · exact note
    · simp only [if_true, bind_run]
      rcases enter_cases (e := e) (p := p) (Req.mk' NR_write [argOf f.fd, e.bufAddr, 100]) with ⟨_, h⟩ | h | ⟨_, h⟩ <;> rw [h]
      · exact .inl ⟨_, p.notes, .inl rfl, rfl⟩
      · simp only [getProc_run, Bool.false_and, Bool.false_eq_true, if_false]
        exact note
      · simp only [getProc_run, Bool.true_and]
        split
        · exact .inl ⟨_, p.notes, .inr (.inl rfl), rfl⟩
        · split
          · simp only [bind_run, modify_run]
            rcases attempt_cases (e := e) (p := { p with notes := msg :: p.notes }) .logUnlock (Req.mk' NR_flock [argOf f.fd, 8])
              with ⟨_, h⟩ | h | ⟨_, _, h⟩ <;> rw [h]
            · exact .inl ⟨_, _, .inl rfl, rfl⟩
            · exact .inr ⟨_, rfl⟩
            · exact .inr ⟨_, rfl⟩
          · exact note

theorem raiseUsr1_run :
    (∃ s, FailStop e s ∧ raiseUsr1 e p = .stop s p) ∨ raiseUsr1 e p = .ok () p := by
  have pl : ∀ nr args, (plain nr args e p = .stop (.killed SIGSYS) p) ∨ plain nr args e p = .ok () p := by
    intro nr args
    unfold plain
    simp only [bind_run]
    rcases enter_cases (e := e) (p := p) (Req.mk' nr args) with ⟨_, h⟩ | h | ⟨_, h⟩ <;> rw [h] <;> simp
  unfold raiseUsr1
  simp only [bind_run, getEnv_run]
  rcases pl NR_rt_sigprocmask [0, e.bufAddr, e.bufAddr, 8] with h | h <;> rw [h]
  · exact .inl ⟨_, .inl rfl, rfl⟩
  rcases pl NR_getpid [] with h | h <;> simp only [h]
  · exact .inl ⟨_, .inl rfl, rfl⟩
  rcases pl NR_gettid [] with h | h <;> simp only [h]
  · exact .inl ⟨_, .inl rfl, rfl⟩
  rcases enter_cases (e := e) (p := p) (Req.mk' NR_tgkill [e.bufAddr, e.bufAddr, argOf SIGUSR1])
    with ⟨_, h⟩ | h | ⟨_, h⟩ <;> simp only [h]
  · exact .inl ⟨_, .inl rfl, rfl⟩
  · simp only [getProc_run, Bool.false_and, Bool.false_eq_true, if_false]
    rcases pl NR_rt_sigprocmask [2, e.bufAddr, 0, 8] with h | h <;> rw [h]
    · exact .inl ⟨_, .inl rfl, rfl⟩
    · exact .inr rfl
  · simp only [getProc_run]
    split
    · exact .inl ⟨_, .inr (.inr (.inr (.inl rfl))), rfl⟩
    · rcases pl NR_rt_sigprocmask [2, e.bufAddr, 0, 8] with h | h <;> rw [h]
      · exact .inl ⟨_, .inl rfl, rfl⟩
      · exact .inr rfl

/-- Closing a FILE variable. -/
theorem closeFile_run (f : Option File) (hf : ∀ x, f = some x → x ∈ p.files) :
    closeFile f e p = .stop (.killed SIGSYS) p ∨
    ∃ fds, closeFile f e p = .ok () { p with files := f.elim p.files (p.files.erase ·), fds := fds } := by
  cases f with
  | none => exact .inr ⟨p.fds, rfl⟩
  | some f =>
    unfold closeFile fclose
    simp only [bind_run, getProc_run, hf f rfl, if_true]
    rcases enter_cases (e := e) (p := p) (Req.mk' NR_close [argOf f.fd]) with ⟨_, h⟩ | h | ⟨_, h⟩ <;> rw [h]
    · exact .inl rfl
    · exact .inr ⟨_, rfl⟩
    · exact .inr ⟨_, rfl⟩

theorem closeFile_any (f : Option File) :
    closeFile f e p = .stop (.killed SIGSYS) p ∨
    ∃ files fds bad, closeFile f e p = .ok () { p with files := files, fds := fds, badClose := bad } := by
  cases f with
  | none => exact .inr ⟨p.files, p.fds, p.badClose, rfl⟩
  | some f =>
    unfold closeFile fclose
    simp only [bind_run, getProc_run]
    split
    · simp only [bind_run]
      rcases enter_cases (e := e) (p := p) (Req.mk' NR_close [argOf f.fd]) with ⟨_, h⟩ | h | ⟨_, h⟩ <;> rw [h]
      · exact .inl rfl
      · exact .inr ⟨_, _, _, rfl⟩
      · exact .inr ⟨_, _, _, rfl⟩
    · exact .inr ⟨_, _, _, rfl⟩

theorem exitWith_run {α} (code : Nat) :
    (exitWith code : M α) e p = .stop (.killed SIGSYS) p ∨ (exitWith code : M α) e p = .stop (.exited code) p := by
  unfold exitWith plain
  simp only [bind_run]
  rcases enter_cases (e := e) (p := p) (Req.mk' NR_exit_group [argOf code]) with ⟨_, h⟩ | h | ⟨_, h⟩ <;> rw [h] <;> simp

/-- Nothing after `CHILD_ERROR_EXIT` is executed. -/
theorem childErrorExit_bind {α β} (code : CStr) (i o r : Option File) (f : α → M β) :
    ((childErrorExit code i o r : M α) >>= f) e p = (childErrorExit code i o r : M β) e p := by
  unfold childErrorExit
  rw [bind_assoc_run]
  simp only [bind_run]
  cases childErrorBody code i o r e p with
  | stop s q => rfl
  | ok a q =>
    simp only [exitWith, plain, bind_run]
    rcases enter_cases (e := e) (p := q) (Req.mk' NR_exit_group [argOf 1]) with ⟨_, h⟩ | h | ⟨_, h⟩ <;> simp [h]

/-- `CHILD_ERROR_EXIT` up to the signal changes nothing but the FILEs, the descriptors and the log. -/
theorem childErrorBody_run (code : CStr) (i o r : Option File) :
    (∃ s files fds bad n, childErrorBody code i o r e p =
      .stop s { p with files := files, fds := fds, badClose := bad, notes := n } ∧ FailStop e s) ∨
    ∃ files fds bad n, childErrorBody code i o r e p = .ok () { p with files := files, fds := fds, badClose := bad, notes := n } := by
  have fin : ∀ f d b (n : List CStr), (∃ s files fds bad n', raiseUsr1 e { p with files := f, fds := d, badClose := b, notes := n } =
      .stop s { p with files := files, fds := fds, badClose := bad, notes := n' } ∧ FailStop e s) ∨
      ∃ files fds bad n', raiseUsr1 e { p with files := f, fds := d, badClose := b, notes := n } =
        .ok () { p with files := files, fds := fds, badClose := bad, notes := n' } := by
    intro f d b n
    rcases raiseUsr1_run (e := e) (p := { p with files := f, fds := d, badClose := b, notes := n }) with ⟨s, hs, h⟩ | h <;> rw [h]
    · exact .inl ⟨s, f, d, b, n, rfl, hs⟩
    · exact .inr ⟨f, d, b, n, rfl⟩
  unfold childErrorBody
  simp only [bind_run, getEnv_run]
  rcases logWriteChild_run (e := e) (p := p) (childErrorText e code) with ⟨s, n, hs, h⟩ | ⟨n, h⟩ <;> rw [h]
  · exact .inl ⟨s, p.files, p.fds, p.badClose, n, rfl, hs⟩
  rcases closeFile_any (e := e) (p := { p with notes := n }) i with h | ⟨f1, d1, b1, h⟩ <;> simp only [h]
  · exact .inl ⟨_, p.files, p.fds, p.badClose, n, rfl, .inl rfl⟩
  split
  · simp only [bind_run]
    rcases closeFile_any (e := e) (p := { p with files := f1, fds := d1, badClose := b1, notes := n }) o with h | ⟨f2, d2, b2, h⟩ <;>
      simp only [h]
    · exact .inl ⟨_, f1, d1, b1, n, rfl, .inl rfl⟩
    · exact fin f2 d2 b2 n
  · simp only [bind_run]
    rcases closeFile_any (e := e) (p := { p with files := f1, fds := d1, badClose := b1, notes := n }) o with h | ⟨f2, d2, b2, h⟩ <;>
      simp only [h]
    · exact .inl ⟨_, f1, d1, b1, n, rfl, .inl rfl⟩
    rcases closeFile_any (e := e) (p := { p with files := f2, fds := d2, badClose := b2, notes := n }) r with h | ⟨f3, d3, b3, h⟩ <;>
      simp only [h]
    · exact .inl ⟨_, f2, d2, b2, n, rfl, .inl rfl⟩
    · exact fin f3 d3 b3 n

/-- `CHILD_ERROR_EXIT` never returns and never runs the program; it changes nothing but the FILEs, the descriptors and the log. -/
theorem childErrorExit_run {α} (code : CStr) (i o r : Option File) :
    ∃ s files fds bad n, (childErrorExit code i o r : M α) e p =
      .stop s { p with files := files, fds := fds, badClose := bad, notes := n } ∧ FailStop e s := by
  unfold childErrorExit
  simp only [bind_run]
  rcases childErrorBody_run (e := e) (p := p) code i o r with ⟨s, f, d, b, n, h, hs⟩ | ⟨f, d, b, n, h⟩ <;> rw [h]
  · exact ⟨s, f, d, b, n, rfl, hs⟩
  · rcases exitWith_run (α := α) (e := e) (p := { p with files := f, fds := d, badClose := b, notes := n }) 1 with h | h <;> simp only [h]
    · exact ⟨_, f, d, b, n, rfl, .inl rfl⟩
    · exact ⟨_, f, d, b, n, rfl, .inr (.inr (.inr (.inr (.inl rfl))))⟩

/-- The FILEs opened by `child_process` so far, most recent first, in front of those open before (`base`). -/
structure Held (p : Proc) (base : List File) (i o r : Option File) : Prop where
  files : p.files = (if o = r then [] else r.toList) ++ o.toList ++ i.toList ++ base
  nodup : p.files.Nodup
  fresh : ∀ f ∈ p.files, f.id < p.nextFile

/-- What C21 asks of the end of the failure path. -/
def ClosesAll (e : ChildEnv) (base : List File) (bad : Bool) (s : Stop) (q : Proc) : Prop :=
  q.badClose = bad ∧ (e.stderrKills ≠ some SIGUSR1 → s = .killed SIGUSR1 ∨ s = .exited 1 → q.files = base)

theorem logWriteChild_sig {msg : CStr} {s : Stop} (h : logWriteChild msg e p = .stop s q) :
    s = .killed SIGSYS ∨ s = .killed SIGXFSZ ∨ (∃ sig, e.stderrKills = some sig ∧ s = .killed sig) ∨ s = .hung := by
  suffices (s = .killed SIGSYS ∨ s = .killed SIGXFSZ ∨ ∃ sig, e.stderrKills = some sig ∧ s = .killed sig) ∨ s = .hung by
    rcases this with (h | h | h) | h
    · exact .inl h
    · exact .inr (.inl h)
    · exact .inr (.inr (.inl h))
    · exact .inr (.inr (.inr h))
  have note : ∀ p s q, noteStderr e p = .stop s q → s = .killed SIGSYS ∨ s = .killed SIGXFSZ ∨ ∃ sig, e.stderrKills = some sig ∧ s = .killed sig := by
    intro p s q h
    unfold noteStderr at h
    simp only [bind_run, getEnv_run] at h
    rcases enter_cases (e := e) (p := p) (Req.mk' NR_write [2, e.bufAddr, 21]) with ⟨_, h'⟩ | h' | ⟨_, h'⟩ <;> rw [h'] at h
    · simp at h; exact .inl h.1.symm
    · simp at h
    · cases hk : e.stderrKills <;> simp [hk] at h
      exact .inr (.inr ⟨_, rfl, h.1.symm⟩)
  unfold logWriteChild at h
  simp only [bind_run, getEnv_run] at h
  cases hl : e.log with
  | none => rw [hl] at h; exact .inl (note _ _ _ h)
  | some f =>
    simp only [hl, bind_run, localTime_run] at h
    cases hc : e.clockHeld with
    | true => simp [hc] at h; exact .inr h.1.symm
    | false =>
    left
    simp only [hc, Bool.false_eq_true, if_false] at h
    rcases attempt_cases (e := e) (p := p) .logLock (Req.mk' NR_flock [argOf f.fd, 2]) with ⟨_, h'⟩ | h' | ⟨_, _, h'⟩ <;>
      rw [h'] at h
    · simp at h; exact .inl h.1.symm
    · exact note _ _ _ h
    · simp only [if_true, bind_run] at h
      rcases enter_cases (e := e) (p := p) (Req.mk' NR_write [argOf f.fd, e.bufAddr, 100])
        with ⟨_, h'⟩ | h' | ⟨_, h'⟩ <;> rw [h'] at h
      · simp at h; exact .inl h.1.symm
      · simp only [getProc_run, Bool.false_and, Bool.false_eq_true, if_false] at h
        exact note _ _ _ h
      · simp only [getProc_run, Bool.true_and] at h
        split at h
        · simp at h; exact .inr (.inl h.1.symm)
        · split at h
          · simp only [bind_run, modify_run] at h
            rcases attempt_cases (e := e) (p := { p with notes := msg :: p.notes }) .logUnlock (Req.mk' NR_flock [argOf f.fd, 8])
              with ⟨_, h'⟩ | h' | ⟨_, _, h'⟩ <;> rw [h'] at h
            · simp at h; exact .inl h.1.symm
            · simp at h
            · simp at h
          · exact note _ _ _ h

theorem childErrorExit_closes {α} {code : CStr} {i o r : Option File} {base : List File} {s : Stop}
    (hh : Held p base i o r) (h : (childErrorExit code i o r : M α) e p = .stop s q) :
    ClosesAll e base p.badClose s q := by
  have hx : ∀ (s : Stop), (s = .killed SIGSYS ∨ s = .killed SIGXFSZ ∨ (∃ sig, e.stderrKills = some sig ∧ s = .killed sig) ∨ s = .hung) →
      e.stderrKills ≠ some SIGUSR1 → ¬ (s = .killed SIGUSR1 ∨ s = .exited 1) := by
    rintro s (rfl | rfl | ⟨sig, h1, rfl⟩ | rfl) hn <;> simp [SIGSYS, SIGUSR1, SIGXFSZ]
    rintro rfl; exact hn h1
  have fin : ∀ (p : Proc) s q, (do raiseUsr1; exitWith 1 : M α) e p = .stop s q → q = p := by
    intro p s q h
    simp only [bind_run] at h
    rcases raiseUsr1_run (e := e) (p := p) with ⟨s', _, h'⟩ | h' <;> rw [h'] at h
    · simp at h; exact h.2.symm
    · rcases exitWith_run (α := α) (e := e) (p := p) 1 with h' | h' <;> simp only [h'] at h
      · simp at h; exact h.2.symm
      · simp at h; exact h.2.symm
  unfold childErrorExit childErrorBody at h
  simp only [bind_run, getEnv_run] at h
  have key : (do
      logWriteChild (childErrorText e code)
      closeFile i
      if o = r then (do closeFile o; raiseUsr1; exitWith 1) else (do closeFile o; closeFile r; raiseUsr1; exitWith 1) : M α)
        e p = .stop s q := by
    rw [← h]
    simp only [bind_run]
    cases logWriteChild (childErrorText e code) e p with
    | stop => rfl
    | ok a q =>
      simp only []
      cases closeFile i e q with
      | stop => rfl
      | ok a q =>
        simp only []
        split <;> simp only [bind_run]
        · cases closeFile o e q <;> rfl
        · cases closeFile o e q with
          | stop => rfl
          | ok a q =>
            simp only []
            cases closeFile r e q <;> rfl
  replace h := key
  simp only [bind_run] at h
  rcases logWriteChild_run (e := e) (p := p) (childErrorText e code) with ⟨s', n, hs, h'⟩ | ⟨n, h'⟩
  · have := logWriteChild_sig h'
    rw [h'] at h
    simp at h
    obtain ⟨rfl, rfl⟩ := h
    exact ⟨rfl, fun hn hs => absurd hs (hx _ this hn)⟩
  rw [h'] at h
  simp only at h
  have hsys : ∀ q : Proc, q.badClose = p.badClose → ClosesAll e base p.badClose (.killed SIGSYS) q :=
    fun q hq => ⟨hq, fun hn hs => absurd hs (hx _ (.inl rfl) hn)⟩
  have hfiles := hh.files
  have hnd := hh.nodup
  rw [hfiles] at hnd
  have hi : ∀ x, i = some x → x ∈ p.files := by
    rintro x rfl; rw [hfiles]; simp
  rcases closeFile_run (e := e) (p := { p with notes := n }) i hi with h' | ⟨d1, h'⟩ <;> rw [h'] at h
  · simp at h
    obtain ⟨rfl, rfl⟩ := h
    exact hsys _ rfl
  simp only at h
  by_cases hor : o = r
  · subst hor
    simp only [if_true, List.nil_append] at hfiles hnd
    have e1 : i.elim p.files (p.files.erase ·) = o.toList ++ base := by
      rw [hfiles]
      cases i <;> cases o <;> simp_all
    rw [e1] at h
    simp only [if_true, bind_run] at h
    have ho : ∀ x, o = some x → x ∈ (o.toList ++ base) := by rintro x rfl; simp
    rcases closeFile_run (e := e) (p := { p with files := o.toList ++ base, fds := d1, notes := n }) o ho with h' | ⟨d2, h'⟩ <;> rw [h'] at h
    · simp at h
      obtain ⟨rfl, rfl⟩ := h
      exact hsys _ rfl
    have e2 : o.elim (o.toList ++ base) ((o.toList ++ base).erase ·) = base := by
      cases o <;> simp
    rw [e2] at h
    simp only at h
    have := fin _ _ _ (by simp only [bind_run]; exact h)
    subst this
    exact ⟨rfl, fun _ _ => rfl⟩
  · simp only [hor, if_false] at hfiles hnd
    have e1 : i.elim p.files (p.files.erase ·) = r.toList ++ o.toList ++ base := by
      rw [hfiles]
      cases i <;> cases o <;> cases r <;> simp_all
      all_goals grind
    rw [e1] at h
    simp only [hor, if_false, bind_run] at h
    have ho : ∀ x, o = some x → x ∈ (r.toList ++ o.toList ++ base) := by rintro x rfl; simp
    rcases closeFile_run (e := e) (p := { p with files := r.toList ++ o.toList ++ base, fds := d1, notes := n }) o ho
      with h' | ⟨d2, h'⟩ <;> rw [h'] at h
    · simp at h
      obtain ⟨rfl, rfl⟩ := h
      exact hsys _ rfl
    have e2 : o.elim (r.toList ++ o.toList ++ base) ((r.toList ++ o.toList ++ base).erase ·) = r.toList ++ base := by
      cases o <;> cases r <;> simp_all
      try grind
    simp only [e2] at h
    have hr : ∀ x, r = some x → x ∈ (r.toList ++ base) := by rintro x rfl; simp
    rcases closeFile_run (e := e) (p := { p with files := r.toList ++ base, fds := d2, notes := n }) r hr
      with h' | ⟨d3, h'⟩ <;> rw [h'] at h
    · simp at h
      obtain ⟨rfl, rfl⟩ := h
      exact hsys _ rfl
    have e3 : r.elim (r.toList ++ base) ((r.toList ++ base).erase ·) = base := by
      cases r <;> simp
    rw [e3] at h
    simp only at h
    have := fin _ _ _ (by simp only [bind_run]; exact h)
    subst this
    exact ⟨rfl, fun _ _ => rfl⟩

/-- How a step of `child_process` ends: the child is lost (and the failure path closed its FILEs), or it goes on. -/
inductive Stepped {α} (e : ChildEnv) (p : Proc) (i o r : Option File) (good : α → Proc → Prop) : Step α → Prop
  | lost {s q} : FailStop e s → (∀ base, Held p base i o r → ClosesAll e base p.badClose s q) →
      Stepped e p i o r good (.stop s q)
  | cont {a q} : good a q → Stepped e p i o r good (.ok a q)

theorem closes_sys (base : List File) (p : Proc) : ClosesAll e base p.badClose (.killed SIGSYS) p := by
  refine ⟨rfl, fun _ h => ?_⟩
  simp [SIGSYS, SIGUSR1] at h

theorem Stepped.err {α} {code : CStr} {i o r : Option File} {good : α → Proc → Prop} :
    Stepped e p i o r good ((childErrorExit code i o r : M α) e p) := by
  obtain ⟨s, f, d, b, n, h, hs⟩ := childErrorExit_run (α := α) (e := e) (p := p) code i o r
  rw [h]
  exact .lost hs fun base hh => childErrorExit_closes hh h

theorem Stepped.sys {α} {i o r : Option File} {good : α → Proc → Prop} :
    Stepped e p i o r good (.stop (.killed SIGSYS) p : Step α) :=
  .lost (.inl rfl) fun base _ => closes_sys base p

theorem limitStep_step (r : Res) (w : Bool) (v : Int) :
    Stepped e p none none none (fun _ q => (w = true → e.fails (.rlimit r) = false) ∧
      q = { p with limits := fun r' => if w = true ∧ r' = r then ⟨v, v⟩ else p.limits r' }) (limitStep r w v e p) := by
  unfold limitStep
  cases w with
  | false => exact .cont ⟨by simp, by simp⟩
  | true =>
    simp only [if_true, bind_run]
    have hc := setrlimit_call (e := e) (p := p) r v
    generalize setrlimit r v e p = x at hc
    cases hc with
    | killed _ => exact .sys
    | failed _ => simp only [Bool.not_false, if_true]; exact .err
    | done h =>
      obtain ⟨rfl, h2, rfl⟩ := h
      exact .cont ⟨fun _ => h2, by simp⟩

theorem cpuStep_step (c : Config) (hub : addInt c.maxCpuTime 1000 ≠ .ub ∨ c.maxCpuTime = UNLIMITED) :
    Stepped e p none none none (fun _ q => (c.maxCpuTime ≠ UNLIMITED → e.fails (.rlimit .cpu) = false) ∧
      q = { p with limits := fun r' => if c.maxCpuTime ≠ UNLIMITED ∧ r' = .cpu then
        ⟨castU64 ((c.maxCpuTime + 1000).tdiv 1000), castU64 ((c.maxCpuTime + 1000).tdiv 1000)⟩ else p.limits r' })
      (cpuStep c e p) := by
  unfold cpuStep
  by_cases hu : c.maxCpuTime = UNLIMITED
  · rw [if_neg (by simp [hu])]
    exact .cont ⟨fun h => absurd hu h, by simp [hu]⟩
  · have hub' := hub.resolve_right hu
    have hs : addInt c.maxCpuTime 1000 = .ok (c.maxCpuTime + 1000) := by
      unfold addInt at *; split <;> simp_all
    rw [if_pos hu, hs]
    simp only [bind_run]
    have hc := setrlimit_call (e := e) (p := p) .cpu (castU64 ((c.maxCpuTime + 1000).tdiv 1000))
    generalize setrlimit .cpu (castU64 ((c.maxCpuTime + 1000).tdiv 1000)) e p = x at hc
    cases hc with
    | killed _ => exact .sys
    | failed _ => simp only [Bool.not_false, if_true]; exact .err
    | done h =>
      obtain ⟨rfl, h2, rfl⟩ := h
      exact .cont ⟨fun _ => h2, by simp [hu]⟩

/-- The FILE `fopen` returns in state `p`. -/
def newFile (p : Proc) : File := ⟨p.nextFile, p.fds.lowest⟩

/-- The state after `fopen` and `dup2(fileno(f), n)`. -/
def redirected (p : Proc) (path : CStr) (w : Bool) (n : Nat) : Proc :=
  { opened p path w with fds := (opened p path w).fds.set n ((opened p path w).fds.get p.fds.lowest) }

theorem Held.opened {p : Proc} {base : List File} {i o r : Option File} {path : CStr} {w : Bool} (h : Held p base i o r) :
    (opened p path w).files = newFile p :: ((if o = r then [] else r.toList) ++ o.toList ++ i.toList ++ base) ∧
    (opened p path w).files.Nodup ∧ (∀ f ∈ (opened p path w).files, f.id < (opened p path w).nextFile) ∧
    (newFile p) ∉ p.files := by
  have hn : newFile p ∉ p.files := fun hm => by
    have := h.fresh _ hm
    simp [newFile] at this
  refine ⟨by simp [Judger.opened, newFile, h.files], ?_, ?_, hn⟩
  · simp only [Judger.opened, List.nodup_cons]
    exact ⟨hn, h.nodup⟩
  · simp only [Judger.opened, List.mem_cons, forall_eq_or_imp]
    refine ⟨by simp, fun f hf => ?_⟩
    have := h.fresh f hf
    omega

/-- In the failure path entered after `fopen` succeeded, with the new file in slot `i`, `o` or `r`. -/
theorem Stepped.err' {α} {code : CStr} {i o r i' o' r' : Option File} {good : α → Proc → Prop} {p' : Proc}
    (hb : p'.badClose = p.badClose) (hh : ∀ base, Held p base i o r → Held p' base i' o' r') :
    Stepped e p i o r good ((childErrorExit code i' o' r' : M α) e p') := by
  obtain ⟨s, f, d, b, n, h, hs⟩ := childErrorExit_run (α := α) (e := e) (p := p') code i' o' r'
  rw [h]
  refine .lost hs fun base hh' => ?_
  rw [← hb]
  exact childErrorExit_closes (hh base hh') h

theorem Stepped.sys' {α} {i o r : Option File} {good : α → Proc → Prop} {p' : Proc} (hb : p'.badClose = p.badClose) :
    Stepped e p i o r good (.stop (.killed SIGSYS) p' : Step α) := by
  refine .lost (.inl rfl) fun base _ => ?_
  rw [← hb]
  exact closes_sys base p'

theorem inputStep_step (c : Config) :
    Stepped e p none none none (fun i q =>
      (c.inputPath = none ∧ i = none ∧ q = p) ∨
      (∃ path, c.inputPath = some path ∧ i = some (newFile p) ∧ q = redirected p path false 0 ∧
        e.fails .openInput = false ∧ e.fails .dupInput = false)) (inputStep c e p) := by
  unfold inputStep
  cases hin : c.inputPath with
  | none => exact .cont (.inl ⟨rfl, rfl, rfl⟩)
  | some path =>
    simp only [bind_run]
    have hc := fopen_call (e := e) (p := p) .openInput path false
    generalize fopen .openInput path false e p = x at hc
    cases hc with
    | killed _ => exact .sys
    | failed _ => exact .err
    | done h =>
      obtain ⟨rfl, h2, rfl⟩ := h
      simp only [bind_run]
      have hc := dup2_call (e := e) (p := opened p path false) .dupInput p.fds.lowest 0
      generalize dup2 .dupInput p.fds.lowest 0 e (opened p path false) = x at hc
      cases hc with
      | killed _ => exact .sys' rfl
      | failed _ =>
        simp only [Bool.not_false, if_true]
        rw [childErrorExit_bind]
        refine .err' rfl fun base hh => ?_
        obtain ⟨h1, h2, h3, _⟩ := hh.opened (path := path) (w := false)
        exact ⟨by simpa [newFile] using h1, h2, h3⟩
      | done h =>
        obtain ⟨rfl, h3, h4, rfl⟩ := h
        exact .cont (.inr ⟨path, rfl, rfl, rfl, h2, h3⟩)

theorem outputStep_step (c : Config) (i : Option File) :
    Stepped e p i none none (fun o q =>
      (c.outputPath = none ∧ o = none ∧ q = p) ∨
      (∃ path, c.outputPath = some path ∧ o = some (newFile p) ∧ q = redirected p path true 1 ∧
        e.fails .openOutput = false ∧ e.fails .dupOutput = false)) (outputStep c i e p) := by
  unfold outputStep
  cases hin : c.outputPath with
  | none => exact .cont (.inl ⟨rfl, rfl, rfl⟩)
  | some path =>
    simp only [bind_run]
    have hc := fopen_call (e := e) (p := p) .openOutput path true
    generalize fopen .openOutput path true e p = x at hc
    cases hc with
    | killed _ => exact .sys
    | failed _ => exact .err
    | done h =>
      obtain ⟨rfl, h2, rfl⟩ := h
      simp only [bind_run]
      have hc := dup2_call (e := e) (p := opened p path true) .dupOutput p.fds.lowest 1
      generalize dup2 .dupOutput p.fds.lowest 1 e (opened p path true) = x at hc
      cases hc with
      | killed _ => exact .sys' rfl
      | failed _ =>
        simp only [Bool.not_false, if_true]
        rw [childErrorExit_bind]
        refine .err' rfl fun base hh => ?_
        obtain ⟨h1, h2, h3, _⟩ := hh.opened (path := path) (w := true)
        exact ⟨by simpa [newFile] using h1, h2, h3⟩
      | done h =>
        obtain ⟨rfl, h3, h4, rfl⟩ := h
        exact .cont (.inr ⟨path, rfl, rfl, rfl, h2, h3⟩)

theorem errorStep_step (c : Config) (i o : Option File) (ho : ∀ path, c.outputPath = some path → o.isSome) :
    Stepped e p i o none (fun r q =>
      (c.errorPath = none ∧ r = none ∧ q = p) ∨
      (∃ path f, c.errorPath = some path ∧ c.outputPath = some path ∧ o = some f ∧ r = some f ∧
        q = { p with fds := p.fds.set 2 (p.fds.get f.fd) } ∧ (p.fds.get f.fd).isSome ∧ e.fails .dupError = false) ∨
      (∃ path, c.errorPath = some path ∧ c.outputPath ≠ some path ∧ r = some (newFile p) ∧ q = redirected p path true 2 ∧
        e.fails .openError = false ∧ e.fails .dupError = false)) (errorStep c i o e p) := by
  unfold errorStep
  cases hin : c.errorPath with
  | none => exact .cont (.inl ⟨rfl, rfl, rfl⟩)
  | some path =>
    by_cases hsame : c.outputPath = some path
    · simp only [hsame, if_true, bind_run]
      obtain ⟨f, rfl⟩ := Option.isSome_iff_exists.1 (ho _ hsame)
      simp only [pure_run, bind_run]
      have hc := dup2_call (e := e) (p := p) .dupError f.fd 2
      generalize dup2 .dupError f.fd 2 e p = x at hc
      cases hc with
      | killed _ => exact .sys
      | failed _ =>
        simp only [Bool.not_false, if_true]
        rw [childErrorExit_bind]
        exact .err' rfl fun base hh => ⟨by have := hh.files; simpa using this, hh.nodup, hh.fresh⟩
      | done h =>
        obtain ⟨rfl, h3, h4, rfl⟩ := h
        exact .cont (.inr (.inl ⟨path, f, rfl, rfl, rfl, rfl, rfl, h4, h3⟩))
    · simp only [hsame, if_false, bind_run]
      have hc := fopen_call (e := e) (p := p) .openError path true
      generalize fopen .openError path true e p = x at hc
      cases hc with
      | killed _ => exact .sys
      | failed _ =>
        simp only []
        rw [childErrorExit_bind]
        exact .err
      | done h =>
        obtain ⟨rfl, h2, rfl⟩ := h
        simp only [bind_run, pure_run]
        have hc := dup2_call (e := e) (p := opened p path true) .dupError p.fds.lowest 2
        generalize dup2 .dupError p.fds.lowest 2 e (opened p path true) = x at hc
        cases hc with
        | killed _ => exact .sys' rfl
        | failed _ =>
          simp only [Bool.not_false, if_true]
          rw [childErrorExit_bind]
          refine .err' rfl fun base hh => ?_
          obtain ⟨h1, h2, h3, h4⟩ := hh.opened (path := path) (w := true)
          refine ⟨?_, h2, h3⟩
          have hne : o ≠ some ⟨p.nextFile, p.fds.lowest⟩ := by
            rintro rfl
            apply h4
            rw [hh.files]
            simp [newFile]
          simp only [hne, if_false, h1]
          cases o <;> simp [newFile]
        | done h =>
          obtain ⟨rfl, h3, h4, rfl⟩ := h
          exact .cont (.inr (.inr ⟨path, rfl, hsame, rfl, rfl, h2, h3⟩))

theorem gidStep_step (c : Config) (i o r : Option File) :
    Stepped e p i o r (fun _ q =>
      (c.gid = castU32 (-1) ∧ q = p) ∨
      (c.gid ≠ castU32 (-1) ∧ e.fails .setgid = false ∧ e.fails .setgroups = false ∧ p.uid.e = 0 ∧
        q = { p with gid := ⟨c.gid, c.gid, c.gid⟩, groups := [c.gid] })) (gidStep c i o r e p) := by
  unfold gidStep
  by_cases hg : c.gid = castU32 (-1)
  · rw [if_neg (by simp [hg])]
    exact .cont (.inl ⟨hg, rfl⟩)
  · rw [if_pos hg]
    simp only [bind_run]
    have hc := setgid_call (e := e) (p := p) c.gid
    generalize setgid c.gid e p = x at hc
    cases hc with
    | killed _ => exact .sys
    | failed _ => simp only [Bool.not_false, if_true]; rw [childErrorExit_bind]; exact .err
    | @done _ p1 h =>
      obtain ⟨rfl, h2, h3⟩ := h
      simp only [Bool.not_true, Bool.false_eq_true, if_false, bind_run]
      have hheld : p1.badClose = p.badClose ∧ p1.files = p.files ∧ p1.nextFile = p.nextFile ∧ p1.uid = p.uid := by
        rcases h3 with ⟨_, rfl⟩ | ⟨_, _, rfl⟩ <;> exact ⟨rfl, rfl, rfl, rfl⟩
      have hc := setgroups_call (e := e) (p := p1) [c.gid]
      generalize setgroups [c.gid] e p1 = x at hc
      cases hc with
      | killed _ => exact .sys' hheld.1
      | failed _ =>
        simp only [Bool.not_false, if_true]
        refine .err' hheld.1 fun base hh => ⟨?_, ?_, ?_⟩
        · rw [hheld.2.1]; exact hh.files
        · rw [hheld.2.1]; exact hh.nodup
        · rw [hheld.2.1, hheld.2.2.1]; exact hh.fresh
      | done h =>
        obtain ⟨rfl, h4, h5, rfl⟩ := h
        rw [hheld.2.2.2] at h5
        rcases h3 with ⟨h6, rfl⟩ | ⟨h6, _, rfl⟩
        · exact .cont (.inr ⟨hg, h2, h4, h5, rfl⟩)
        · exact absurd h5 h6

theorem uidStep_step (c : Config) (i o r : Option File) :
    Stepped e p i o r (fun _ q =>
      (c.uid = castU32 (-1) ∧ q = p) ∨
      (c.uid ≠ castU32 (-1) ∧ e.fails .setuid = false ∧
        ((p.uid.e = 0 ∧ q = { p with uid := ⟨c.uid, c.uid, c.uid⟩ }) ∨
         (p.uid.e ≠ 0 ∧ (c.uid = p.uid.r ∨ c.uid = p.uid.s) ∧ q = { p with uid := { p.uid with e := c.uid } }))))
      (uidStep c i o r e p) := by
  unfold uidStep
  by_cases hg : c.uid = castU32 (-1)
  · rw [if_neg (by simp [hg])]
    exact .cont (.inl ⟨hg, rfl⟩)
  · rw [if_pos hg]
    simp only [bind_run]
    have hc := setuid_call (e := e) (p := p) c.uid
    generalize setuid c.uid e p = x at hc
    cases hc with
    | killed _ => exact .sys
    | failed _ => simp only [Bool.not_false, if_true]; exact .err
    | done h =>
      obtain ⟨rfl, h2, h3⟩ := h
      exact .cont (.inr ⟨hg, h2, h3⟩)

theorem ruleAddAll_run (us : List Rule) : ∀ (k : Nat) (ctx : Filter),
    ruleAddAll k ctx us e p = .ok none p ∧ (∃ j, j < us.length ∧ (e.fails (.scRule (k + j)) = true ∨ ∃ u ∈ us, u.action = ctx.dflt)) ∨
    (ruleAddAll k ctx us e p = .ok (some ⟨ctx.dflt, ctx.rules ++ us⟩) p ∧
      (∀ j, j < us.length → e.fails (.scRule (k + j)) = false) ∧ ∀ u ∈ us, u.action ≠ ctx.dflt) := by
  induction us with
  | nil => intro k ctx; right; simp [ruleAddAll]
  | cons u us ih =>
    intro k ctx
    unfold ruleAddAll
    simp only [bind_run, getEnv_run]
    split
    · rename_i h
      left
      refine ⟨rfl, 0, by simp, ?_⟩
      simp only [Bool.or_eq_true, beq_iff_eq] at h
      rcases h with h | h
      · left; simpa using h
      · right; exact ⟨u, by simp, h⟩
    · rename_i h
      simp only [Bool.or_eq_true, beq_iff_eq, not_or, Bool.not_eq_true] at h
      rcases ih (k + 1) { ctx with rules := ctx.rules ++ [u] } with ⟨h1, j, hj, h2⟩ | ⟨h1, h2, h3⟩
      · left
        refine ⟨h1, j + 1, by simp; omega, ?_⟩
        rcases h2 with h2 | ⟨v, hv, h2⟩
        · left; rw [← h2]; congr 2; omega
        · right; exact ⟨v, by simp [hv], h2⟩
      · right
        refine ⟨by simpa using h1, ?_, ?_⟩
        · intro j hj
          cases j with
          | zero => simpa using h.1
          | succ j => have := h2 j (by simp at hj; omega); rw [← this]; congr 2; omega
        · intro v hv
          simp only [List.mem_cons] at hv
          rcases hv with rfl | hv
          · exact h.2
          · exact h3 v hv

/-- What loading rules may do: be killed by an inherited filter, fail (perhaps having set no_new_privs), or install exactly
these rules. -/
theorem loadRules_run (dflt : Action) (rules : List Rule) :
    (∃ n, loadRules dflt rules e p = .stop (.killed SIGSYS) { p with noNewPrivs := n }) ∨
    (∃ n, loadRules dflt rules e p = .ok (-6) { p with noNewPrivs := n }) ∨
    (loadRules dflt rules e p = .ok 0 { p with noNewPrivs := true, filters := ⟨dflt, rules⟩ :: p.filters } ∧
      e.fails .scInit = false ∧ (∀ j, j < rules.length → e.fails (.scRule j) = false) ∧ e.fails .scLoad = false) := by
  unfold loadRules
  simp only [bind_run, getEnv_run]
  cases hi : e.fails .scInit with
  | true => exact .inr (.inl ⟨p.noNewPrivs, rfl⟩)
  | false =>
    simp only [Bool.false_eq_true, if_false, bind_run]
    rcases ruleAddAll_run (e := e) (p := p) rules 0 ⟨dflt, []⟩ with ⟨h, _⟩ | ⟨h, h2, h3⟩ <;> rw [h]
    · exact .inr (.inl ⟨p.noNewPrivs, rfl⟩)
    simp only [bind_run, seccompLoad, getEnv_run, List.nil_append]
    rcases enter_cases (e := e) (p := p) (Req.mk' NR_prctl [38, 1, 0, 0, 0]) with ⟨_, h⟩ | h | ⟨_, h⟩ <;> rw [h]
    · exact .inl ⟨p.noNewPrivs, rfl⟩
    · exact .inr (.inl ⟨p.noNewPrivs, rfl⟩)
    simp only [if_true, bind_run, modify_run]
    rcases attempt_cases (e := e) (p := { p with noNewPrivs := true }) .scLoad (Req.mk' NR_seccomp [1, 0, e.bufAddr])
      with ⟨_, h⟩ | h | ⟨_, h4, h⟩ <;> rw [h]
    · exact .inl ⟨true, rfl⟩
    · exact .inr (.inl ⟨true, rfl⟩)
    · refine .inr (.inr ⟨rfl, trivial, ?_, h4⟩)
      intro j hj
      simpa using h2 j hj

/-- The filter that belongs to a rule name. -/
def profileOf (e : ChildEnv) (name : CStr) : Option Filter :=
  if name = c!"c_cpp" then some (cCppFilter e.exeAddr)
  else if name = c!"c_cpp_file_io" then some (cCppFileIoFilter e.exeAddr)
  else if name = c!"general" then some (generalFilter e.exeAddr e.hasExecveat)
  else if name = c!"golang" then some (golangFilter e.hasExecveat)
  else if name = c!"node" then some (nodeFilter e.hasExecveat)
  else none

theorem namedRules_run (name : CStr) :
    (∃ n, namedRules name e p = .stop (.killed SIGSYS) { p with noNewPrivs := n }) ∨
    (∃ n, namedRules name e p = .ok (-6) { p with noNewPrivs := n }) ∨
    (∃ f, profileOf e name = some f ∧
      namedRules name e p = .ok 0 { p with noNewPrivs := true, filters := f :: p.filters } ∧
      e.fails .scInit = false ∧ (∀ j, j < f.rules.length → e.fails (.scRule j) = false) ∧ e.fails .scLoad = false) := by
  have key : ∀ (g : M Int) (d : Action) (rs : List Rule), g e p = loadRules d rs e p → 
    (∃ n, g e p = .stop (.killed SIGSYS) { p with noNewPrivs := n }) ∨
    (∃ n, g e p = .ok (-6) { p with noNewPrivs := n }) ∨
    (g e p = .ok 0 { p with noNewPrivs := true, filters := ⟨d, rs⟩ :: p.filters } ∧
      e.fails .scInit = false ∧ (∀ j, j < rs.length → e.fails (.scRule j) = false) ∧ e.fails .scLoad = false) := by
    intro g d rs h
    rw [h]
    exact loadRules_run d rs
  unfold namedRules profileOf
  split
  · rcases key cCppSeccompRules .kill (cCppRules e.exeAddr false) rfl with h | h | h
    · exact .inl h
    · exact .inr (.inl h)
    · exact .inr (.inr ⟨_, rfl, h⟩)
  split
  · rcases key cCppFileIoSeccompRules .kill (cCppRules e.exeAddr true) rfl with h | h | h
    · exact .inl h
    · exact .inr (.inl h)
    · exact .inr (.inr ⟨_, rfl, h⟩)
  split
  · rcases key generalSeccompRules .allow (generalRules e.exeAddr e.hasExecveat) rfl with h | h | h
    · exact .inl h
    · exact .inr (.inl h)
    · exact .inr (.inr ⟨_, rfl, h⟩)
  split
  · rcases key golangSeccompRules .allow (golangRules e.hasExecveat) rfl with h | h | h
    · exact .inl h
    · exact .inr (.inl h)
    · exact .inr (.inr ⟨_, rfl, h⟩)
  split
  · rcases key nodeSeccompRules .allow (nodeRules e.hasExecveat) rfl with h | h | h
    · exact .inl h
    · exact .inr (.inl h)
    · exact .inr (.inr ⟨_, rfl, h⟩)
  · exact .inr (.inl ⟨p.noNewPrivs, rfl⟩)

theorem seccompStep_step (c : Config) (i o r : Option File) :
    Stepped e p i o r (fun _ q =>
      (c.seccompRuleName = none ∧ q = p) ∨
      (∃ name f, c.seccompRuleName = some name ∧ profileOf e name = some f ∧
        q = { p with noNewPrivs := true, filters := f :: p.filters } ∧
        e.fails .scInit = false ∧ (∀ j, j < f.rules.length → e.fails (.scRule j) = false) ∧ e.fails .scLoad = false))
      (seccompStep c i o r e p) := by
  unfold seccompStep
  cases hn : c.seccompRuleName with
  | none => exact .cont (.inl ⟨rfl, rfl⟩)
  | some name =>
    simp only [bind_run]
    rcases namedRules_run (e := e) (p := p) name with ⟨n, h⟩ | ⟨n, h⟩ | ⟨f, h1, h2, h3⟩
    · rw [h]; exact .sys' rfl
    · rw [h]
      have : (-6 : Int) ≠ SUCCESS := by decide
      simp only [this, ne_eq, not_false_eq_true, if_true]
      exact .err' rfl fun base hh => ⟨hh.files, hh.nodup, hh.fresh⟩
    · rw [h2]
      exact .cont (.inr ⟨name, f, rfl, h1, rfl, h3⟩)

/-! ## The whole of `child_process` -/

theorem Stepped.rebase {α} {i o r i' o' r' : Option File} {good : α → Proc → Prop} {x : Step α} {p' : Proc}
    (h : Stepped e p' i' o' r' good x) (hb : p'.badClose = p.badClose)
    (hh : ∀ base, Held p base i o r → Held p' base i' o' r') : Stepped e p i o r good x := by
  cases h with
  | lost h1 h2 => exact .lost h1 fun base hx => by rw [← hb]; exact h2 base (hh base hx)
  | cont h => exact .cont h

theorem Stepped.bind {α β} {i o r : Option File} {good : α → Proc → Prop} {good' : β → Proc → Prop} {m : M α} {f : α → M β}
    (h : Stepped e p i o r good (m e p)) (hf : ∀ a q, good a q → Stepped e p i o r good' (f a e q)) :
    Stepped e p i o r good' ((m >>= f) e p) := by
  rw [bind_run]
  generalize m e p = x at h
  cases h with
  | lost h1 h2 => exact .lost h1 h2
  | cont h => exact hf _ _ h

/-- The limits after child.c:37-82. -/
def limitsAfter (c : Config) (l : Res → RLimit) : Res → RLimit
  | .stack => if c.maxStack ≠ UNLIMITED then ⟨castU64 c.maxStack, castU64 c.maxStack⟩ else l .stack
  | .as => if c.memoryLimitCheckOnly = 0 ∧ c.maxMemory ≠ UNLIMITED then
      ⟨castU64 (castU64 c.maxMemory * 2), castU64 (castU64 c.maxMemory * 2)⟩ else l .as
  | .cpu => if c.maxCpuTime ≠ UNLIMITED then
      ⟨castU64 ((c.maxCpuTime + 1000).tdiv 1000), castU64 ((c.maxCpuTime + 1000).tdiv 1000)⟩ else l .cpu
  | .nproc => if c.maxProcessNumber ≠ UNLIMITED then ⟨castU64 c.maxProcessNumber, castU64 c.maxProcessNumber⟩ else l .nproc
  | .fsize => if c.maxOutputSize ≠ UNLIMITED then ⟨castU64 c.maxOutputSize, castU64 c.maxOutputSize⟩ else l .fsize

def afterInput (c : Config) (p : Proc) : Option File × Proc :=
  match c.inputPath with
  | none => (none, p)
  | some path => (some (newFile p), redirected p path false 0)

def afterOutput (c : Config) (p : Proc) : Option File × Proc :=
  match c.outputPath with
  | none => (none, p)
  | some path => (some (newFile p), redirected p path true 1)

def afterError (c : Config) (o : Option File) (p : Proc) : Option File × Proc :=
  match c.errorPath with
  | none => (none, p)
  | some path =>
    if c.outputPath = some path then (o, { p with fds := p.fds.set 2 (p.fds.get (o.elim 0 (·.fd))) })
    else (some (newFile p), redirected p path true 2)

def afterGid (c : Config) (p : Proc) : Proc :=
  if c.gid = castU32 (-1) then p else { p with gid := ⟨c.gid, c.gid, c.gid⟩, groups := [c.gid] }

def afterUid (c : Config) (p : Proc) : Proc :=
  if c.uid = castU32 (-1) then p
  else if p.uid.e = 0 then { p with uid := ⟨c.uid, c.uid, c.uid⟩ }
  else { p with uid := { p.uid with e := c.uid } }

def afterSeccomp (c : Config) (e : ChildEnv) (p : Proc) : Proc :=
  match c.seccompRuleName with
  | none => p
  | some name =>
    match profileOf e name with
    | none => p
    | some f => { p with noNewPrivs := true, filters := f :: p.filters }

/-- The state in which `child_process` calls `execve` when every step worked. -/
def stateAtExec (c : Config) (e : ChildEnv) (p : Proc) : Proc :=
  let p := { p with limits := limitsAfter c p.limits }
  let p := (afterInput c p).2
  let a := afterOutput c p
  let p := (afterError c a.1 a.2).2
  afterSeccomp c e (afterUid c (afterGid c p))

/-- The steps the configuration asks for worked. -/
structure StepsOk (c : Config) (e : ChildEnv) (p : Proc) : Prop where
  stack : c.maxStack ≠ UNLIMITED → e.fails (.rlimit .stack) = false
  as : c.memoryLimitCheckOnly = 0 ∧ c.maxMemory ≠ UNLIMITED → e.fails (.rlimit .as) = false
  cpu : c.maxCpuTime ≠ UNLIMITED → e.fails (.rlimit .cpu) = false
  nproc : c.maxProcessNumber ≠ UNLIMITED → e.fails (.rlimit .nproc) = false
  fsize : c.maxOutputSize ≠ UNLIMITED → e.fails (.rlimit .fsize) = false
  input : c.inputPath ≠ none → e.fails .openInput = false ∧ e.fails .dupInput = false
  output : c.outputPath ≠ none → e.fails .openOutput = false ∧ e.fails .dupOutput = false
  error : c.errorPath ≠ none → (c.outputPath ≠ c.errorPath → e.fails .openError = false) ∧ e.fails .dupError = false
  gid : c.gid ≠ castU32 (-1) → e.fails .setgid = false ∧ e.fails .setgroups = false ∧ p.uid.e = 0
  uid : c.uid ≠ castU32 (-1) → e.fails .setuid = false ∧ (p.uid.e = 0 ∨ c.uid = p.uid.r ∨ c.uid = p.uid.s)
  seccomp : ∀ name, c.seccompRuleName = some name → ∃ f, profileOf e name = some f ∧ e.fails .scInit = false ∧
    (∀ j, j < f.rules.length → e.fails (.scRule j) = false) ∧ e.fails .scLoad = false

/-- child.c:34-172, everything before `execve`. -/
def childSetup (c : Config) : M (Option File × Option File × Option File) := do
  limitStep .stack (c.maxStack ≠ UNLIMITED) (castU64 c.maxStack)
  limitStep .as (c.memoryLimitCheckOnly = 0 ∧ c.maxMemory ≠ UNLIMITED) (castU64 (castU64 c.maxMemory * 2))
  cpuStep c
  limitStep .nproc (c.maxProcessNumber ≠ UNLIMITED) (castU64 c.maxProcessNumber)
  limitStep .fsize (c.maxOutputSize ≠ UNLIMITED) (castU64 c.maxOutputSize)
  let input ← inputStep c
  let output ← outputStep c input
  let error ← errorStep c input output
  gidStep c input output error
  uidStep c input output error
  seccompStep c input output error
  return (input, output, error)

theorem bind_assoc_M {α β γ : Type} (m : M α) (f : α → M β) (g : β → M γ) : ((m >>= f) >>= g) = (m >>= fun a => f a >>= g) := by
  funext e p
  exact bind_assoc_run

theorem pure_bind_M {α β : Type} (a : α) (f : α → M β) : ((pure a : M α) >>= f) = f a := rfl

theorem childProcess_eq (c : Config) : childProcess c e p =
    (do
      let (i, o, r) ← childSetup c
      execve c.exePath c.args c.env
      childErrorExit c!"EXECVE_FAILED" i o r : M Unit) e p := by
  unfold childProcess childSetup
  simp only [bind_assoc_M, pure_bind_M]

end Judger
