import Verif.Lemmas.Child2

/-! # The child without hostile surroundings: failures end in SIGUSR1, and without failures the program starts -/

set_option autoImplicit false

namespace Judger

open M

variable {e : ChildEnv} {p q : Proc} {Q : Prop} {n0 : List CStr}

/-- The calls of the failure path get through the filters. -/
def PathOpen (fs : List Filter) : Prop :=
  ∀ r : Req, r.native = true →
    r.nr ∈ [NR_write, NR_close, NR_rt_sigprocmask, NR_getpid, NR_flock, NR_gettid, NR_exit_group, NR_tgkill] →
    evalAll fs r = .allow

/-- Nothing outside the judger can get in the way of reporting a failure: SIGUSR1 is deadly, writing a note to stderr does
not kill, the lock of the time zone is free, the log can take another entry under the current file-size limit, no filter stops the failure path. -/
structure Quiet (e : ChildEnv) (p : Proc) : Prop where
  usr1 : p.deadly SIGUSR1 = true
  stderr : e.stderrKills = none ∧ (e.log = none ∨ e.clockHeld = false)
  log : e.log = none ∨ e.logRegular = false ∨ (e.logSize : Int) < (p.limits .fsize).cur
  path : PathOpen p.filters

theorem enter_open {nr : Nat} {args : List (BitVec 64)} (hp : PathOpen p.filters)
    (h : nr ∈ [NR_write, NR_close, NR_rt_sigprocmask, NR_getpid, NR_flock, NR_gettid, NR_exit_group, NR_tgkill]) :
    enter (Req.mk' nr args) e p = .ok true p := by
  rw [enter_run, hp (Req.mk' nr args) rfl h]

theorem attempt_open {s : Site} {nr : Nat} {args : List (BitVec 64)} (hp : PathOpen p.filters)
    (h : nr ∈ [NR_write, NR_close, NR_rt_sigprocmask, NR_getpid, NR_flock, NR_gettid, NR_exit_group, NR_tgkill]) :
    attempt s (Req.mk' nr args) e p = .ok (!e.fails s) p := by
  rw [attempt_run, hp (Req.mk' nr args) rfl h]

theorem noteStderr_quiet (h : Quiet e p) : noteStderr e p = .ok () p := by
  unfold noteStderr
  simp only [bind_run, getEnv_run, enter_open h.path (nr := NR_write) (by decide), h.stderr.1]
  rfl

/-- Locking and writing the log work. -/
def LogWorks (e : ChildEnv) : Prop := e.log ≠ none ∧ e.fails .logLock = false ∧ e.fails .logWrite = false

theorem logWriteChild_quiet (h : Quiet e p) (msg : CStr) :
    ∃ n, logWriteChild msg e p = .ok () { p with notes := n } ∧ (LogWorks e → n = msg :: p.notes) := by
  unfold logWriteChild
  simp only [bind_run, getEnv_run]
  cases hl : e.log with
  | none => exact ⟨p.notes, noteStderr_quiet h, fun hw => absurd hl hw.1⟩
  | some f =>
    have hck : e.clockHeld = false := h.stderr.2.resolve_left (by simp [hl])
    simp only [bind_run, localTime_run, hck, Bool.false_eq_true, if_false, attempt_open h.path (nr := NR_flock) (by decide)]
    split
    · simp only [bind_run, enter_open h.path (nr := NR_write) (by decide), getProc_run, Bool.true_and]
      have : (e.logRegular && decide ((p.limits .fsize).cur ≤ e.logSize)) = false := by
        rcases h.log with h | h | h
        · rw [hl] at h; cases h
        · simp [h]
        · simp only [Bool.and_eq_false_iff, decide_eq_false_iff_not]; right; omega
      simp only [this, Bool.false_and, Bool.false_eq_true, if_false, Bool.not_false, Bool.true_and]
      split
      · simp only [bind_run, modify_run]
        rw [attempt_open (p := { p with notes := msg :: p.notes }) h.path (nr := NR_flock) (by decide)]
        exact ⟨_, rfl, fun _ => rfl⟩
      · rename_i hw
        exact ⟨p.notes, noteStderr_quiet h, fun hw' => by simp [hw'.2.2] at hw⟩
    · rename_i hw
      exact ⟨p.notes, noteStderr_quiet h, fun hw' => by simp [hw'.2.1] at hw⟩

theorem closeFile_quiet (h : Quiet e p) (f : Option File) :
    ∃ q, closeFile f e p = .ok () q ∧ Quiet e q ∧ q.notes = p.notes := by
  cases f with
  | none => exact ⟨p, rfl, h, rfl⟩
  | some f =>
    unfold closeFile fclose
    simp only [bind_run, getProc_run]
    split
    · simp only [bind_run, enter_open h.path (nr := NR_close) (by decide)]
      exact ⟨_, rfl, ⟨h.usr1, h.stderr, h.log, h.path⟩, rfl⟩
    · exact ⟨_, rfl, ⟨h.usr1, h.stderr, h.log, h.path⟩, rfl⟩

theorem raiseUsr1_quiet (h : Quiet e p) : raiseUsr1 e p = .stop (.killed SIGUSR1) p := by
  unfold raiseUsr1 plain
  simp only [bind_run, getEnv_run, enter_open h.path (nr := NR_rt_sigprocmask) (by decide),
    enter_open h.path (nr := NR_getpid) (by decide), enter_open h.path (nr := NR_gettid) (by decide),
    enter_open h.path (nr := NR_tgkill) (by decide), pure_run, getProc_run, h.usr1]
  rfl

/-- In quiet surroundings the failure path ends in SIGUSR1, and its message is in the log if the log works. -/
theorem childErrorExit_quiet {α} (h : Quiet e p) (code : CStr) (i o r : Option File) :
    ∃ q, (childErrorExit code i o r : M α) e p = .stop (.killed SIGUSR1) q ∧
      (LogWorks e → q.notes = childErrorText e code :: p.notes) := by
  unfold childErrorExit
  rw [bind_run]
  have : ∃ q, childErrorBody code i o r e p = .stop (.killed SIGUSR1) q ∧
      (LogWorks e → q.notes = childErrorText e code :: p.notes) := by
    unfold childErrorBody
    obtain ⟨n, hl, hn⟩ := logWriteChild_quiet h (childErrorText e code)
    simp only [bind_run, getEnv_run]
    rw [hl]
    have h0 : Quiet e { p with notes := n } := ⟨h.usr1, h.stderr, h.log, h.path⟩
    obtain ⟨p1, h1, q1, n1⟩ := closeFile_quiet h0 i
    simp only [h1]
    split
    · obtain ⟨p2, h2, q2, n2⟩ := closeFile_quiet q1 o
      rw [bind_run, h2]
      exact ⟨_, raiseUsr1_quiet q2, fun hw => by rw [n2, n1]; exact hn hw⟩
    · obtain ⟨p2, h2, q2, n2⟩ := closeFile_quiet q1 o
      obtain ⟨p3, h3, q3, n3⟩ := closeFile_quiet q2 r
      rw [bind_run, h2]
      simp only []
      rw [bind_run, h3]
      exact ⟨_, raiseUsr1_quiet q3, fun hw => by rw [n3, n2, n1]; exact hn hw⟩
  obtain ⟨q, hq, hn⟩ := this
  rw [hq]
  exact ⟨q, rfl, hn⟩

/-- Every state this can end in satisfies `R`. -/
def After {α} (R : Proc → Prop) : Step α → Prop
  | .stop _ q => R q
  | .ok _ q => R q

theorem After.bind {α β} {R : Proc → Prop} {m : M α} {f : α → M β} (h : After R (m e p))
    (hf : ∀ a q, R q → After R (f a e q)) : After R ((m >>= f) e p) := by
  rw [bind_run]
  generalize m e p = x at h
  cases x with
  | stop s q => exact h
  | ok a q => exact hf a q h

/-- The log holds what it held, or one message more. -/
def Noted (n : List CStr) (msg : CStr) (q : Proc) : Prop := q.notes = n ∨ q.notes = msg :: n

theorem noteStderr_noted (msg : CStr) : After (Noted p.notes msg) (noteStderr e p) := by
  rcases noteStderr_run (e := e) (p := p) with ⟨s, _, h⟩ | h <;> rw [h] <;> exact .inl rfl

theorem logWriteChild_noted (msg : CStr) : After (Noted p.notes msg) (logWriteChild msg e p) := by
  unfold logWriteChild
  simp only [bind_run, getEnv_run]
  cases hl : e.log with
  | none => exact noteStderr_noted msg
  | some f =>
    simp only [bind_run, localTime_run]
    cases hc : e.clockHeld with
    | true => exact .inl rfl
    | false =>
    simp only [Bool.false_eq_true, if_false]
    rcases attempt_cases (e := e) (p := p) .logLock (Req.mk' NR_flock [argOf f.fd, 2]) with ⟨_, h⟩ | h | ⟨_, _, h⟩ <;> rw [h]
    · exact .inl rfl
    · exact noteStderr_noted msg
    · simp only [if_true, bind_run]
      rcases enter_cases (e := e) (p := p) (Req.mk' NR_write [argOf f.fd, e.bufAddr, 100]) with ⟨_, h⟩ | h | ⟨_, h⟩ <;> rw [h]
      · exact .inl rfl
      · simp only [getProc_run, Bool.false_and, Bool.false_eq_true, if_false]
        exact noteStderr_noted msg
      · simp only [getProc_run, Bool.true_and]
        split
        · exact .inl rfl
        · split
          · simp only [bind_run, modify_run]
            rcases attempt_cases (e := e) (p := { p with notes := msg :: p.notes }) .logUnlock (Req.mk' NR_flock [argOf f.fd, 8])
              with ⟨_, h⟩ | h | ⟨_, _, h⟩ <;> rw [h] <;> exact .inr rfl
          · exact noteStderr_noted msg

theorem closeFile_noted {n : List CStr} {msg : CStr} (f : Option File) (h : Noted n msg p) :
    After (Noted n msg) (closeFile f e p) := by
  rcases closeFile_any (e := e) (p := p) f with hc | ⟨f1, d1, b1, hc⟩ <;> rw [hc] <;> exact h

/-- `CHILD_ERROR_EXIT` writes at most its own message to the log. -/
theorem childErrorExit_noted {α} (code : CStr) (i o r : Option File) :
    After (Noted p.notes (childErrorText e code)) ((childErrorExit code i o r : M α) e p) := by
  unfold childErrorExit childErrorBody
  refine .bind ?_ fun _ q hq => ?_
  · rw [bind_run, getEnv_run]
    refine .bind (logWriteChild_noted _) fun _ q1 h1 => .bind (closeFile_noted i h1) fun _ q2 h2 => ?_
    have fin : ∀ q, Noted p.notes (childErrorText e code) q →
        After (Noted p.notes (childErrorText e code)) (raiseUsr1 e q) := by
      intro q hq
      rcases raiseUsr1_run (e := e) (p := q) with ⟨s, _, h⟩ | h <;> rw [h] <;> exact hq
    split
    · exact .bind (closeFile_noted o h2) fun _ q3 h3 => fin q3 h3
    · exact .bind (closeFile_noted o h2) fun _ q3 h3 => .bind (closeFile_noted r h3) fun _ q4 h4 => fin q4 h4
  · rcases exitWith_run (α := α) (e := e) (p := q) 1 with h | h <;> rw [h] <;> exact hq

/-- A step: it goes on, or — only if `ok` does not hold — the process stops, by SIGUSR1 if the surroundings are quiet
(`Q`); the log then holds at most one message more than before (`n0`), with an error code satisfying `B`. -/
inductive Clean {α} (e : ChildEnv) (n0 : List CStr) (Q ok : Prop) (B : CStr → Prop) (good : α → Proc → Prop) : Step α → Prop
  | usr1 {s : Stop} {q : Proc} : ¬ ok → (q.notes = n0 ∨ ∃ code, B code ∧ q.notes = childErrorText e code :: n0) →
    (Q → s = .killed SIGUSR1 ∧ (LogWorks e → q.notes ≠ n0)) → Clean e n0 Q ok B good (.stop s q)
  | cont {a : α} {q : Proc} : good a q → Clean e n0 Q ok B good (.ok a q)

theorem Clean.err {α} {Q ok : Prop} {good : α → Proc → Prop} {code : CStr} (h : Q → Quiet e p) (h0 : p.notes = n0)
    (hn : ¬ ok) (i o r : Option File) :
    Clean e n0 Q ok (· = code) good ((childErrorExit code i o r : M α) e p) := by
  obtain ⟨s, f, d, b, n, hs, _⟩ := childErrorExit_run (α := α) (e := e) (p := p) code i o r
  have hm := childErrorExit_noted (α := α) (e := e) (p := p) code i o r
  rw [hs] at hm ⊢
  refine .usr1 hn ?_ fun hQ => ?_
  · rcases hm with hm | hm
    · exact .inl (hm.trans h0)
    · exact .inr ⟨code, rfl, h0 ▸ hm⟩
  · obtain ⟨q, hq, hn⟩ := childErrorExit_quiet (α := α) (h hQ) code i o r
    rw [hq] at hs
    cases hs
    refine ⟨rfl, fun hw => ?_⟩
    rw [hn hw, h0]
    exact List.cons_ne_self _ _

theorem Clean.bind {α β} {Q ok : Prop} {B : CStr → Prop} {good : α → Proc → Prop} {good' : β → Proc → Prop} {m : M α} {f : α → M β}
    (h : Clean e n0 Q ok B good (m e p)) (hf : ∀ a q, good a q → Clean e n0 Q ok B good' (f a e q)) :
    Clean e n0 Q ok B good' ((m >>= f) e p) := by
  rw [bind_run]
  generalize m e p = x at h
  cases h with
  | usr1 h h' h'' => exact .usr1 h h' h''
  | cont h => exact hf _ _ h

theorem Clean.mono {α} {Q ok ok' : Prop} {B B' : CStr → Prop} {good : α → Proc → Prop} {x : Step α}
    (h : Clean e n0 Q ok B good x) (hi : ok' → ok) (hB : ∀ code, ¬ ok → B code → B' code) : Clean e n0 Q ok' B' good x := by
  cases h with
  | usr1 h hm hq => exact .usr1 (fun h' => h (hi h')) (hm.imp_right fun ⟨code, hb, hm⟩ => ⟨code, hB code h hb, hm⟩) hq
  | cont h => exact .cont h

theorem pathOpen_nil : PathOpen [] := fun _ _ _ => rfl

theorem no_kill (h : p.filters = []) : ¬ ∃ r, evalAll p.filters r = .kill := by
  rintro ⟨r, hr⟩; rw [h] at hr; cases hr

theorem no_errno (h : p.filters = []) : ¬ ∃ r n, evalAll p.filters r = .errno n := by
  rintro ⟨r, n, hr⟩; rw [h] at hr; cases hr

/-- The state stays quiet and unfiltered, and nothing has been logged. -/
structure Calm (Q : Prop) (e : ChildEnv) (n0 : List CStr) (p : Proc) : Prop where
  quiet : Q → Quiet e p
  nofilter : p.filters = []
  notes : p.notes = n0

theorem limitStep_calm (h : Calm Q e n0 p) (r : Res) (w : Bool) (v : Int)
    (hv : r = .fsize → w = true → Q → e.log = none ∨ e.logRegular = false ∨ (e.logSize : Int) < v) :
    Clean e n0 Q (w = true → e.fails (.rlimit r) = false ∧ p.uid.e = 0) (· = c!"SETRLIMIT_FAILED") (fun _ q => Calm Q e n0 q ∧ q.uid = p.uid ∧ (w = true → e.fails (.rlimit r) = false))
      (limitStep r w v e p) := by
  unfold limitStep
  cases w with
  | false => exact .cont ⟨h, rfl, by simp⟩
  | true =>
    simp only [if_true, bind_run]
    have hc := setrlimit_call (e := e) (p := p) r v
    generalize setrlimit r v e p = x at hc
    cases hc with
    | killed hk => exact absurd hk (no_kill h.nofilter)
    | failed hk =>
      simp only [Bool.not_false, if_true]
      refine .err h.quiet h.notes (fun hn => ?_) _ _ _
      rcases hk with hk | hk | hk
      · exact no_errno h.nofilter hk
      · rw [(hn trivial).1] at hk; cases hk
      · exact hk (hn trivial).2
    | done hd =>
      obtain ⟨rfl, h2, rfl⟩ := hd
      refine .cont ⟨⟨fun hQ => ⟨(h.quiet hQ).usr1, (h.quiet hQ).stderr, ?_, (h.quiet hQ).path⟩, h.nofilter, h.notes⟩, rfl, fun _ => h2⟩
      by_cases hr : r = .fsize
      · subst hr; simpa using hv rfl rfl hQ
      · have := (h.quiet hQ).log
        have hne : Res.fsize ≠ r := fun h => hr h.symm
        simpa [hne] using this

theorem cpuStep_calm (h : Calm Q e n0 p) (c : Config) (hub : addInt c.maxCpuTime 1000 ≠ .ub ∨ c.maxCpuTime = UNLIMITED) :
    Clean e n0 Q (c.maxCpuTime ≠ UNLIMITED → e.fails (.rlimit .cpu) = false ∧ p.uid.e = 0) (· = c!"SETRLIMIT_FAILED") (fun _ q => Calm Q e n0 q ∧ q.uid = p.uid ∧
        (c.maxCpuTime ≠ UNLIMITED → e.fails (.rlimit .cpu) = false))
      (cpuStep c e p) := by
  have hl := limitStep_calm h .cpu (c.maxCpuTime ≠ UNLIMITED) (castU64 ((c.maxCpuTime + 1000).tdiv 1000)) (by simp)
  have : cpuStep c e p = limitStep .cpu (c.maxCpuTime ≠ UNLIMITED) (castU64 ((c.maxCpuTime + 1000).tdiv 1000)) e p := by
    unfold cpuStep limitStep
    by_cases hu : c.maxCpuTime = UNLIMITED
    · rw [if_neg (by simp [hu]), if_neg (by simp [hu])]
    · have hub' := hub.resolve_right hu
      have hs : addInt c.maxCpuTime 1000 = .ok (c.maxCpuTime + 1000) := by
        unfold addInt at *; split <;> simp_all
      rw [if_pos hu, hs, if_pos (by simp [hu])]
  rw [this]
  simpa using hl

theorem FdTable.get_set (t : FdTable) (n m : Nat) (v : Option Nat) :
    (t.set n v).get m = if m = n then v else t.get m := by
  unfold FdTable.get FdTable.set
  split
  · rename_i h
    by_cases hm : m = n
    · subst hm; simp [h]
    · simp [hm, Ne.symm hm]
  · rename_i h
    by_cases hm : m = n
    · subst hm
      have hl : (t ++ List.replicate (m - t.length) none).length = m := by simp; omega
      rw [List.getElem?_append_right (by omega), hl]
      simp
    · simp only [hm, if_false]
      by_cases h1 : m < t.length
      · rw [List.append_assoc, List.getElem?_append_left h1]
      · by_cases h2 : m < n
        · rw [List.getElem?_append_left (by simp; omega), List.getElem?_append_right (by omega), List.getElem?_replicate]
          have : t[m]? = none := by simp; omega
          rw [this]
          split <;> simp
        · have e1 : t[m]? = none := by simp; omega
          have e2 : (t ++ List.replicate (n - t.length) none ++ [v])[m]? = none := by simp; omega
          rw [e1, e2]

theorem FdTable.get_lowest (t : FdTable) : t.get t.lowest = none := by
  unfold FdTable.get FdTable.lowest
  by_cases h : t.findIdx (·.isNone) < t.length
  · rw [List.getElem?_eq_getElem h]
    have := List.findIdx_getElem (w := h)
    simpa using this
  · rw [List.getElem?_eq_none (by omega)]; rfl

theorem FdTable.lowest_le (t : FdTable) (n : Nat) (h : t.get n = none) : t.lowest ≤ n := by
  unfold FdTable.lowest
  by_cases hn : n < t.length
  · refine Nat.le_of_not_lt fun hlt => ?_
    have := List.not_of_lt_findIdx hlt
    unfold FdTable.get at h
    rw [List.getElem?_eq_getElem hn] at h
    simp at h
    simp [h] at this
  · have : t.findIdx (·.isNone) ≤ t.length := List.findIdx_le_length
    omega

theorem opened_get (path : CStr) (w : Bool) (n : Nat) :
    (opened p path w).fds.get n = if n = p.fds.lowest then some p.ofds.length else p.fds.get n := by
  simp [opened, FdTable.get_set]

theorem inputStep_calm (h : Calm Q e n0 p) (c : Config) :
    Clean e n0 Q (c.inputPath ≠ none → e.fails .openInput = false ∧ e.fails .dupInput = false)
      (· = c!"DUP2_FAILED") (fun _ q => Calm Q e n0 q ∧ q.uid = p.uid ∧
        (c.inputPath ≠ none → e.fails .openInput = false ∧ e.fails .dupInput = false)) (inputStep c e p) := by
  unfold inputStep
  cases hin : c.inputPath with
  | none => exact .cont ⟨h, rfl, by simp⟩
  | some path =>
    simp only [bind_run]
    have hc := fopen_call (e := e) (p := p) .openInput path false
    generalize fopen .openInput path false e p = x at hc
    cases hc with
    | killed hk => exact absurd hk (no_kill h.nofilter)
    | failed hk =>
      refine .err h.quiet h.notes (fun hn => ?_) _ _ _
      rcases hk with hk | hk
      · exact no_errno h.nofilter hk
      · rw [(hn (by simp)).1] at hk; cases hk
    | done hd =>
      obtain ⟨rfl, h2, rfl⟩ := hd
      have h' : Calm Q e n0 (opened p path false) := ⟨fun hQ => ⟨(h.quiet hQ).usr1, (h.quiet hQ).stderr, (h.quiet hQ).log, (h.quiet hQ).path⟩, h.nofilter, h.notes⟩
      simp only [bind_run]
      have hc := dup2_call (e := e) (p := opened p path false) .dupInput p.fds.lowest 0
      generalize dup2 .dupInput p.fds.lowest 0 e (opened p path false) = x at hc
      cases hc with
      | killed hk => exact absurd hk (no_kill h'.nofilter)
      | failed hk =>
        simp only [Bool.not_false, if_true]
        rw [childErrorExit_bind]
        refine .err h'.quiet h'.notes (fun hn => ?_) _ _ _
        rcases hk with hk | hk | hk
        · exact no_errno h'.nofilter hk
        · rw [(hn (by simp)).2] at hk; cases hk
        · simp [opened_get] at hk
      | done hd =>
        obtain ⟨rfl, h3, _, rfl⟩ := hd
        exact .cont ⟨⟨fun hQ => ⟨(h.quiet hQ).usr1, (h.quiet hQ).stderr, (h.quiet hQ).log, (h.quiet hQ).path⟩, h.nofilter, h.notes⟩, rfl, fun _ => ⟨h2, h3⟩⟩

/-- After `outputStep`, the descriptor of the output FILE is open. -/
def OutOpen (c : Config) (o : Option File) (p : Proc) : Prop :=
  ∀ path, c.outputPath = some path → ∃ f, o = some f ∧ (p.fds.get f.fd).isSome

theorem outputStep_calm (h : Calm Q e n0 p) (c : Config) (i : Option File) :
    Clean e n0 Q (c.outputPath ≠ none → e.fails .openOutput = false ∧ e.fails .dupOutput = false)
      (· = c!"DUP2_FAILED") (fun o q => Calm Q e n0 q ∧ q.uid = p.uid ∧ OutOpen c o q ∧
        (c.outputPath ≠ none → e.fails .openOutput = false ∧ e.fails .dupOutput = false)) (outputStep c i e p) := by
  unfold outputStep
  cases hin : c.outputPath with
  | none => exact .cont ⟨h, rfl, (fun path hp => by rw [hin] at hp; cases hp), by simp⟩
  | some path =>
    simp only [bind_run]
    have hc := fopen_call (e := e) (p := p) .openOutput path true
    generalize fopen .openOutput path true e p = x at hc
    cases hc with
    | killed hk => exact absurd hk (no_kill h.nofilter)
    | failed hk =>
      refine .err h.quiet h.notes (fun hn => ?_) _ _ _
      rcases hk with hk | hk
      · exact no_errno h.nofilter hk
      · rw [(hn (by simp)).1] at hk; cases hk
    | done hd =>
      obtain ⟨rfl, h2, rfl⟩ := hd
      have h' : Calm Q e n0 (opened p path true) := ⟨fun hQ => ⟨(h.quiet hQ).usr1, (h.quiet hQ).stderr, (h.quiet hQ).log, (h.quiet hQ).path⟩, h.nofilter, h.notes⟩
      simp only [bind_run]
      have hc := dup2_call (e := e) (p := opened p path true) .dupOutput p.fds.lowest 1
      generalize dup2 .dupOutput p.fds.lowest 1 e (opened p path true) = x at hc
      cases hc with
      | killed hk => exact absurd hk (no_kill h'.nofilter)
      | failed hk =>
        simp only [Bool.not_false, if_true]
        rw [childErrorExit_bind]
        refine .err h'.quiet h'.notes (fun hn => ?_) _ _ _
        rcases hk with hk | hk | hk
        · exact no_errno h'.nofilter hk
        · rw [(hn (by simp)).2] at hk; cases hk
        · simp [opened_get] at hk
      | done hd =>
        obtain ⟨rfl, h3, _, rfl⟩ := hd
        refine .cont ⟨⟨fun hQ => ⟨(h.quiet hQ).usr1, (h.quiet hQ).stderr, (h.quiet hQ).log, (h.quiet hQ).path⟩, h.nofilter, h.notes⟩, rfl, ?_, fun _ => ⟨h2, h3⟩⟩
        intro path' _
        refine ⟨_, rfl, ?_⟩
        simp only [FdTable.get_set, opened_get, if_true]
        split <;> simp

theorem errorStep_calm (h : Calm Q e n0 p) (c : Config) (i o : Option File) (ho : OutOpen c o p) :
    Clean e n0 Q (c.errorPath ≠ none → (c.outputPath ≠ c.errorPath → e.fails .openError = false) ∧ e.fails .dupError = false)
      (· = c!"DUP2_FAILED") (fun _ q => Calm Q e n0 q ∧ q.uid = p.uid ∧
        (c.errorPath ≠ none → (c.outputPath ≠ c.errorPath → e.fails .openError = false) ∧ e.fails .dupError = false)) (errorStep c i o e p) := by
  unfold errorStep
  cases hin : c.errorPath with
  | none => exact .cont ⟨h, rfl, by simp⟩
  | some path =>
    by_cases hsame : c.outputPath = some path
    · obtain ⟨f, rfl, hf⟩ := ho path hsame
      simp only [hsame, if_true, bind_run, pure_run]
      have hc := dup2_call (e := e) (p := p) .dupError f.fd 2
      generalize dup2 .dupError f.fd 2 e p = x at hc
      cases hc with
      | killed hk => exact absurd hk (no_kill h.nofilter)
      | failed hk =>
        simp only [Bool.not_false, if_true]
        rw [childErrorExit_bind]
        refine .err h.quiet h.notes (fun hn => ?_) _ _ _
        rcases hk with hk | hk | hk
        · exact no_errno h.nofilter hk
        · rw [(hn (by simp)).2] at hk; cases hk
        · rw [hk] at hf; cases hf
      | done hd =>
        obtain ⟨rfl, h3, _, rfl⟩ := hd
        exact .cont ⟨⟨fun hQ => ⟨(h.quiet hQ).usr1, (h.quiet hQ).stderr, (h.quiet hQ).log, (h.quiet hQ).path⟩, h.nofilter, h.notes⟩, rfl, fun _ => ⟨fun hne => absurd rfl hne, h3⟩⟩
    · simp only [hsame, if_false, bind_run]
      have hc := fopen_call (e := e) (p := p) .openError path true
      generalize fopen .openError path true e p = x at hc
      cases hc with
      | killed hk => exact absurd hk (no_kill h.nofilter)
      | failed hk =>
        simp only []
        rw [childErrorExit_bind]
        refine .err h.quiet h.notes (fun hn => ?_) _ _ _
        rcases hk with hk | hk
        · exact no_errno h.nofilter hk
        · rw [(hn (by simp)).1 hsame] at hk; cases hk
      | done hd =>
        obtain ⟨rfl, h2, rfl⟩ := hd
        have h' : Calm Q e n0 (opened p path true) := ⟨fun hQ => ⟨(h.quiet hQ).usr1, (h.quiet hQ).stderr, (h.quiet hQ).log, (h.quiet hQ).path⟩, h.nofilter, h.notes⟩
        simp only [bind_run, pure_run]
        have hc := dup2_call (e := e) (p := opened p path true) .dupError p.fds.lowest 2
        generalize dup2 .dupError p.fds.lowest 2 e (opened p path true) = x at hc
        cases hc with
        | killed hk => exact absurd hk (no_kill h'.nofilter)
        | failed hk =>
          simp only [Bool.not_false, if_true]
          rw [childErrorExit_bind]
          refine .err h'.quiet h'.notes (fun hn => ?_) _ _ _
          rcases hk with hk | hk | hk
          · exact no_errno h'.nofilter hk
          · rw [(hn (by simp)).2] at hk; cases hk
          · simp [opened_get] at hk
        | done hd =>
          obtain ⟨rfl, h3, _, rfl⟩ := hd
          exact .cont ⟨⟨fun hQ => ⟨(h.quiet hQ).usr1, (h.quiet hQ).stderr, (h.quiet hQ).log, (h.quiet hQ).path⟩, h.nofilter, h.notes⟩, rfl, fun _ => ⟨fun _ => h2, h3⟩⟩

theorem gidStep_calm (h : Calm Q e n0 p) (c : Config) (i o r : Option File) :
    Clean e n0 Q (c.gid ≠ castU32 (-1) → e.fails .setgid = false ∧ e.fails .setgroups = false ∧ p.uid.e = 0)
      (· = c!"SETUID_FAILED") (fun _ q => Calm Q e n0 q ∧ q.uid = p.uid ∧
        (c.gid ≠ castU32 (-1) → e.fails .setgid = false ∧ e.fails .setgroups = false)) (gidStep c i o r e p) := by
  unfold gidStep
  by_cases hg : c.gid = castU32 (-1)
  · rw [if_neg (by simp [hg])]
    exact .cont ⟨h, rfl, fun hn => absurd hg hn⟩
  · rw [if_pos hg]
    simp only [bind_run]
    have hc := setgid_call (e := e) (p := p) c.gid
    generalize setgid c.gid e p = x at hc
    cases hc with
    | killed hk => exact absurd hk (no_kill h.nofilter)
    | failed hk =>
      simp only [Bool.not_false, if_true]
      rw [childErrorExit_bind]
      refine .err h.quiet h.notes (fun hn => ?_) _ _ _
      rcases hk with hk | hk | hk
      · exact no_errno h.nofilter hk
      · rw [(hn hg).1] at hk; cases hk
      · exact hk (hn hg).2.2
    | @done _ p1 hd =>
      obtain ⟨rfl, h2, h3⟩ := hd
      have h' : Calm Q e n0 p1 ∧ p1.uid = p.uid := by
        rcases h3 with ⟨_, rfl⟩ | ⟨_, _, rfl⟩ <;>
          exact ⟨⟨fun hQ => ⟨(h.quiet hQ).usr1, (h.quiet hQ).stderr, (h.quiet hQ).log, (h.quiet hQ).path⟩, h.nofilter, h.notes⟩, rfl⟩
      simp only [Bool.not_true, Bool.false_eq_true, if_false, bind_run]
      have hc := setgroups_call (e := e) (p := p1) [c.gid]
      generalize setgroups [c.gid] e p1 = x at hc
      cases hc with
      | killed hk => exact absurd hk (no_kill h'.1.nofilter)
      | failed hk =>
        simp only [Bool.not_false, if_true]
        refine .err h'.1.quiet h'.1.notes (fun hn => ?_) _ _ _
        rcases hk with hk | hk | hk
        · exact no_errno h'.1.nofilter hk
        · rw [(hn hg).2.1] at hk; cases hk
        · rw [h'.2] at hk; exact hk (hn hg).2.2
      | done hd =>
        obtain ⟨rfl, h4, _, rfl⟩ := hd
        have h' := h'
        exact .cont ⟨⟨fun hQ => ⟨(h'.1.quiet hQ).usr1, (h'.1.quiet hQ).stderr, (h'.1.quiet hQ).log, (h'.1.quiet hQ).path⟩, h'.1.nofilter, h'.1.notes⟩, h'.2, fun _ => ⟨h2, h4⟩⟩

theorem uidStep_calm (h : Calm Q e n0 p) (c : Config) (i o r : Option File) :
    Clean e n0 Q (c.uid ≠ castU32 (-1) → e.fails .setuid = false ∧ p.uid.e = 0)
      (· = c!"SETUID_FAILED") (fun _ q => Calm Q e n0 q ∧
        (c.uid ≠ castU32 (-1) → e.fails .setuid = false)) (uidStep c i o r e p) := by
  unfold uidStep
  by_cases hg : c.uid = castU32 (-1)
  · rw [if_neg (by simp [hg])]
    exact .cont ⟨h, fun hn => absurd hg hn⟩
  · rw [if_pos hg]
    simp only [bind_run]
    have hc := setuid_call (e := e) (p := p) c.uid
    generalize setuid c.uid e p = x at hc
    cases hc with
    | killed hk => exact absurd hk (no_kill h.nofilter)
    | failed hk =>
      simp only [Bool.not_false, if_true]
      refine .err h.quiet h.notes (fun hn => ?_) _ _ _
      rcases hk with hk | hk | hk
      · exact no_errno h.nofilter hk
      · rw [(hn hg).1] at hk; cases hk
      · exact hk (hn hg).2
    | done hd =>
      obtain ⟨rfl, h2, h3⟩ := hd
      rcases h3 with ⟨_, rfl⟩ | ⟨_, _, rfl⟩ <;>
        exact .cont ⟨⟨fun hQ => ⟨(h.quiet hQ).usr1, (h.quiet hQ).stderr, (h.quiet hQ).log, (h.quiet hQ).path⟩, h.nofilter, h.notes⟩, fun _ => h2⟩

/-- What is needed to install the named rules. -/
def RulesOk (c : Config) (e : ChildEnv) : Prop :=
  ∀ name, c.seccompRuleName = some name → ∃ f, profileOf e name = some f ∧ e.fails .scInit = false ∧
    (∀ j, j < f.rules.length → e.fails (.scRule j) = false) ∧ e.fails .scLoad = false

theorem loadRules_calm (h : Calm Q e n0 p) (dflt : Action) (rules : List Rule) (hd : ∀ u ∈ rules, u.action ≠ dflt) :
    (∃ n, loadRules dflt rules e p = .ok (-6) { p with noNewPrivs := n } ∧
      ¬ (e.fails .scInit = false ∧ (∀ j, j < rules.length → e.fails (.scRule j) = false) ∧ e.fails .scLoad = false)) ∨
    (loadRules dflt rules e p = .ok 0 { p with noNewPrivs := true, filters := ⟨dflt, rules⟩ :: p.filters } ∧
      e.fails .scInit = false ∧ (∀ j, j < rules.length → e.fails (.scRule j) = false) ∧ e.fails .scLoad = false) := by
  unfold loadRules
  simp only [bind_run, getEnv_run]
  cases hi : e.fails .scInit with
  | true => exact .inl ⟨p.noNewPrivs, rfl, by simp⟩
  | false =>
    simp only [Bool.false_eq_true, if_false, bind_run]
    rcases ruleAddAll_run (e := e) (p := p) rules 0 ⟨dflt, []⟩ with ⟨h1, j, hj, h2⟩ | ⟨h1, h2, h3⟩ <;> rw [h1]
    · refine .inl ⟨p.noNewPrivs, rfl, ?_⟩
      rintro ⟨_, hr, _⟩
      rcases h2 with h2 | ⟨u, hu, h2⟩
      · simp [hr j hj] at h2
      · exact hd u hu h2
    simp only [bind_run, seccompLoad, getEnv_run, List.nil_append]
    have he : ∀ (r : Req) (p : Proc), p.filters = [] → enter r e p = .ok true p := by
      intro r p hp; rw [enter_run, hp]; rfl
    rw [he _ _ h.nofilter]
    simp only [if_true, bind_run, modify_run]
    rw [attempt_run, show ({ p with noNewPrivs := true } : Proc).filters = [] from h.nofilter]
    cases hl : e.fails .scLoad with
    | true => exact .inl ⟨true, rfl, by simp⟩
    | false => exact .inr ⟨by simp [evalAll, bind_run], by simp, fun j hj => by simpa using h2 j hj, by simp⟩

theorem profile_actions (e : ChildEnv) (name : CStr) (f : Filter) (h : profileOf e name = some f) :
    ∀ u ∈ f.rules, u.action ≠ f.dflt := by
  unfold profileOf at h
  split at h
  · cases h
    intro u hu
    simp only [cCppFilter, cCppRules, cCppFileRules] at hu ⊢
    simp only [List.mem_append, List.mem_map, Bool.false_eq_true, if_false, List.mem_cons, List.not_mem_nil, or_false] at hu
    rcases hu with (⟨_, _, rfl⟩ | rfl) | rfl | rfl <;> simp
  split at h
  · cases h
    intro u hu
    simp only [cCppFileIoFilter, cCppRules, cCppFileRules] at hu ⊢
    simp only [List.mem_append, List.mem_map, if_true, List.mem_cons, List.not_mem_nil, or_false] at hu
    rcases hu with (⟨_, _, rfl⟩ | rfl) | rfl | rfl | rfl | rfl | rfl <;> simp
  split at h
  · cases h
    intro u hu
    simp only [generalFilter, generalRules, noWriteOpenRules] at hu ⊢
    simp only [List.mem_append, List.mem_map, List.mem_cons, List.not_mem_nil, or_false] at hu
    rcases hu with ((⟨_, _, rfl⟩ | rfl) | rfl) | rfl | rfl | rfl | rfl <;> simp
  split at h
  · cases h
    intro u hu
    simp only [golangFilter, golangRules, noWriteOpenRules] at hu ⊢
    simp only [List.mem_append, List.mem_map, List.mem_cons, List.not_mem_nil, or_false] at hu
    rcases hu with ⟨_, _, rfl⟩ | rfl | rfl | rfl | rfl <;> simp
  split at h
  · cases h
    intro u hu
    simp only [nodeFilter, nodeRules] at hu ⊢
    simp only [List.mem_map] at hu
    rcases hu with ⟨_, _, rfl⟩ <;> simp
  · cases h

theorem namedRules_calm (h : Calm Q e n0 p) (name : CStr) :
    (∃ n, namedRules name e p = .ok (-6) { p with noNewPrivs := n } ∧
      ¬ (∃ f, profileOf e name = some f ∧ e.fails .scInit = false ∧
        (∀ j, j < f.rules.length → e.fails (.scRule j) = false) ∧ e.fails .scLoad = false)) ∨
    (∃ f, profileOf e name = some f ∧ (e.fails .scInit = false ∧
        (∀ j, j < f.rules.length → e.fails (.scRule j) = false) ∧ e.fails .scLoad = false) ∧
      namedRules name e p = .ok 0 { p with noNewPrivs := true, filters := f :: p.filters }) := by
  have key : ∀ (g : M Int) (f : Filter), g e p = loadRules f.dflt f.rules e p → profileOf e name = some f →
    (∃ n, g e p = .ok (-6) { p with noNewPrivs := n } ∧
      ¬ (∃ f, profileOf e name = some f ∧ e.fails .scInit = false ∧
        (∀ j, j < f.rules.length → e.fails (.scRule j) = false) ∧ e.fails .scLoad = false)) ∨
    (∃ f, profileOf e name = some f ∧ (e.fails .scInit = false ∧
        (∀ j, j < f.rules.length → e.fails (.scRule j) = false) ∧ e.fails .scLoad = false) ∧
      g e p = .ok 0 { p with noNewPrivs := true, filters := f :: p.filters }) := by
    intro g f hg hf
    rw [hg]
    rcases loadRules_calm h f.dflt f.rules (profile_actions e name f hf) with ⟨n, h1, h2⟩ | ⟨h1, h2⟩
    · refine .inl ⟨n, h1, ?_⟩
      rintro ⟨f', hf', h3⟩
      rw [hf] at hf'
      cases hf'
      exact h2 h3
    · exact .inr ⟨f, hf, h2, h1⟩
  unfold namedRules
  split
  · rename_i hn
    exact key _ (cCppFilter e.exeAddr) rfl (by simp [profileOf, hn])
  split
  · rename_i _ hn
    exact key _ (cCppFileIoFilter e.exeAddr) rfl (by simp [profileOf, hn])
  split
  · rename_i _ _ hn
    exact key _ (generalFilter e.exeAddr e.hasExecveat) rfl (by simp [profileOf, hn])
  split
  · rename_i _ _ _ hn
    exact key _ (golangFilter e.hasExecveat) rfl (by simp [profileOf, hn])
  split
  · rename_i _ _ _ _ hn
    exact key _ (nodeFilter e.hasExecveat) rfl (by simp [profileOf, hn])
  · rename_i h1 h2 h3 h4 h5
    refine .inl ⟨p.noNewPrivs, rfl, ?_⟩
    rintro ⟨f, hf, _⟩
    simp only [profileOf, h1, h2, h3, h4, h5, if_false] at hf
    cases hf

theorem seccompStep_calm (h : Calm Q e n0 p) (c : Config) (i o r : Option File) :
    Clean e n0 Q (RulesOk c e) (· = c!"LOAD_SECCOMP_FAILED") (fun _ q => q.notes = n0 ∧ RulesOk c e ∧ ((c.seccompRuleName = none ∧ Calm Q e n0 q) ∨
      ∃ name f, c.seccompRuleName = some name ∧ profileOf e name = some f ∧ q.filters = [f] ∧ q.limits = p.limits ∧ q.deadly = p.deadly))
      (seccompStep c i o r e p) := by
  unfold seccompStep
  cases hn : c.seccompRuleName with
  | none => exact .cont ⟨h.notes, (fun name hm => by rw [hn] at hm; cases hm), .inl ⟨rfl, h⟩⟩
  | some name =>
    simp only [bind_run]
    rcases namedRules_calm h name with ⟨n, h1, h2⟩ | ⟨f, hf, h2, h1⟩ <;> rw [h1]
    · have : (-6 : Int) ≠ SUCCESS := by decide
      simp only [this, ne_eq, not_false_eq_true, if_true]
      refine Clean.err (p := { p with noNewPrivs := n }) (fun hQ => ⟨(h.quiet hQ).usr1, (h.quiet hQ).stderr, (h.quiet hQ).log, (h.quiet hQ).path⟩) h.notes (fun (hr : RulesOk c e) => h2 (hr name hn)) _ _ _
    · exact .cont ⟨h.notes, (fun name' hm => by rw [hn] at hm; cases hm; exact ⟨f, hf, h2⟩),
        .inr ⟨name, f, rfl, hf, by simp [h.nofilter], rfl, rfl⟩⟩


/-! ## Answers of the filters -/

theorem eval_other {f : Filter} {r : Req} (hn : r.native = true) (h : r.nr ∉ f.rules.map Rule.nr) : f.eval r = f.dflt := by
  unfold Filter.eval
  rw [if_pos hn]
  have : f.rules.find? (·.applies r) = none := by
    rw [List.find?_eq_none]
    intro u hu ha
    simp only [Rule.applies, Bool.and_eq_true, beq_iff_eq] at ha
    exact h (ha.1 ▸ List.mem_map_of_mem hu)
  rw [this]

theorem evalAll_one (f : Filter) (r : Req) : evalAll [f] r = f.eval r := by
  simp only [evalAll]
  cases f.eval r <;> rfl

theorem general_nrs (exe : BitVec 64) (x : Bool) : (generalRules exe x).map Rule.nr =
    [NR_clone, NR_fork, NR_vfork, NR_kill] ++ (if x then [NR_execveat] else []) ++ [NR_socket, NR_execve, NR_open, NR_open, NR_openat, NR_openat] := by
  cases x <;> rfl

theorem golang_nrs (x : Bool) : (golangRules x).map Rule.nr =
    [NR_socket, NR_fork, NR_vfork, NR_kill] ++ (if x then [NR_execveat] else []) ++ [NR_open, NR_open, NR_openat, NR_openat] := by
  cases x <;> rfl

theorem node_nrs (x : Bool) : (nodeRules x).map Rule.nr =
    [NR_socket, NR_fork, NR_vfork, NR_kill] ++ (if x then [NR_execveat] else []) := by
  cases x <;> rfl

theorem cCpp_nrs (exe : BitVec 64) (w : Bool) : (cCppRules exe w).map Rule.nr =
    cCppWhitelist ++ [NR_execve] ++ (if w then [NR_open, NR_openat, NR_dup, NR_dup2, NR_dup3] else [NR_open, NR_openat]) := by
  cases w <;> rfl

theorem pathOpen_general (exe : BitVec 64) (x : Bool) : PathOpen [generalFilter exe x] := by
  intro r hn hr
  rw [evalAll_one, eval_other hn]
  · rfl
  · show r.nr ∉ (generalRules exe x).map Rule.nr
    rw [general_nrs]
    simp only [List.mem_cons, List.not_mem_nil, or_false] at hr
    rcases hr with h | h | h | h | h | h | h | h <;> rw [h] <;> cases x <;> decide

theorem pathOpen_golang (x : Bool) : PathOpen [golangFilter x] := by
  intro r hn hr
  rw [evalAll_one, eval_other hn]
  · rfl
  · show r.nr ∉ (golangRules x).map Rule.nr
    rw [golang_nrs]
    simp only [List.mem_cons, List.not_mem_nil, or_false] at hr
    rcases hr with h | h | h | h | h | h | h | h <;> rw [h] <;> cases x <;> decide

theorem pathOpen_node (x : Bool) : PathOpen [nodeFilter x] := by
  intro r hn hr
  rw [evalAll_one, eval_other hn]
  · rfl
  · show r.nr ∉ (nodeRules x).map Rule.nr
    rw [node_nrs]
    simp only [List.mem_cons, List.not_mem_nil, or_false] at hr
    rcases hr with h | h | h | h | h | h | h | h <;> rw [h] <;> cases x <;> decide

/-- The judger's own `execve` passes every rule set. -/
theorem own_exec (e : ChildEnv) (name : CStr) (f : Filter) (h : profileOf e name = some f) (argv envp : BitVec 64) :
    f.eval (Req.mk' NR_execve [e.exeAddr, argv, envp]) = .allow := by
  unfold profileOf at h
  split at h
  · cases h
    simp [Filter.eval, cCppFilter, cCppRules, cCppWhitelist, cCppFileRules, Req.mk', Rule.applies, ArgCmp.holds, NR_access, NR_arch_prctl, NR_brk, NR_clock_gettime, NR_close, NR_exit_group, NR_faccessat, NR_fstat, NR_futex,
   NR_getrandom, NR_lseek, NR_mmap, NR_mprotect, NR_munmap, NR_newfstatat, NR_pread64, NR_prlimit64, NR_read, NR_readlink,
   NR_readv, NR_rseq, NR_set_robust_list, NR_set_tid_address, NR_write, NR_writev, NR_execve]
  split at h
  · cases h
    simp [Filter.eval, cCppFileIoFilter, cCppRules, cCppWhitelist, cCppFileRules, Req.mk', Rule.applies, ArgCmp.holds, NR_access, NR_arch_prctl, NR_brk, NR_clock_gettime, NR_close, NR_exit_group, NR_faccessat, NR_fstat, NR_futex,
   NR_getrandom, NR_lseek, NR_mmap, NR_mprotect, NR_munmap, NR_newfstatat, NR_pread64, NR_prlimit64, NR_read, NR_readlink,
   NR_readv, NR_rseq, NR_set_robust_list, NR_set_tid_address, NR_write, NR_writev, NR_execve]
  split at h
  · cases h
    cases e.hasExecveat <;>
    simp [Filter.eval, generalFilter, generalRules, generalBlacklist, noWriteOpenRules, Req.mk', Rule.applies, ArgCmp.holds,
      NR_clone, NR_fork, NR_vfork, NR_kill, NR_execveat, NR_socket, NR_open, NR_openat, NR_execve]
  split at h
  · cases h
    rw [eval_other rfl]
    · rfl
    · show _ ∉ (golangRules e.hasExecveat).map Rule.nr
      rw [golang_nrs]
      show NR_execve ∉ _
      cases e.hasExecveat <;> decide
  split at h
  · cases h
    rw [eval_other rfl]
    · rfl
    · show _ ∉ (nodeRules e.hasExecveat).map Rule.nr
      rw [node_nrs]
      show NR_execve ∉ _
      cases e.hasExecveat <;> decide
  · cases h

/-- The configured file-size limit leaves room for a log entry. -/
def LogFits (c : Config) (e : ChildEnv) : Prop :=
  e.log = none ∨ e.logRegular = false ∨ c.maxOutputSize = UNLIMITED ∨ (e.logSize : Int) < castU64 c.maxOutputSize

/-- No requested limit is refused. -/
def LimitsOk (c : Config) (e : ChildEnv) : Prop :=
  (c.maxStack ≠ UNLIMITED → e.fails (.rlimit .stack) = false) ∧
  (c.memoryLimitCheckOnly = 0 ∧ c.maxMemory ≠ UNLIMITED → e.fails (.rlimit .as) = false) ∧
  (c.maxCpuTime ≠ UNLIMITED → e.fails (.rlimit .cpu) = false) ∧
  (c.maxProcessNumber ≠ UNLIMITED → e.fails (.rlimit .nproc) = false) ∧
  (c.maxOutputSize ≠ UNLIMITED → e.fails (.rlimit .fsize) = false)

/-- All requested files can be opened and attached. -/
def StreamsOk (c : Config) (e : ChildEnv) : Prop :=
  (c.inputPath ≠ none → e.fails .openInput = false ∧ e.fails .dupInput = false) ∧
  (c.outputPath ≠ none → e.fails .openOutput = false ∧ e.fails .dupOutput = false) ∧
  (c.errorPath ≠ none → (c.outputPath ≠ c.errorPath → e.fails .openError = false) ∧ e.fails .dupError = false)

/-- No requested change of user or group is refused. -/
def IdsOk (c : Config) (e : ChildEnv) : Prop :=
  (c.gid ≠ castU32 (-1) → e.fails .setgid = false ∧ e.fails .setgroups = false) ∧
  (c.uid ≠ castU32 (-1) → e.fails .setuid = false)

/-- The error code of the first stage that fails. -/
inductive Blame (c : Config) (e : ChildEnv) : CStr → Prop
  | limits : ¬ LimitsOk c e → Blame c e c!"SETRLIMIT_FAILED"
  | streams : LimitsOk c e → ¬ StreamsOk c e → Blame c e c!"DUP2_FAILED"
  | ids : LimitsOk c e → StreamsOk c e → ¬ IdsOk c e → Blame c e c!"SETUID_FAILED"
  | rules : LimitsOk c e → StreamsOk c e → IdsOk c e → ¬ RulesOk c e → Blame c e c!"LOAD_SECCOMP_FAILED"
  | exec : LimitsOk c e → StreamsOk c e → IdsOk c e → RulesOk c e → e.fails .exec = true → Blame c e c!"EXECVE_FAILED"

/-- State before the final `execve`. -/
def Ready (Q : Prop) (c : Config) (e : ChildEnv) (n0 : List CStr) (q : Proc) : Prop :=
  (Q → q.deadly SIGUSR1 = true ∧ (e.stderrKills = none ∧ (e.log = none ∨ e.clockHeld = false)) ∧
    (e.log = none ∨ e.logRegular = false ∨ (e.logSize : Int) < (q.limits .fsize).cur)) ∧
  ((c.seccompRuleName = none ∧ q.filters = []) ∨
    ∃ name f, c.seccompRuleName = some name ∧ profileOf e name = some f ∧ q.filters = [f]) ∧
  q.notes = n0 ∧ LimitsOk c e ∧ StreamsOk c e ∧ IdsOk c e ∧ RulesOk c e

theorem childSetup_calm (h : Calm Q e n0 p) (c : Config)
    (hub : addInt c.maxCpuTime 1000 ≠ .ub ∨ c.maxCpuTime = UNLIMITED) (hlog : Q → LogFits c e) :
    Clean e n0 Q (StepsOk c e p ∧ p.uid.e = 0) (fun code => p.uid.e = 0 → Blame c e code) (fun _ q => Ready Q c e n0 q)
      (childSetup c e p) := by
  unfold childSetup
  refine .bind ((limitStep_calm h _ _ _ (by simp)).mono (fun hk hw => ⟨hk.1.stack (by simpa using hw), hk.2⟩)
    fun _ hn hb hu => hb ▸ .limits fun hk => hn fun hw => ⟨hk.1 (by simpa using hw), hu⟩) fun _ p1 ⟨c1, u1, k1⟩ => ?_
  refine .bind ((limitStep_calm c1 _ _ _ (by simp)).mono (fun hk hw => ⟨hk.1.as (by simpa using hw), u1 ▸ hk.2⟩)
    fun _ hn hb hu => hb ▸ .limits fun hk => hn fun hw => ⟨hk.2.1 (by simpa using hw), u1 ▸ hu⟩) fun _ p2 ⟨c2, u2, k2⟩ => ?_
  rw [u1] at u2
  refine .bind ((cpuStep_calm c2 c hub).mono (fun hk hw => ⟨hk.1.cpu hw, u2 ▸ hk.2⟩)
    fun _ hn hb hu => hb ▸ .limits fun hk => hn fun hw => ⟨hk.2.2.1 hw, u2 ▸ hu⟩) fun _ p3 ⟨c3, u3, k3⟩ => ?_
  rw [u2] at u3
  refine .bind ((limitStep_calm c3 _ _ _ (by simp)).mono (fun hk hw => ⟨hk.1.nproc (by simpa using hw), u3 ▸ hk.2⟩)
    fun _ hn hb hu => hb ▸ .limits fun hk => hn fun hw => ⟨hk.2.2.2.1 (by simpa using hw), u3 ▸ hu⟩) fun _ p4 ⟨c4, u4, k4⟩ => ?_
  rw [u3] at u4
  refine .bind ((limitStep_calm c4 _ _ _ ?_).mono (fun hk hw => ⟨hk.1.fsize (by simpa using hw), u4 ▸ hk.2⟩)
    fun _ hn hb hu => hb ▸ .limits fun hk => hn fun hw => ⟨hk.2.2.2.2 (by simpa using hw), u4 ▸ hu⟩) fun _ p5 ⟨c5, u5, k5⟩ => ?_
  · intro _ hw hQ
    rcases hlog hQ with h | h | h | h
    · exact .inl h
    · exact .inr (.inl h)
    · simp [h] at hw
    · exact .inr (.inr h)
  rw [u4] at u5
  have kl : LimitsOk c e := ⟨fun hw => k1 (by simpa using hw), fun hw => k2 (by simpa using hw), k3,
    fun hw => k4 (by simpa using hw), fun hw => k5 (by simpa using hw)⟩
  refine .bind ((inputStep_calm c5 c).mono (fun hk => hk.1.input)
    fun _ hn hb _ => hb ▸ .streams kl fun hk => hn hk.1) fun i p6 ⟨c6, u6, k6⟩ => ?_
  rw [u5] at u6
  refine .bind ((outputStep_calm c6 c i).mono (fun hk => hk.1.output)
    fun _ hn hb _ => hb ▸ .streams kl fun hk => hn hk.2.1) fun o p7 ⟨c7, u7, ho, k7⟩ => ?_
  rw [u6] at u7
  refine .bind ((errorStep_calm c7 c i o ho).mono (fun hk => hk.1.error)
    fun _ hn hb _ => hb ▸ .streams kl fun hk => hn hk.2.2) fun r p8 ⟨c8, u8, k8⟩ => ?_
  rw [u7] at u8
  have ks : StreamsOk c e := ⟨k6, k7, k8⟩
  refine .bind ((gidStep_calm c8 c i o r).mono (fun hk hw => u8 ▸ hk.1.gid hw)
    fun _ hn hb hu => hb ▸ .ids kl ks fun hk => hn fun hw => ⟨(hk.1 hw).1, (hk.1 hw).2, u8 ▸ hu⟩) fun _ p9 ⟨c9, u9, k9⟩ => ?_
  rw [u8] at u9
  refine .bind ((uidStep_calm c9 c i o r).mono (fun hk hw => ⟨(hk.1.uid hw).1, u9 ▸ hk.2⟩)
    fun _ hn hb hu => hb ▸ .ids kl ks fun hk => hn fun hw => ⟨hk.2 hw, u9 ▸ hu⟩) fun _ p10 ⟨c10, k10⟩ => ?_
  have ki : IdsOk c e := ⟨k9, k10⟩
  refine .bind ((seccompStep_calm c10 c i o r).mono (fun hk => hk.1.seccomp)
    fun _ hn hb _ => hb ▸ .rules kl ks ki hn) fun _ p11 ⟨n11, kr, h11⟩ => ?_
  refine .cont ⟨fun hQ => ⟨?_, (h.quiet hQ).stderr, ?_⟩, ?_, n11, kl, ks, ki, kr⟩
  · rcases h11 with ⟨_, h⟩ | ⟨_, _, _, _, _, _, h⟩
    · exact (h.quiet hQ).usr1
    · rw [h]; exact (c10.quiet hQ).usr1
  · rcases h11 with ⟨_, h⟩ | ⟨_, _, _, _, _, h, _⟩
    · exact (h.quiet hQ).log
    · rw [h]; exact (c10.quiet hQ).log
  · rcases h11 with ⟨hn, h⟩ | ⟨name, f, hn, hf, hq, _⟩
    · exact .inl ⟨hn, h.nofilter⟩
    · exact .inr ⟨name, f, hn, hf, hq⟩

/-- Without filters of the caller's own, `child_process` ends in one of two ways: the program runs and nothing has been
logged; or something failed, at most one message has been logged, it names the first stage that failed (if the child is
root), and the child dies of SIGUSR1 with the message in the log (if it works) if the surroundings are quiet (`Q`), except
when only `execve` itself failed, and nothing before it, under one of the two C/C++ rule sets. -/
theorem childProcess_told {Q : Prop} (h : Calm Q e n0 p) (c : Config)
    (hub : addInt c.maxCpuTime 1000 ≠ .ub ∨ c.maxCpuTime = UNLIMITED) (hlog : Q → LogFits c e) :
    (∃ q, childProcess c e p = .stop (.execed c.exePath c.args c.env) q ∧ q.notes = n0) ∨
    (∃ s q, childProcess c e p = .stop s q ∧ ¬ (StepsOk c e p ∧ p.uid.e = 0 ∧ e.fails .exec = false) ∧
      (q.notes = n0 ∨ ∃ code, (p.uid.e = 0 → Blame c e code) ∧ q.notes = childErrorText e code :: n0) ∧
      (Q → (s = .killed SIGUSR1 ∧ (LogWorks e → q.notes ≠ n0)) ∨
        ((c.seccompRuleName = some c!"c_cpp" ∨ c.seccompRuleName = some c!"c_cpp_file_io") ∧ e.fails .exec = true ∧
          Blame c e c!"EXECVE_FAILED"))) := by
  rw [childProcess_eq, bind_run]
  have hs := childSetup_calm h c hub hlog
  generalize childSetup c e p = x at hs
  cases hs with
  | usr1 hn hm hq => exact .inr ⟨_, _, rfl, fun hk => hn ⟨hk.1, hk.2.1⟩, hm, fun hQ => .inl (hq hQ)⟩
  | @cont t q hr =>
    obtain ⟨i, o, r⟩ := t
    obtain ⟨r1, r4, n1, kl, ks, ki, kr⟩ := hr
    simp only [execve, bind_run, getEnv_run]
    have hallow : evalAll q.filters (Req.mk' NR_execve [e.exeAddr, e.bufAddr, e.bufAddr]) = .allow := by
      rcases r4 with ⟨_, h⟩ | ⟨name, f, _, hf, h⟩
      · rw [h]; rfl
      · rw [h, evalAll_one, own_exec e name f hf]
    rw [attempt_run, hallow]
    cases hx : e.fails .exec with
    | false => exact .inl ⟨q, rfl, n1⟩
    | true =>
      obtain ⟨s, f, d, b, n, hs, _⟩ := childErrorExit_run (α := Unit) (e := e) (p := q) c!"EXECVE_FAILED" i o r
      have hm := childErrorExit_noted (α := Unit) (e := e) (p := q) c!"EXECVE_FAILED" i o r
      refine .inr ⟨s, _, hs, by simp, ?_, fun hQ => ?_⟩
      · rw [hs, n1] at hm
        rcases hm with hm | hm
        · exact .inl hm
        · exact .inr ⟨_, fun _ => .exec kl ks ki kr hx, hm⟩
      by_cases hcpp : c.seccompRuleName = some c!"c_cpp" ∨ c.seccompRuleName = some c!"c_cpp_file_io"
      · exact .inr ⟨hcpp, rfl, .exec kl ks ki kr hx⟩
      · have hp : PathOpen q.filters := by
          rcases r4 with ⟨_, h⟩ | ⟨name, f, hn, hf, h⟩
          · rw [h]; exact pathOpen_nil
          · rw [h]
            rw [hn] at hcpp
            simp only [Option.some.injEq, not_or] at hcpp
            unfold profileOf at hf
            rw [if_neg hcpp.1, if_neg hcpp.2] at hf
            split at hf
            · cases hf; exact pathOpen_general _ _
            split at hf
            · cases hf; exact pathOpen_golang _
            split at hf
            · cases hf; exact pathOpen_node _
            · cases hf
        obtain ⟨r1, r2, r3⟩ := r1 hQ
        obtain ⟨q', hq', hw⟩ := childErrorExit_quiet (α := Unit) (⟨r1, r2, r3, hp⟩ : Quiet e q) c!"EXECVE_FAILED" i o r
        rw [hq'] at hs
        cases hs
        refine .inl ⟨rfl, fun hl => ?_⟩
        rw [hw hl, n1]
        exact List.cons_ne_self _ _

/-- The same without the log. -/
theorem childProcess_calm {Q : Prop} (h : Calm Q e n0 p) (c : Config)
    (hub : addInt c.maxCpuTime 1000 ≠ .ub ∨ c.maxCpuTime = UNLIMITED) (hlog : Q → LogFits c e) :
    (∃ q, childProcess c e p = .stop (.execed c.exePath c.args c.env) q) ∨
    (∃ s q, childProcess c e p = .stop s q ∧ ¬ (StepsOk c e p ∧ p.uid.e = 0 ∧ e.fails .exec = false) ∧
      (Q → s = .killed SIGUSR1 ∨
        ((c.seccompRuleName = some c!"c_cpp" ∨ c.seccompRuleName = some c!"c_cpp_file_io") ∧ e.fails .exec = true))) := by
  rcases childProcess_told h c hub hlog with ⟨q, hq, _⟩ | ⟨s, q, hs, hn, _, hQ⟩
  · exact .inl ⟨q, hq⟩
  · exact .inr ⟨s, q, hs, hn, fun hq => (hQ hq).imp (·.1) fun h => ⟨h.1, h.2.1⟩⟩

/-- The same when `max_cpu_time + 1000` overflows. -/
theorem childProcess_ub_calm (h : Calm True e n0 p) (c : Config) (hub : addInt c.maxCpuTime 1000 = .ub)
    (hu : c.maxCpuTime ≠ UNLIMITED) {s : Stop} (hs : childProcess c e p = .stop s q) (hn : s ≠ .ub) :
    s = .killed SIGUSR1 := by
  rw [childProcess_eq, bind_run] at hs
  unfold childSetup at hs
  rw [bind_run] at hs
  have h1 := limitStep_calm h .stack (c.maxStack ≠ UNLIMITED) (castU64 c.maxStack) (by simp)
  generalize limitStep .stack (c.maxStack ≠ UNLIMITED) (castU64 c.maxStack) e p = x at h1 hs
  cases h1 with
  | usr1 _ _ hq => cases hs; exact (hq trivial).1
  | @cont _ p1 h1 =>
    simp only [] at hs
    rw [bind_run] at hs
    have h2 := limitStep_calm h1.1 .as (c.memoryLimitCheckOnly = 0 ∧ c.maxMemory ≠ UNLIMITED)
        (castU64 (castU64 c.maxMemory * 2)) (by simp)
    generalize limitStep .as _ _ e p1 = x at h2 hs
    cases h2 with
    | usr1 _ _ hq => cases hs; exact (hq trivial).1
    | @cont _ p2 h2 =>
      simp only [] at hs
      rw [bind_run, cpuStep, if_pos hu, hub] at hs
      cases hs
      exact absurd rfl hn

end Judger
