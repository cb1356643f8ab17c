import Verif.Lemmas.Child

set_option autoImplicit false

namespace Judger

open M

variable {e : ChildEnv} {p q : Proc}

theorem Held.same {p' : Proc} {base : List File} {i o r : Option File} (h : Held p base i o r)
    (hf : p'.files = p.files) (hn : p'.nextFile = p.nextFile) : Held p' base i o r :=
  ⟨by rw [hf]; exact h.files, by rw [hf]; exact h.nodup, by rw [hf, hn]; exact h.fresh⟩

theorem Held.input {base : List File} {path : CStr} {w : Bool} {n : Nat} (h : Held p base none none none) :
    Held (redirected p path w n) base (some (newFile p)) none none := by
  obtain ⟨h1, h2, h3, _⟩ := h.opened (path := path) (w := w)
  exact ⟨by simpa [redirected] using h1, h2, h3⟩

theorem Held.output {base : List File} {i : Option File} {path : CStr} {w : Bool} {n : Nat} (h : Held p base i none none) :
    Held (redirected p path w n) base i (some (newFile p)) none := by
  obtain ⟨h1, h2, h3, _⟩ := h.opened (path := path) (w := w)
  exact ⟨by simpa [redirected] using h1, h2, h3⟩

theorem Held.error {base : List File} {i o : Option File} {path : CStr} {w : Bool} {n : Nat} (h : Held p base i o none) :
    Held (redirected p path w n) base i o (some (newFile p)) := by
  obtain ⟨h1, h2, h3, h4⟩ := h.opened (path := path) (w := w)
  refine ⟨?_, h2, h3⟩
  have hne : o ≠ some (newFile p) := by
    rintro rfl
    apply h4
    rw [h.files]
    simp
  show (Judger.opened p path w).files = _
  rw [h1]
  simp only [hne, if_false]
  cases o <;> simp

theorem Held.errorSame {base : List File} {i : Option File} {o : Option File} (h : Held p base i o none) : Held p base i o o := by
  refine ⟨?_, h.nodup, h.fresh⟩
  have := h.files
  cases o <;> simpa using this

theorem childSetup_step (c : Config) (hub : addInt c.maxCpuTime 1000 ≠ .ub ∨ c.maxCpuTime = UNLIMITED) :
    Stepped e p none none none (fun (t : Option File × Option File × Option File) q =>
      q = stateAtExec c e p ∧ StepsOk c e p ∧ q.badClose = p.badClose ∧
        ∀ base, Held p base none none none → Held q base t.1 t.2.1 t.2.2) (childSetup c e p) := by
  unfold childSetup
  refine .bind (limitStep_step ..) fun _ p1 ⟨s1, h1⟩ => ?_
  refine .rebase (p' := p1) (i' := none) (o' := none) (r' := none) ?_ (by rw [h1]) (fun base h => h.same (by rw [h1]) (by rw [h1]))
  refine .bind (limitStep_step ..) fun _ p2 ⟨s2, h2⟩ => ?_
  refine .rebase (p' := p2) (i' := none) (o' := none) (r' := none) ?_ (by rw [h2]) (fun base h => h.same (by rw [h2]) (by rw [h2]))
  refine .bind (cpuStep_step c hub) fun _ p3 ⟨s3, h3⟩ => ?_
  refine .rebase (p' := p3) (i' := none) (o' := none) (r' := none) ?_ (by rw [h3]) (fun base h => h.same (by rw [h3]) (by rw [h3]))
  refine .bind (limitStep_step ..) fun _ p4 ⟨s4, h4⟩ => ?_
  refine .rebase (p' := p4) (i' := none) (o' := none) (r' := none) ?_ (by rw [h4]) (fun base h => h.same (by rw [h4]) (by rw [h4]))
  refine .bind (limitStep_step ..) fun _ p5 ⟨s5, h5⟩ => ?_
  refine .rebase (p' := p5) (i' := none) (o' := none) (r' := none) ?_ (by rw [h5]) (fun base h => h.same (by rw [h5]) (by rw [h5]))
  have hp5 : p5 = { p with limits := limitsAfter c p.limits } := by
    rw [h5, h4, h3, h2, h1]
    congr 1
    funext r
    cases r <;> simp [limitsAfter]
  simp only [decide_eq_true_eq] at s1 s2 s4 s5
  clear h1 h2 h3 h4 h5
  -- input
  refine .bind (inputStep_step c) fun i p6 h6 => ?_
  have a6 : (i, p6) = afterInput c p5 := by
    unfold afterInput
    rcases h6 with ⟨hn, rfl, rfl⟩ | ⟨path, hn, rfl, rfl, _⟩ <;> simp [hn]
  have f6 : p6.badClose = p5.badClose ∧ p6.uid = p5.uid ∧ ∀ base, Held p5 base none none none → Held p6 base i none none := by
    rcases h6 with ⟨hn, rfl, rfl⟩ | ⟨path, hn, rfl, rfl, _⟩
    · exact ⟨rfl, rfl, fun _ h => h⟩
    · exact ⟨rfl, rfl, fun _ h => h.input⟩
  have o6 : c.inputPath ≠ none → e.fails .openInput = false ∧ e.fails .dupInput = false := by
    rcases h6 with ⟨hn, _⟩ | ⟨path, hn, _, _, h⟩ <;> simp [hn]; simpa using h
  clear h6
  refine .rebase (p' := p6) (i' := i) (o' := none) (r' := none) ?_ f6.1 f6.2.2
  -- output
  refine .bind (outputStep_step c i) fun o p7 h7 => ?_
  have a7 : (o, p7) = afterOutput c p6 := by
    unfold afterOutput
    rcases h7 with ⟨hn, rfl, rfl⟩ | ⟨path, hn, rfl, rfl, _⟩ <;> simp [hn]
  have f7 : p7.badClose = p6.badClose ∧ p7.uid = p6.uid ∧ ∀ base, Held p6 base i none none → Held p7 base i o none := by
    rcases h7 with ⟨hn, rfl, rfl⟩ | ⟨path, hn, rfl, rfl, _⟩
    · exact ⟨rfl, rfl, fun _ h => h⟩
    · exact ⟨rfl, rfl, fun _ h => h.output⟩
  have o7 : c.outputPath ≠ none → e.fails .openOutput = false ∧ e.fails .dupOutput = false := by
    rcases h7 with ⟨hn, _⟩ | ⟨path, hn, _, _, h⟩ <;> simp [hn]; simpa using h
  have ho : ∀ path, c.outputPath = some path → o.isSome := by
    rcases h7 with ⟨hn, _⟩ | ⟨path, hn, rfl, _⟩ <;> simp [hn]
  clear h7
  refine .rebase (p' := p7) (i' := i) (o' := o) (r' := none) ?_ f7.1 f7.2.2
  -- error
  refine .bind (errorStep_step c i o ho) fun r p8 h8 => ?_
  have a8 : (r, p8) = afterError c o p7 := by
    unfold afterError
    rcases h8 with ⟨hn, rfl, rfl⟩ | ⟨path, f, hn, hs, rfl, rfl, rfl, _⟩ | ⟨path, hn, hs, rfl, rfl, _⟩
    · simp [hn]
    · simp [hn, hs]
    · simp [hn, hs]
  have f8 : p8.badClose = p7.badClose ∧ p8.uid = p7.uid ∧ ∀ base, Held p7 base i o none → Held p8 base i o r := by
    rcases h8 with ⟨hn, rfl, rfl⟩ | ⟨path, f, hn, hs, rfl, rfl, rfl, _⟩ | ⟨path, hn, hs, rfl, rfl, _⟩
    · exact ⟨rfl, rfl, fun _ h => h⟩
    · exact ⟨rfl, rfl, fun _ h => h.errorSame.same rfl rfl⟩
    · exact ⟨rfl, rfl, fun _ h => h.error⟩
  have o8 : c.errorPath ≠ none → (c.outputPath ≠ c.errorPath → e.fails .openError = false) ∧ e.fails .dupError = false := by
    rcases h8 with ⟨hn, rfl, rfl⟩ | ⟨path, f, hn, hs, rfl, rfl, rfl, _, h⟩ | ⟨path, hn, hs, rfl, rfl, h1, h2⟩
    · simp [hn]
    · simp [hn, hs, h]
    · simp [hn, h1, h2]
  clear h8
  refine .rebase (p' := p8) (i' := i) (o' := o) (r' := r) ?_ f8.1 f8.2.2
  -- gid
  have u8 : p8.uid = p.uid := by rw [f8.2.1, f7.2.1, f6.2.1, hp5]
  refine .bind (gidStep_step c i o r) fun _ p9 h9 => ?_
  have a9 : p9 = afterGid c p8 := by
    unfold afterGid
    rcases h9 with ⟨hn, rfl⟩ | ⟨hn, _, _, _, rfl⟩ <;> simp [hn]
  have f9 : p9.badClose = p8.badClose ∧ p9.uid = p8.uid ∧ p9.files = p8.files ∧ p9.nextFile = p8.nextFile := by
    rcases h9 with ⟨hn, rfl⟩ | ⟨hn, _, _, _, rfl⟩ <;> exact ⟨rfl, rfl, rfl, rfl⟩
  have o9 : c.gid ≠ castU32 (-1) → e.fails .setgid = false ∧ e.fails .setgroups = false ∧ p.uid.e = 0 := by
    rcases h9 with ⟨hn, rfl⟩ | ⟨hn, h1, h2, h3, rfl⟩
    · simp [hn]
    · rw [u8] at h3; exact fun _ => ⟨h1, h2, h3⟩
  clear h9
  refine .rebase (p' := p9) (i' := i) (o' := o) (r' := r) ?_ f9.1 (fun base h => h.same f9.2.2.1 f9.2.2.2)
  -- uid
  have u9 : p9.uid = p.uid := by rw [f9.2.1, u8]
  refine .bind (uidStep_step c i o r) fun _ p10 h10 => ?_
  have a10 : p10 = afterUid c p9 := by
    unfold afterUid
    rcases h10 with ⟨hn, rfl⟩ | ⟨hn, _, ⟨h, rfl⟩ | ⟨h, _, rfl⟩⟩
    · simp [hn]
    · simp [hn, h]
    · simp [hn, h]
  have f10 : p10.badClose = p9.badClose ∧ p10.files = p9.files ∧ p10.nextFile = p9.nextFile := by
    rcases h10 with ⟨hn, rfl⟩ | ⟨hn, _, ⟨h, rfl⟩ | ⟨h, _, rfl⟩⟩ <;> exact ⟨rfl, rfl, rfl⟩
  have o10 : c.uid ≠ castU32 (-1) → e.fails .setuid = false ∧ (p.uid.e = 0 ∨ c.uid = p.uid.r ∨ c.uid = p.uid.s) := by
    rw [← u9]
    rcases h10 with ⟨hn, rfl⟩ | ⟨hn, h1, ⟨h, rfl⟩ | ⟨h, h', rfl⟩⟩
    · simp [hn]
    · exact fun _ => ⟨h1, .inl h⟩
    · exact fun _ => ⟨h1, .inr h'⟩
  clear h10
  refine .rebase (p' := p10) (i' := i) (o' := o) (r' := r) ?_ f10.1 (fun base h => h.same f10.2.1 f10.2.2)
  -- seccomp
  refine .bind (seccompStep_step c i o r) fun _ p11 h11 => ?_
  have a11 : p11 = afterSeccomp c e p10 := by
    unfold afterSeccomp
    rcases h11 with ⟨hn, rfl⟩ | ⟨name, f, hn, hf, rfl, _⟩
    · simp [hn]
    · simp [hn, hf]
  have f11 : p11.badClose = p10.badClose ∧ p11.files = p10.files ∧ p11.nextFile = p10.nextFile := by
    rcases h11 with ⟨hn, rfl⟩ | ⟨name, f, hn, hf, rfl, _⟩ <;> exact ⟨rfl, rfl, rfl⟩
  have o11 : ∀ name, c.seccompRuleName = some name → ∃ f, profileOf e name = some f ∧ e.fails .scInit = false ∧
    (∀ j, j < f.rules.length → e.fails (.scRule j) = false) ∧ e.fails .scLoad = false := by
    rcases h11 with ⟨hn, rfl⟩ | ⟨name, f, hn, hf, rfl, h⟩
    · simp [hn]
    · intro name' hn'
      rw [hn] at hn'
      cases hn'
      exact ⟨f, hf, h⟩
  clear h11
  have hstate : p11 = stateAtExec c e p := by
    unfold stateAtExec
    simp only []
    rw [← hp5, ← a6]
    simp only []
    rw [← a7]
    simp only []
    rw [← a8]
    simp only []
    rw [← a9, ← a10, ← a11]
  refine .cont ⟨hstate, ⟨s1, s2, s3, s4, s5, o6, o7, o8, o9, o10, o11⟩, ?_, ?_⟩
  · rw [f11.1, f10.1, f9.1, f8.1, f7.1, f6.1, hp5]
  · intro base h
    have h5 : Held p5 base none none none := h.same (by rw [hp5]) (by rw [hp5])
    exact ((((f8.2.2 _ (f7.2.2 _ (f6.2.2 _ h5))).same f9.2.2.1 f9.2.2.2).same f10.2.1 f10.2.2).same f11.2.1 f11.2.2)

/-- Every run of `child_process`: lost on the failure path (which closes what it opened), or the program is executed in the
state `stateAtExec`, all requested steps having worked. -/
theorem childProcess_run (c : Config) (hub : addInt c.maxCpuTime 1000 ≠ .ub ∨ c.maxCpuTime = UNLIMITED) :
    (∃ s q, childProcess c e p = .stop s q ∧ FailStop e s ∧
      ∀ base, Held p base none none none → ClosesAll e base p.badClose s q) ∨
    (childProcess c e p = .stop (.execed c.exePath c.args c.env) (stateAtExec c e p) ∧ StepsOk c e p ∧
      e.fails .exec = false) := by
  rw [childProcess_eq, bind_run]
  have hs := childSetup_step (e := e) (p := p) c hub
  generalize childSetup c e p = x at hs
  cases hs with
  | lost h1 h2 => exact .inl ⟨_, _, rfl, h1, h2⟩
  | @cont t q h =>
    obtain ⟨hq, hok, hbad, hheld⟩ := h
    obtain ⟨i, o, r⟩ := t
    simp only [execve, bind_run, getEnv_run] at hheld ⊢
    rcases attempt_cases (e := e) (p := q) .exec (Req.mk' NR_execve [e.exeAddr, e.bufAddr, e.bufAddr])
      with ⟨_, h⟩ | h | ⟨_, hf, h⟩ <;> rw [h]
    · exact .inl ⟨_, _, rfl, .inl rfl, fun base _ => by rw [← hbad]; exact closes_sys base q⟩
    · simp only [Bool.false_eq_true, if_false, pure_run]
      obtain ⟨s, f, d, b, n, h, hs⟩ := childErrorExit_run (α := Unit) (e := e) (p := q) c!"EXECVE_FAILED" i o r
      refine .inl ⟨_, _, h, hs, fun base hh => ?_⟩
      rw [← hbad]
      exact childErrorExit_closes (hheld base hh) h
    · subst hq
      exact .inr ⟨rfl, hok, hf⟩

/-- Evaluating `max_cpu_time + 1000` overflows: undefined behaviour, unless an earlier step was lost. -/
theorem childProcess_ub (c : Config) (hub : addInt c.maxCpuTime 1000 = .ub) (hu : c.maxCpuTime ≠ UNLIMITED) :
    (∃ s q, childProcess c e p = .stop s q ∧ FailStop e s ∧
      ∀ base, Held p base none none none → ClosesAll e base p.badClose s q) ∨
    (∃ q, childProcess c e p = .stop .ub q) := by
  rw [childProcess_eq, bind_run]
  have key : Stepped e p none none none (fun _ _ => False) (childSetup c e p) ∨ ∃ q, childSetup c e p = .stop .ub q := by
    unfold childSetup
    rw [bind_run]
    have h1 := limitStep_step (e := e) (p := p) .stack (c.maxStack ≠ UNLIMITED) (castU64 c.maxStack)
    generalize limitStep .stack (c.maxStack ≠ UNLIMITED) (castU64 c.maxStack) e p = x at h1
    cases h1 with
    | lost h1 h2 => exact .inl (.lost h1 h2)
    | @cont _ p1 h =>
      obtain ⟨_, h⟩ := h
      simp only []
      rw [bind_run]
      have h2 := limitStep_step (e := e) (p := p1) .as (c.memoryLimitCheckOnly = 0 ∧ c.maxMemory ≠ UNLIMITED)
        (castU64 (castU64 c.maxMemory * 2))
      generalize limitStep .as _ _ e p1 = x at h2
      cases h2 with
      | lost h1 h2 =>
        refine .inl (.lost h1 fun base hh => ?_)
        have := h2 base (hh.same (by rw [h]) (by rw [h]))
        rw [h] at this
        exact this
      | @cont _ p2 h' =>
        refine .inr ⟨p2, ?_⟩
        simp only []
        rw [bind_run, cpuStep, if_pos hu, hub]
        rfl
  rcases key with h | ⟨q, h⟩
  · generalize childSetup c e p = x at h
    cases h with
    | lost h1 h2 => exact .inl ⟨_, _, rfl, h1, h2⟩
    | cont h => exact h.elim
  · rw [h]; exact .inr ⟨q, rfl⟩

end Judger
