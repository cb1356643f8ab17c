import Verif.Lemmas.Child3
import Verif.Spec.Child
import Verif.Props.Runner

/-!
# C14–C18, C20–C25: what holds when the judged program starts, and when it does not

Every theorem quantifies over every configuration, every inherited process state and every combination of failing calls.
-/

set_option autoImplicit false

namespace Judger

open Judger.Spec

/-! ## A sample state, used only in `example`s and witnesses -/

/-- A root process with descriptors 0–3 open; 3 is the log, opened by `log_open`. -/
def sampleProc : Proc where
  limits := fun _ => ⟨1000000000, infinity⟩
  uid := ⟨0, 0, 0⟩
  gid := ⟨0, 0, 0⟩
  groups := [0, 1, 4]
  fds := [some 0, some 1, some 2, some 3]
  ofds := [⟨c!"/dev/tty", true, true, false⟩, ⟨c!"/dev/tty", true, true, false⟩, ⟨c!"/dev/tty", true, true, false⟩,
    ⟨c!"judger.log", false, true, false⟩]
  files := [⟨0, 3⟩]
  nextFile := 1
  filters := []
  noNewPrivs := false
  badClose := false
  notes := []
  ignored := fun _ => false
  blocked := fun _ => false

/-- Exactly the given call sites fail; the log is a regular file of 4096 bytes. -/
def sampleChild (fails : Site → Bool) : ChildEnv where
  fails := fails
  log := some ⟨0, 3⟩
  logRegular := true
  logSize := 4096
  stderrKills := none
  errnoText := c!"No such file or directory"
  exeAddr := 0x7ffe1000
  bufAddr := 0x7ffe2000
  hasExecveat := true

/-! ## Basic facts -/

theorem started_inv {c : Config} {e : ChildEnv} {p q : Proc} (h : Started c e p q) :
    q = stateAtExec c e p ∧ StepsOk c e p ∧ e.fails .exec = false ∧
    (c.maxCpuTime = UNLIMITED ∨ IsInt (c.maxCpuTime + 1000)) ∧
    childProcess c e p = .stop (.execed c.exePath c.args c.env) q := by
  obtain ⟨path, argv, envp, h⟩ := h
  have hf : ∀ s, FailStop e s → s ≠ .execed path argv envp := by
    rintro s (rfl | rfl | ⟨_, _, rfl⟩ | rfl | rfl | ⟨rfl, _⟩) <;> simp
  by_cases hub : addInt c.maxCpuTime 1000 ≠ .ub ∨ c.maxCpuTime = UNLIMITED
  · rcases childProcess_run (e := e) (p := p) c hub with ⟨s, q', h', hs, _⟩ | ⟨h', hok, hx⟩
    · rw [h] at h'
      cases h'
      exact absurd rfl (hf _ hs)
    · have hh := h'
      rw [h] at h'
      cases h'
      refine ⟨rfl, hok, hx, ?_, hh⟩
      rcases hub with hub | hub
      · right
        unfold addInt at hub
        split at hub
        · assumption
        · exact absurd rfl hub
      · exact .inl hub
  · simp only [not_or, Classical.not_not] at hub
    rcases childProcess_ub (e := e) (p := p) c hub.1 hub.2 with ⟨s, q', h', hs, _⟩ | ⟨q', h'⟩
    · rw [h] at h'
      cases h'
      exact absurd rfl (hf _ hs)
    · rw [h] at h'; cases h'

section frame
variable (c : Config) (e : ChildEnv) (p : Proc)

theorem afterInput_frame : (afterInput c p).2.limits = p.limits ∧ (afterInput c p).2.uid = p.uid ∧
    (afterInput c p).2.gid = p.gid ∧ (afterInput c p).2.groups = p.groups ∧ (afterInput c p).2.filters = p.filters ∧
    (afterInput c p).2.noNewPrivs = p.noNewPrivs ∧ (afterInput c p).2.badClose = p.badClose := by
  unfold afterInput; split <;> exact ⟨rfl, rfl, rfl, rfl, rfl, rfl, rfl⟩

theorem afterOutput_frame : (afterOutput c p).2.limits = p.limits ∧ (afterOutput c p).2.uid = p.uid ∧
    (afterOutput c p).2.gid = p.gid ∧ (afterOutput c p).2.groups = p.groups ∧ (afterOutput c p).2.filters = p.filters ∧
    (afterOutput c p).2.noNewPrivs = p.noNewPrivs ∧ (afterOutput c p).2.badClose = p.badClose := by
  unfold afterOutput; split <;> exact ⟨rfl, rfl, rfl, rfl, rfl, rfl, rfl⟩

theorem afterError_frame (o : Option File) : (afterError c o p).2.limits = p.limits ∧ (afterError c o p).2.uid = p.uid ∧
    (afterError c o p).2.gid = p.gid ∧ (afterError c o p).2.groups = p.groups ∧ (afterError c o p).2.filters = p.filters ∧
    (afterError c o p).2.noNewPrivs = p.noNewPrivs ∧ (afterError c o p).2.badClose = p.badClose := by
  unfold afterError; split
  · exact ⟨rfl, rfl, rfl, rfl, rfl, rfl, rfl⟩
  · split <;> exact ⟨rfl, rfl, rfl, rfl, rfl, rfl, rfl⟩

/-- The descriptors after the three redirections. -/
def redirections : Proc :=
  let p := (afterInput c { p with limits := limitsAfter c p.limits }).2
  let a := afterOutput c p
  (afterError c a.1 a.2).2

theorem stateAtExec_eq : stateAtExec c e p = afterSeccomp c e (afterUid c (afterGid c (redirections c p))) := rfl

theorem redirections_frame : (redirections c p).limits = limitsAfter c p.limits ∧ (redirections c p).uid = p.uid ∧
    (redirections c p).gid = p.gid ∧ (redirections c p).groups = p.groups ∧ (redirections c p).filters = p.filters ∧
    (redirections c p).noNewPrivs = p.noNewPrivs ∧ (redirections c p).badClose = p.badClose := by
  unfold redirections
  simp only [(afterError_frame c _ _).1, (afterError_frame c _ _).2, (afterOutput_frame c _).1, (afterOutput_frame c _).2,
    (afterInput_frame c _).1, (afterInput_frame c _).2, and_self]

theorem late_frame (p : Proc) : (afterSeccomp c e (afterUid c (afterGid c p))).limits = p.limits ∧
    (afterSeccomp c e (afterUid c (afterGid c p))).fds = p.fds ∧ (afterSeccomp c e (afterUid c (afterGid c p))).ofds = p.ofds ∧
    (afterSeccomp c e (afterUid c (afterGid c p))).files = p.files ∧
    (afterSeccomp c e (afterUid c (afterGid c p))).badClose = p.badClose := by
  have hs : ∀ p, (afterSeccomp c e p).limits = p.limits ∧ (afterSeccomp c e p).fds = p.fds ∧
      (afterSeccomp c e p).ofds = p.ofds ∧ (afterSeccomp c e p).files = p.files ∧ (afterSeccomp c e p).badClose = p.badClose := by
    intro p; unfold afterSeccomp; split
    · exact ⟨rfl, rfl, rfl, rfl, rfl⟩
    · split <;> exact ⟨rfl, rfl, rfl, rfl, rfl⟩
  have hu : ∀ p, (afterUid c p).limits = p.limits ∧ (afterUid c p).fds = p.fds ∧
      (afterUid c p).ofds = p.ofds ∧ (afterUid c p).files = p.files ∧ (afterUid c p).badClose = p.badClose := by
    intro p; unfold afterUid; split
    · exact ⟨rfl, rfl, rfl, rfl, rfl⟩
    · split <;> exact ⟨rfl, rfl, rfl, rfl, rfl⟩
  have hg : ∀ p, (afterGid c p).limits = p.limits ∧ (afterGid c p).fds = p.fds ∧
      (afterGid c p).ofds = p.ofds ∧ (afterGid c p).files = p.files ∧ (afterGid c p).badClose = p.badClose := by
    intro p; unfold afterGid; split <;> exact ⟨rfl, rfl, rfl, rfl, rfl⟩
  simp only [hs, hu, hg, and_self]

theorem afterSeccomp_ids (p : Proc) : (afterSeccomp c e p).uid = p.uid ∧ (afterSeccomp c e p).gid = p.gid ∧
    (afterSeccomp c e p).groups = p.groups := by
  unfold afterSeccomp; split
  · exact ⟨rfl, rfl, rfl⟩
  · split <;> exact ⟨rfl, rfl, rfl⟩

end frame

/-! ## C14–C16: limits -/

theorem castU64_of_range {x : Int} (h0 : 0 ≤ x) (h1 : x < 18446744073709551616) : castU64 x = x := by
  unfold castU64; omega

/-- C14: when the program starts, every limit has, soft and hard, exactly the documented value; a limit that is not wanted
is as inherited. -/
theorem C14_limits (c : Config) (e : ChildEnv) (p q : Proc) (hc : ConfigOk c) (hr : c.InRange) (h : Started c e p q)
    (r : Res) :
    match wantedLimit c r with
    | some v => q.limits r = ⟨v, v⟩
    | none => q.limits r = p.limits r := by
  obtain ⟨rfl, _, _, hcpu, _⟩ := started_inv h
  rw [stateAtExec_eq, (late_frame c e _).1, (redirections_frame c p).1]
  obtain ⟨h1, _, h3, h4, h5, h6⟩ := hc
  obtain ⟨r1, _, r3, r4, r5, r6, _⟩ := hr
  simp only [IsInt, IsLong, INT_MIN, INT_MAX, LONG_MIN, LONG_MAX, LimitOk] at *
  cases r with
  | stack =>
    simp only [wantedLimit, limitsAfter]
    have hu : c.maxStack ≠ UNLIMITED := by unfold UNLIMITED; omega
    rw [if_pos hu, castU64_of_range (by omega) (by omega)]
  | as =>
    simp only [wantedLimit, limitsAfter]
    by_cases hu : c.memoryLimitCheckOnly = 0 ∧ c.maxMemory ≠ UNLIMITED
    · rw [if_pos hu, if_neg (by unfold UNLIMITED at hu; omega)]
      have : castU64 c.maxMemory = c.maxMemory := castU64_of_range (by unfold UNLIMITED at hu; omega) (by omega)
      rw [this, castU64_of_range (by unfold UNLIMITED at hu; omega) (by omega), Int.mul_comm]
    · rw [if_neg hu, if_pos (by unfold UNLIMITED at hu; omega)]
  | cpu =>
    simp only [wantedLimit, limitsAfter]
    by_cases hu : c.maxCpuTime = UNLIMITED
    · have hu' : c.maxCpuTime = -1 := hu
      rw [if_pos hu', if_neg (fun (h : c.maxCpuTime ≠ UNLIMITED) => h hu)]
    · have hu' : c.maxCpuTime ≠ -1 := hu
      rw [if_pos hu, if_neg hu']
      have : (c.maxCpuTime + 1000).tdiv 1000 = c.maxCpuTime / 1000 + 1 := by
        rw [Int.tdiv_eq_ediv_of_nonneg (by omega)]; omega
      rw [this, castU64_of_range (by omega) (by omega)]
  | nproc =>
    simp only [wantedLimit, limitsAfter]
    by_cases hu : c.maxProcessNumber = UNLIMITED
    · have hu' : c.maxProcessNumber = -1 := hu
      rw [if_pos hu', if_neg (fun (h : c.maxProcessNumber ≠ UNLIMITED) => h hu)]
    · have hu' : c.maxProcessNumber ≠ -1 := hu
      rw [if_pos hu, if_neg hu', castU64_of_range (by omega) (by omega)]
  | fsize =>
    simp only [wantedLimit, limitsAfter]
    by_cases hu : c.maxOutputSize = UNLIMITED
    · have hu' : c.maxOutputSize = -1 := hu
      rw [if_pos hu', if_neg (fun (h : c.maxOutputSize ≠ UNLIMITED) => h hu)]
    · have hu' : c.maxOutputSize ≠ -1 := hu
      rw [if_pos hu, if_neg hu', castU64_of_range (by omega) (by omega)]

theorem sampleConfig_range : sampleConfig.InRange := by
  constructor <;> simp [sampleConfig, IsInt, IsLong, INT_MIN, INT_MAX, LONG_MIN, LONG_MAX]

/-- The sample configuration starts its program. -/
theorem sample_started : Started sampleConfig (sampleChild fun _ => false) sampleProc
    (stateAtExec sampleConfig (sampleChild fun _ => false) sampleProc) := by
  have hcalm : Calm False (sampleChild fun _ => false) [] sampleProc := ⟨False.elim, rfl, rfl⟩
  rcases childProcess_calm hcalm sampleConfig (.inl (by decide)) False.elim with ⟨q, h⟩ | ⟨s, q, h, hn, _⟩
  · have hs : Started sampleConfig (sampleChild fun _ => false) sampleProc q := ⟨_, _, _, h⟩
    rw [← (started_inv hs).1]; exact hs
  · refine absurd ⟨⟨?_, ?_, ?_, ?_, ?_, ?_, ?_, ?_, ?_, ?_, ?_⟩, rfl, rfl⟩ hn
    iterate 5 · intro _; rfl
    iterate 2 · intro _; exact ⟨rfl, rfl⟩
    · intro _; exact ⟨fun _ => rfl, rfl⟩
    · intro _; exact ⟨rfl, rfl, rfl⟩
    · intro _; exact ⟨rfl, .inl rfl⟩
    · intro name hn
      cases hn
      exact ⟨_, rfl, rfl, fun _ _ => rfl, rfl⟩

example : ConfigOk sampleConfig ∧ sampleConfig.InRange ∧
    Started sampleConfig (sampleChild fun _ => false) sampleProc
      (stateAtExec sampleConfig (sampleChild fun _ => false) sampleProc) :=
  ⟨sampleConfig_ok, sampleConfig_range, sample_started⟩

/-- C15, the full claim: whatever the valid `max_cpu_time`, `child_process` does not run into undefined behaviour, and when
the program starts the kernel limit is the smallest number of whole seconds strictly above it. -/
def C15_full : Prop :=
  ∀ (c : Config) (e : ChildEnv) (p : Proc), ConfigOk c → c.InRange → c.maxCpuTime ≠ -1 →
    (∀ q, childProcess c e p ≠ .stop .ub q) ∧
    ∀ q, Started c e p q → ∃ s, q.limits .cpu = ⟨s, s⟩ ∧ c.maxCpuTime < s * 1000 ∧ ∀ s', c.maxCpuTime < s' * 1000 → s ≤ s'

/-- C15, the part that holds: for every `max_cpu_time` up to `INT_MAX - 1000` the limit is the smallest number of whole
seconds strictly above it (so CPU use of at most `max_cpu_time` ms never reaches it, and reaching it means more was used),
and no evaluation overflows.  Missing: the last 1000 values of `int`. -/
theorem C15_cpu_seconds_partial (c : Config) (e : ChildEnv) (p : Proc) (hc : ConfigOk c) (hr : c.InRange)
    (hu : c.maxCpuTime ≠ -1) (htop : c.maxCpuTime ≤ 2147483647 - 1000) :
    (∀ q, childProcess c e p ≠ .stop .ub q) ∧
    ∀ q, Started c e p q → ∃ s, q.limits .cpu = ⟨s, s⟩ ∧ c.maxCpuTime < s * 1000 ∧ ∀ s', c.maxCpuTime < s' * 1000 → s ≤ s' := by
  have hpos : 1 ≤ c.maxCpuTime := by have := hc.1; simp only [LimitOk] at this; omega
  constructor
  · intro q hq
    have hub : addInt c.maxCpuTime 1000 ≠ .ub ∨ c.maxCpuTime = UNLIMITED := by
      left
      unfold addInt
      rw [if_pos (by simp only [IsInt, INT_MIN, INT_MAX]; omega)]
      simp
    rcases childProcess_run (e := e) (p := p) c hub with ⟨s, q', h', hs, _⟩ | ⟨h', _⟩
    · rw [hq] at h'
      cases h'
      rcases hs with h | h | ⟨_, _, h⟩ | h | h | ⟨h, _⟩ <;> cases h
    · rw [hq] at h'; cases h'
  · intro q h
    have := C14_limits c e p q hc hr h .cpu
    simp only [wantedLimit, if_neg hu] at this
    exact ⟨_, this, by omega, by omega⟩

example : ConfigOk sampleConfig ∧ sampleConfig.InRange ∧ sampleConfig.maxCpuTime ≠ -1 ∧
    sampleConfig.maxCpuTime ≤ 2147483647 - 1000 := ⟨sampleConfig_ok, sampleConfig_range, by decide, by decide⟩

/-- C15 fails at the top of the range: `max_cpu_time = INT_MAX` makes child.c:61 overflow. -/
theorem C15_false : ¬ C15_full := by
  intro h
  have hc : ConfigOk { sampleConfig with maxCpuTime := 2147483647 } := by simp [ConfigOk, LimitOk, sampleConfig]
  have hr : Config.InRange { sampleConfig with maxCpuTime := 2147483647 } := by
    constructor <;> simp [sampleConfig, IsInt, IsLong, INT_MIN, INT_MAX, LONG_MIN, LONG_MAX]
  exact (h _ (sampleChild fun _ => false) sampleProc hc hr (by decide)).1 _ rfl

/-- C15, what happens instead: for every larger `max_cpu_time` the child of a root caller without filters reaches the overflow, if the
two limits set before can be set. -/
theorem C15_top (c : Config) (e : ChildEnv) (p : Proc) (htop : 2147483647 - 1000 < c.maxCpuTime)
    (hroot : p.uid.e = 0) (hflt : p.filters = []) (hs : e.fails (.rlimit .stack) = false) (ha : e.fails (.rlimit .as) = false) :
    ∃ q, childProcess c e p = .stop .ub q := by
  have h1 : ∀ r w v (p : Proc), p.uid.e = 0 → p.filters = [] → e.fails (.rlimit r) = false →
      ∃ q, limitStep r w v e p = .ok () q ∧ q.uid.e = 0 ∧ q.filters = [] := by
    intro r w v p hp hf hr
    cases w
    · exact ⟨p, rfl, hp, hf⟩
    · refine ⟨{ p with limits := fun r' => if r' = r then ⟨v, v⟩ else p.limits r' }, ?_, hp, hf⟩
      have : setrlimit r v e p = .ok true { p with limits := fun r' => if r' = r then ⟨v, v⟩ else p.limits r' } := by
        have he : ∀ r, evalAll p.filters r = .allow := by
          intro r
          rw [hf]
          rfl
        unfold setrlimit attempt enter
        simp [bind_run, he, hr, Proc.privileged, hp, M.modify]
      simp [limitStep, bind_run, this]
  obtain ⟨q1, g1, u1, f1⟩ := h1 .stack (c.maxStack ≠ UNLIMITED) (castU64 c.maxStack) p hroot hflt hs
  obtain ⟨q2, g2, _, _⟩ := h1 .as (c.memoryLimitCheckOnly = 0 ∧ c.maxMemory ≠ UNLIMITED) (castU64 (castU64 c.maxMemory * 2)) q1 u1 f1 ha
  refine ⟨q2, ?_⟩
  unfold childProcess
  rw [bind_run, g1]
  simp only
  rw [bind_run, g2]
  simp only
  have hu : addInt c.maxCpuTime 1000 = .ub := by
    unfold addInt
    rw [if_neg (by simp only [IsInt, INT_MIN, INT_MAX]; omega)]
  have hne : c.maxCpuTime ≠ UNLIMITED := by unfold UNLIMITED; omega
  have hcs : cpuStep c e q2 = .stop .ub q2 := by
    unfold cpuStep
    rw [if_pos hne, hu]
    rfl
  rw [bind_run, hcs]

example : sampleProc.uid.e = 0 ∧ sampleProc.filters = [] := ⟨rfl, rfl⟩

/-- C16: unless check-only, the address-space limit is exactly `2 * max_memory`, for every `max_memory` a `long` can hold;
it is never the "no limit" value. -/
theorem C16_address_space (c : Config) (e : ChildEnv) (p q : Proc) (hc : ConfigOk c) (hr : c.InRange)
    (hm : c.memoryLimitCheckOnly = 0) (hu : c.maxMemory ≠ -1) (h : Started c e p q) :
    q.limits .as = ⟨2 * c.maxMemory, 2 * c.maxMemory⟩ ∧ 0 < 2 * c.maxMemory ∧ 2 * c.maxMemory < infinity := by
  have := C14_limits c e p q hc hr h .as
  rw [wantedLimit, if_neg (by omega)] at this
  have h1 := hc.2.2.1
  have h2 := hr.mem
  simp only [LimitOk, IsLong, LONG_MAX, LONG_MIN] at h1 h2
  exact ⟨this, by omega, by unfold infinity; omega⟩

example : sampleConfig.memoryLimitCheckOnly = 0 ∧ sampleConfig.maxMemory ≠ -1 := by decide

/-! ## C17 -/

theorem profileOf_rules {e : ChildEnv} {name : CStr} {f : Filter} (h : profileOf e name = some f) :
    f.rules.length = ruleCount name e.hasExecveat := by
  unfold profileOf at h
  unfold ruleCount
  split at h
  · cases h; rw [if_pos (by assumption)]; rfl
  rw [if_neg (by assumption)]
  split at h
  · cases h; rw [if_pos (by assumption)]; rfl
  rw [if_neg (by assumption)]
  split at h
  · cases h; rw [if_pos (by assumption)]; cases hx : e.hasExecveat <;> rfl
  rw [if_neg (by assumption)]
  split at h
  · cases h; rw [if_pos (by assumption)]; cases hx : e.hasExecveat <;> rfl
  rw [if_neg (by assumption)]
  split at h
  · cases h; rw [if_pos (by assumption)]; cases hx : e.hasExecveat <;> rfl
  · cases h

/-- C17: the program is started only if every requested step succeeded. -/
theorem C17_fail_closed (c : Config) (e : ChildEnv) (p q : Proc) (hc : ConfigOk c) (h : Started c e p q) (s : Site)
    (hs : Requested c e.hasExecveat s) : e.fails s = false := by
  obtain ⟨_, ok, hx, _⟩ := started_inv h
  have hk : castU32 (-1) = keepId := rfl
  have hne : ∀ o : Option CStr, o.isSome → o ≠ none := by intro o; cases o <;> simp
  cases s with
  | rlimit r =>
    simp only [Requested, wantedLimit] at hs
    cases r with
    | stack => exact ok.stack (by have := hc.2.2.2.2.2; unfold UNLIMITED; omega)
    | as =>
      refine ok.as ?_
      by_cases hu : c.memoryLimitCheckOnly ≠ 0 ∨ c.maxMemory = -1
      · simp only [if_pos hu] at hs; cases hs
      · unfold UNLIMITED; omega
    | cpu =>
      refine ok.cpu fun hu => ?_
      have hu : c.maxCpuTime = -1 := hu
      simp only [if_pos hu] at hs; cases hs
    | nproc =>
      refine ok.nproc fun hu => ?_
      have hu : c.maxProcessNumber = -1 := hu
      simp only [if_pos hu] at hs; cases hs
    | fsize =>
      refine ok.fsize fun hu => ?_
      have hu : c.maxOutputSize = -1 := hu
      simp only [if_pos hu] at hs; cases hs
  | openInput => exact (ok.input (hne _ hs)).1
  | dupInput => exact (ok.input (hne _ hs)).2
  | openOutput => exact (ok.output (hne _ hs)).1
  | dupOutput => exact (ok.output (hne _ hs)).2
  | openError => exact (ok.error (hne _ hs.1)).1 hs.2
  | dupError => exact (ok.error (hne _ hs)).2
  | setgid => exact (ok.gid (hk ▸ hs)).1
  | setgroups => exact (ok.gid (hk ▸ hs)).2.1
  | setuid => exact (ok.uid (hk ▸ hs)).1
  | scInit =>
    simp only [Requested, Option.isSome_iff_exists] at hs
    obtain ⟨name, hs⟩ := hs
    obtain ⟨f, _, h, _⟩ := ok.seccomp name hs
    exact h
  | scLoad =>
    simp only [Requested, Option.isSome_iff_exists] at hs
    obtain ⟨name, hs⟩ := hs
    obtain ⟨f, _, _, _, h⟩ := ok.seccomp name hs
    exact h
  | scRule k =>
    obtain ⟨name, hs, hk⟩ := hs
    obtain ⟨f, hf, _, h, _⟩ := ok.seccomp name hs
    exact h k (by rw [profileOf_rules hf]; exact hk)
  | exec => exact hx
  | logLock => cases hs
  | logWrite => cases hs
  | logUnlock => cases hs

example : Requested sampleConfig true .setuid ∧ Requested sampleConfig true (.scRule 27) ∧
    ¬ Requested sampleConfig true (.scRule 28) :=
  ⟨by unfold Requested; decide, ⟨_, rfl, by decide⟩, fun ⟨_, h, hk⟩ => by cases h; revert hk; decide⟩

theorem profileOf_known (e : ChildEnv) (name : CStr) (h : name ∈ profileNames) : ∃ f, profileOf e name = some f := by
  simp only [profileNames, List.mem_cons, List.not_mem_nil, or_false] at h
  rcases h with rfl | rfl | rfl | rfl | rfl <;> exact ⟨_, rfl⟩

/-- C17, the converse: a root caller with no filter of its own, whose configuration is valid, avoids the overflow of C15
and names no unknown profile, starts the program whenever no requested step fails. -/
theorem C17_starts (c : Config) (e : ChildEnv) (p : Proc) (hc : ConfigOk c) (htop : c.maxCpuTime ≤ 2147483647 - 1000)
    (hroot : p.uid.e = 0) (hflt : p.filters = [])
    (hname : ∀ name, c.seccompRuleName = some name → name ∈ profileNames)
    (hok : ∀ s, Requested c e.hasExecveat s → e.fails s = false) :
    ∃ q, childProcess c e p = .stop (.execed c.exePath c.args c.env) q := by
  have hsome : ∀ o : Option CStr, o ≠ none → o.isSome := by intro o; cases o <;> simp
  have hub : addInt c.maxCpuTime 1000 ≠ .ub ∨ c.maxCpuTime = UNLIMITED := by
    have := hc.1
    simp only [LimitOk] at this
    left
    unfold addInt
    rw [if_pos (by simp only [IsInt, INT_MIN, INT_MAX]; omega)]
    simp
  have steps : StepsOk c e p := by
    refine ⟨fun _ => hok _ rfl, ?_, ?_, ?_, ?_, ?_, ?_, ?_, ?_, ?_, ?_⟩
    · intro h
      refine hok _ ?_
      unfold UNLIMITED at h
      simp only [Requested, wantedLimit]
      rw [if_neg (by omega)]; rfl
    · intro h
      refine hok _ ?_
      simp only [Requested, wantedLimit]
      rw [if_neg (show ¬ c.maxCpuTime = -1 from h)]; rfl
    · intro h
      refine hok _ ?_
      simp only [Requested, wantedLimit]
      rw [if_neg (show ¬ c.maxProcessNumber = -1 from h)]; rfl
    · intro h
      refine hok _ ?_
      simp only [Requested, wantedLimit]
      rw [if_neg (show ¬ c.maxOutputSize = -1 from h)]; rfl
    · exact fun h => ⟨hok _ (hsome _ h), hok _ (hsome _ h)⟩
    · exact fun h => ⟨hok _ (hsome _ h), hok _ (hsome _ h)⟩
    · exact fun h => ⟨fun h' => hok _ ⟨hsome _ h, h'⟩, hok _ (hsome _ h)⟩
    · exact fun h => ⟨hok .setgid h, hok .setgroups h, hroot⟩
    · exact fun h => ⟨hok .setuid h, .inl hroot⟩
    · intro name hn
      obtain ⟨f, hf⟩ := profileOf_known e name (hname name hn)
      refine ⟨f, hf, hok _ (by simp [Requested, hn]), ?_, hok _ (by simp [Requested, hn])⟩
      intro j hj
      rw [profileOf_rules hf] at hj
      exact hok _ ⟨name, hn, hj⟩
  rcases childProcess_calm (Q := False) (e := e) ⟨False.elim, hflt, rfl⟩ c hub False.elim with h | ⟨s, q, _, hn, _⟩
  · exact h
  · exact absurd ⟨steps, hroot, hok _ trivial⟩ hn


example : sampleProc.uid.e = 0 ∧ sampleProc.filters = [] ∧
    (∀ name, sampleConfig.seccompRuleName = some name → name ∈ profileNames) :=
  ⟨rfl, rfl, fun name h => by cases h; decide⟩

/-! ## C18 -/

/-- C18: if the program starts with a requested uid and gid (neither -1), then all its user ids are the requested uid, all
its group ids the requested gid, and its supplementary groups exactly that gid — for every initial credential set. -/
theorem C18_privileges_dropped (c : Config) (e : ChildEnv) (p q : Proc) (hu : c.uid ≠ keepId) (hg : c.gid ≠ keepId)
    (h : Started c e p q) :
    q.uid = ⟨c.uid, c.uid, c.uid⟩ ∧ q.gid = ⟨c.gid, c.gid, c.gid⟩ ∧ q.groups = [c.gid] := by
  obtain ⟨rfl, ok, _⟩ := started_inv h
  have hroot := (ok.gid hg).2.2
  have hu' : ¬ c.uid = castU32 (-1) := hu
  have hg' : ¬ c.gid = castU32 (-1) := hg
  rw [stateAtExec_eq, (afterSeccomp_ids c e _).1, (afterSeccomp_ids c e _).2.1, (afterSeccomp_ids c e _).2.2]
  unfold afterUid
  rw [if_neg hu']
  unfold afterGid
  rw [if_neg hg']
  simp only [(redirections_frame c p).2.1]
  rw [if_pos hroot]
  exact ⟨rfl, rfl, rfl⟩

/-- Whatever credentials the sample process had. -/
example (q : Proc) (h : Started sampleConfig (sampleChild fun _ => false) sampleProc q) : q.groups = [sampleConfig.gid] :=
  (C18_privileges_dropped _ _ _ _ (by decide) (by decide) h).2.2

/-- C18, each id on its own: with gid -1 a root caller's child still gives up its user ids, and keeps its groups; with uid
-1 the user ids are as inherited. -/
theorem C18_each_id (c : Config) (e : ChildEnv) (p q : Proc) (hroot : p.uid.e = 0) (h : Started c e p q) :
    (q.uid = if c.uid = keepId then p.uid else ⟨c.uid, c.uid, c.uid⟩) ∧
    (q.gid = if c.gid = keepId then p.gid else ⟨c.gid, c.gid, c.gid⟩) ∧
    (q.groups = if c.gid = keepId then p.groups else [c.gid]) := by
  obtain ⟨rfl, ok, _⟩ := started_inv h
  have hk : castU32 (-1) = keepId := rfl
  rw [stateAtExec_eq, (afterSeccomp_ids c e _).1, (afterSeccomp_ids c e _).2.1, (afterSeccomp_ids c e _).2.2]
  unfold afterUid afterGid
  rw [hk]
  by_cases h1 : c.uid = keepId <;> by_cases h2 : c.gid = keepId <;>
    simp [h1, h2, (redirections_frame c p).2.1, (redirections_frame c p).2.2.1, (redirections_frame c p).2.2.2.1, hroot]

example : sampleConfig.uid ≠ keepId ∧ sampleConfig.gid ≠ keepId ∧ sampleProc.groups = [0, 1, 4] := by decide

/-! ## C20, C22: descriptors -/

theorem redirected_fds (p : Proc) (path : CStr) (w : Bool) (n m : Nat) :
    (redirected p path w n).fds.get m =
      if m = n ∨ m = p.fds.lowest then some p.ofds.length else p.fds.get m := by
  simp only [redirected, FdTable.get_set, opened_get, if_true]
  by_cases h1 : m = n <;> by_cases h2 : m = p.fds.lowest <;> simp [h1, h2]

theorem redirected_ofds (p : Proc) (path : CStr) (w : Bool) (n : Nat) :
    (redirected p path w n).ofds = p.ofds ++ [⟨path, !w, w, w⟩] := rfl

theorem lowest_ne_of_open {t : FdTable} {n : Nat} (h : (t.get n).isSome) : t.lowest ≠ n := by
  rintro rfl
  rw [FdTable.get_lowest] at h
  cases h


/-- What one redirection does to the descriptors. -/
structure Redir (t t' : Proc) (n : Nat) (f : OpenFile) : Prop where
  target : t'.fds.get n = some t.ofds.length
  keep : ∀ m, m ≠ n → (t.fds.get m).isSome → t'.fds.get m = t.fds.get m
  only : ∀ m, t'.fds.get m = some t.ofds.length ∨ t'.fds.get m = t.fds.get m
  old : ∀ k, k < t.ofds.length → t'.ofds[k]? = t.ofds[k]?
  new : t'.ofds[t.ofds.length]? = some f
  len : t'.ofds.length = t.ofds.length + 1

theorem redirected_redir (t : Proc) (path : CStr) (w : Bool) (n : Nat) :
    Redir t (redirected t path w n) n ⟨path, !w, w, w⟩ := by
  refine ⟨by rw [redirected_fds]; simp, ?_, ?_, ?_, ?_, ?_⟩
  · intro m hm ho
    rw [redirected_fds, if_neg]
    have := lowest_ne_of_open ho
    omega
  · intro m
    rw [redirected_fds]
    split
    · exact .inl rfl
    · exact .inr rfl
  · intro k hk
    rw [redirected_ofds, List.getElem?_append_left hk]
  · rw [redirected_ofds]; simp
  · rw [redirected_ofds]; simp

/-- C20: when the program starts, each configured stream is open on a file description made for it by the judger: stdin on
the input file, readable only; stdout and stderr on the output and error file, writable only and emptied; stdout and stderr
share one description exactly when the two paths are equal; a stream that is not configured, if it was open, is still what
the caller had there.  For every inherited descriptor table. -/
theorem C20_streams (c : Config) (e : ChildEnv) (p q : Proc) (h : Started c e p q) :
    (∀ path, c.inputPath = some path → StreamIs q p.ofds.length 0 ⟨path, true, false, false⟩) ∧
    (∀ path, c.outputPath = some path → StreamIs q p.ofds.length 1 ⟨path, false, true, true⟩) ∧
    (∀ path, c.errorPath = some path → StreamIs q p.ofds.length 2 ⟨path, false, true, true⟩) ∧
    (∀ path path', c.outputPath = some path → c.errorPath = some path' →
      (q.fds.get 1 = q.fds.get 2 ↔ path = path')) ∧
    (c.inputPath = none → (p.fds.get 0).isSome → q.fds.get 0 = p.fds.get 0) ∧
    (c.outputPath = none → (p.fds.get 1).isSome → q.fds.get 1 = p.fds.get 1) ∧
    (c.errorPath = none → (p.fds.get 2).isSome → q.fds.get 2 = p.fds.get 2) ∧
    (∀ k, k < p.ofds.length → q.ofds[k]? = p.ofds[k]?) := by
  obtain ⟨rfl, _⟩ := started_inv h
  rw [stateAtExec_eq]
  obtain ⟨_, hfd, hof, _⟩ := late_frame c e (redirections c p)
  generalize afterSeccomp c e (afterUid c (afterGid c (redirections c p))) = q at hfd hof
  unfold StreamIs
  rw [hfd, hof]
  clear hfd hof h
  unfold redirections
  simp only []
  generalize hp0 : ({ p with limits := limitsAfter c p.limits } : Proc) = p0
  have e1 : p.fds = p0.fds := by rw [← hp0]
  have e2 : p.ofds = p0.ofds := by rw [← hp0]
  rw [e1, e2]
  clear hp0 e1 e2
  -- input
  have h1 : (c.inputPath = none ∧ (afterInput c p0).2 = p0) ∨
      ∃ path, c.inputPath = some path ∧ Redir p0 (afterInput c p0).2 0 ⟨path, true, false, false⟩ := by
    unfold afterInput
    cases c.inputPath with
    | none => exact .inl ⟨rfl, rfl⟩
    | some path => exact .inr ⟨path, rfl, redirected_redir p0 path false 0⟩
  generalize (afterInput c p0).2 = p1 at h1
  -- output
  have h2 : (c.outputPath = none ∧ (afterOutput c p1) = (none, p1)) ∨
      ∃ path, c.outputPath = some path ∧ (afterOutput c p1).1 = some (newFile p1) ∧
        Redir p1 (afterOutput c p1).2 1 ⟨path, false, true, true⟩ ∧
        (afterOutput c p1).2.fds.get (newFile p1).fd = some p1.ofds.length := by
    unfold afterOutput
    cases c.outputPath with
    | none => exact .inl ⟨rfl, rfl⟩
    | some path =>
      refine .inr ⟨path, rfl, rfl, redirected_redir p1 path true 1, ?_⟩
      rw [redirected_fds, if_pos (.inr rfl)]
  generalize afterOutput c p1 = a at h2
  obtain ⟨o, p2⟩ := a
  simp only at h2 ⊢
  -- error
  have h3 : (c.errorPath = none ∧ (afterError c o p2).2 = p2) ∨
      (∃ path, c.errorPath = some path ∧ c.outputPath = some path ∧
        (afterError c o p2).2 = { p2 with fds := p2.fds.set 2 (p2.fds.get (o.elim 0 (·.fd))) }) ∨
      (∃ path, c.errorPath = some path ∧ c.outputPath ≠ some path ∧
        Redir p2 (afterError c o p2).2 2 ⟨path, false, true, true⟩) := by
    unfold afterError
    cases c.errorPath with
    | none => exact .inl ⟨rfl, rfl⟩
    | some path =>
      by_cases hs : c.outputPath = some path
      · exact .inr (.inl ⟨path, rfl, hs, by simp [hs]⟩)
      · refine .inr (.inr ⟨path, rfl, hs, ?_⟩)
        simp only [hs, if_false]
        exact redirected_redir p2 path true 2
  generalize (afterError c o p2).2 = p3 at h3
  -- facts after input
  have a1 : ∀ k, k < p0.ofds.length → p1.ofds[k]? = p0.ofds[k]? := by
    rcases h1 with ⟨_, rfl⟩ | ⟨path, _, hr⟩
    · exact fun _ _ => rfl
    · exact hr.old
  have a2 : p0.ofds.length ≤ p1.ofds.length := by
    rcases h1 with ⟨_, rfl⟩ | ⟨path, _, hr⟩
    · exact Nat.le_refl _
    · rw [hr.len]; omega
  have a3 : ∀ path, c.inputPath = some path → p1.fds.get 0 = some p0.ofds.length ∧ p0.ofds.length < p1.ofds.length ∧
      p1.ofds[p0.ofds.length]? = some ⟨path, true, false, false⟩ := by
    intro path hp
    rcases h1 with ⟨hn, rfl⟩ | ⟨path', hn, hr⟩
    · rw [hp] at hn; cases hn
    · rw [hp] at hn; cases hn
      exact ⟨hr.target, by rw [hr.len]; omega, hr.new⟩
  have a4 : ∀ m, (m = 0 → c.inputPath = none) → (p0.fds.get m).isSome → p1.fds.get m = p0.fds.get m := by
    intro m hm ho
    rcases h1 with ⟨_, rfl⟩ | ⟨path, hn, hr⟩
    · rfl
    · exact hr.keep m (fun h => by rw [hm h] at hn; cases hn) ho
  -- facts after output
  have b1 : ∀ k, k < p1.ofds.length → p2.ofds[k]? = p1.ofds[k]? := by
    rcases h2 with ⟨_, h⟩ | ⟨path, _, _, hr, _⟩
    · cases h; exact fun _ _ => rfl
    · exact hr.old
  have b2 : p1.ofds.length ≤ p2.ofds.length := by
    rcases h2 with ⟨_, h⟩ | ⟨path, _, _, hr, _⟩
    · cases h; exact Nat.le_refl _
    · rw [hr.len]; omega
  have b3 : ∀ path, c.outputPath = some path → p2.fds.get 1 = some p1.ofds.length ∧ p1.ofds.length < p2.ofds.length ∧
      p2.ofds[p1.ofds.length]? = some ⟨path, false, true, true⟩ ∧
      p2.fds.get (o.elim 0 (·.fd)) = some p1.ofds.length := by
    intro path hp
    rcases h2 with ⟨hn, h⟩ | ⟨path', hn, ho, hr, hg⟩
    · rw [hp] at hn; cases hn
    · rw [hp] at hn; cases hn
      subst ho
      exact ⟨hr.target, by rw [hr.len]; omega, hr.new, hg⟩
  have b4 : ∀ m, (m = 1 → c.outputPath = none) → (p1.fds.get m).isSome → p2.fds.get m = p1.fds.get m := by
    intro m hm ho
    rcases h2 with ⟨_, h⟩ | ⟨path, hn, _, hr, _⟩
    · cases h; rfl
    · exact hr.keep m (fun h => by rw [hm h] at hn; cases hn) ho
  -- facts after error
  have c1 : ∀ k, k < p2.ofds.length → p3.ofds[k]? = p2.ofds[k]? := by
    rcases h3 with ⟨_, rfl⟩ | ⟨path, _, _, rfl⟩ | ⟨path, _, _, hr⟩
    · exact fun _ _ => rfl
    · exact fun _ _ => rfl
    · exact hr.old
  have c4 : ∀ m, (m = 2 → c.errorPath = none) → (p2.fds.get m).isSome → p3.fds.get m = p2.fds.get m := by
    intro m hm ho
    rcases h3 with ⟨_, rfl⟩ | ⟨path, hn, _, rfl⟩ | ⟨path, hn, _, hr⟩
    · rfl
    · have : m ≠ 2 := fun h => by rw [hm h] at hn; cases hn
      simp [FdTable.get_set, this]
    · exact hr.keep m (fun h => by rw [hm h] at hn; cases hn) ho
  refine ⟨?_, ?_, ?_, ?_, ?_, ?_, ?_, ?_⟩
  · intro path hp
    obtain ⟨x1, x2, x3⟩ := a3 path hp
    refine ⟨p0.ofds.length, Nat.le_refl _, ?_, ?_⟩
    · have y : p2.fds.get 0 = p1.fds.get 0 := b4 0 (by omega) (by rw [x1]; rfl)
      rw [c4 0 (by omega) (by rw [y, x1]; rfl), y, x1]
    · rw [c1 _ (by omega), b1 _ x2, x3]
  · intro path hp
    obtain ⟨x1, x2, x3, _⟩ := b3 path hp
    exact ⟨p1.ofds.length, a2, by rw [c4 1 (by omega) (by rw [x1]; rfl), x1], by rw [c1 _ x2, x3]⟩
  · intro path hp
    rcases h3 with ⟨hn, rfl⟩ | ⟨path', hn, hs, rfl⟩ | ⟨path', hn, hs, hr⟩
    · rw [hp] at hn; cases hn
    · rw [hp] at hn; cases hn
      obtain ⟨x1, x2, x3, x4⟩ := b3 path hs
      exact ⟨p1.ofds.length, a2, by simp [FdTable.get_set, x4], x3⟩
    · rw [hp] at hn; cases hn
      exact ⟨p2.ofds.length, by omega, hr.target, hr.new⟩
  · intro path path' hp hp'
    obtain ⟨x1, x2, x3, x4⟩ := b3 path hp
    rcases h3 with ⟨hn, rfl⟩ | ⟨path'', hn, hs, rfl⟩ | ⟨path'', hn, hs, hr⟩
    · rw [hp'] at hn; cases hn
    · rw [hp'] at hn; cases hn
      rw [hp] at hs; cases hs
      simp [FdTable.get_set, x4, x1]
    · rw [hp'] at hn; cases hn
      rw [hp] at hs
      rw [c4 1 (by omega) (by rw [x1]; rfl), x1, hr.target]
      simp only [Option.some.injEq]
      constructor
      · intro h; omega
      · intro h; exact absurd (by rw [h]) hs
  · intro hn ho
    have y1 := a4 0 (fun _ => hn) ho
    have y2 := b4 0 (by omega) (by rw [y1]; exact ho)
    rw [c4 0 (by omega) (by rw [y2, y1]; exact ho), y2, y1]
  · intro hn ho
    have y1 := a4 1 (by omega) ho
    have y2 := b4 1 (fun _ => hn) (by rw [y1]; exact ho)
    rw [c4 1 (by omega) (by rw [y2, y1]; exact ho), y2, y1]
  · intro hn ho
    have y1 := a4 2 (by omega) ho
    have y2 := b4 2 (by omega) (by rw [y1]; exact ho)
    rw [c4 2 (fun _ => hn) (by rw [y2, y1]; exact ho), y2, y1]
  · intro k hk
    rw [c1 k (by omega), b1 k (by omega), a1 k hk]

example : ∃ path path', sampleConfig.outputPath = some path ∧ sampleConfig.errorPath = some path' ∧ path ≠ path' :=
  ⟨_, _, rfl, rfl, by decide⟩

/-! ## C21 -/

/-- C21: `child_process` never closes a `FILE` that is not open, and when its failure path runs to the end (SIGUSR1 or
`exit(1)`) exactly the `FILE`s that were open before are open again.  (A filter or a signal of the log write may end the
process earlier; then nothing more is closed.) -/
theorem C21_no_double_close (c : Config) (e : ChildEnv) (p q : Proc) (s : Stop) (hp : FilesOk p)
    (h : childProcess c e p = .stop s q) (hub : s ≠ .ub) :
    q.badClose = p.badClose ∧
    (e.stderrKills ≠ some 10 → s = .killed 10 ∨ s = .exited 1 → q.files = p.files) := by
  have held : Held p p.files none none none := ⟨by simp, hp.1, hp.2⟩
  by_cases hu : addInt c.maxCpuTime 1000 ≠ .ub ∨ c.maxCpuTime = UNLIMITED
  · rcases childProcess_run (e := e) (p := p) c hu with ⟨s', q', h', _, hc⟩ | ⟨h', _⟩
    · rw [h] at h'
      cases h'
      exact hc _ held
    · rw [h] at h'
      cases h'
      refine ⟨?_, fun _ hs => ?_⟩
      · rw [stateAtExec_eq, (late_frame c e _).2.2.2.2, (redirections_frame c p).2.2.2.2.2.2]
      · rcases hs with hs | hs <;> cases hs
  · simp only [not_or, Classical.not_not] at hu
    rcases childProcess_ub (e := e) (p := p) c hu.1 hu.2 with ⟨s', q', h', _, hc⟩ | ⟨q', h'⟩
    · rw [h] at h'
      cases h'
      exact hc _ held
    · rw [h] at h'; cases h'; exact absurd rfl hub

example : FilesOk sampleProc ∧ (sampleChild (· == .dupError)).stderrKills ≠ some 10 ∧
    ∃ q, childProcess { sampleConfig with errorPath := some c!"/out" } (sampleChild (· == .dupError)) sampleProc =
      .stop (.killed 10) q :=
  ⟨⟨by decide, by decide⟩, by decide, _, rfl⟩

/-! ## C22 -/

/-- C22, the full claim: a descriptor above 2 of the started program is one that the caller itself had open (not the
judger's log). -/
def C22_full : Prop :=
  ∀ (c : Config) (e : ChildEnv) (p q : Proc), ConfigOk c → c.InRange → FilesOk p → Started c e p q →
    ∀ fd, 2 < fd → (q.fds.get fd).isSome → q.fds.get fd = p.fds.get fd ∧ ∀ f, e.log = some f → fd ≠ f.fd

/-- C22 is false: the judged program inherits the judger's log (here descriptor 3, writable) and a second descriptor on
each redirected file (4, 5, 6), because none is opened close-on-exec and none is closed. -/
theorem C22_false : ¬ C22_full := by
  intro h
  have := h _ _ _ _ sampleConfig_ok sampleConfig_range ⟨by decide, by decide⟩ sample_started 3 (by decide) (by decide)
  exact this.2 ⟨0, 3⟩ rfl rfl

/-- The descriptors of that witness. -/
theorem C22_witness :
    (stateAtExec sampleConfig (sampleChild fun _ => false) sampleProc).fds =
      [some 4, some 5, some 6, some 3, some 4, some 5, some 6] ∧
    (stateAtExec sampleConfig (sampleChild fun _ => false) sampleProc).ofds[3]? = some ⟨c!"judger.log", false, true, false⟩ := by
  decide

/-- C22, the part that holds: a descriptor above 2 of the started program either is one that was open before
`child_process` (the caller's own or the log), unchanged, or leads to the same open file as one of the configured standard
streams.  Missing: that the log and the duplicates are closed. -/
theorem C22_inherited_partial (c : Config) (e : ChildEnv) (p q : Proc) (h : Started c e p q) (fd : Nat) (h2 : 2 < fd)
    (ho : (q.fds.get fd).isSome) :
    q.fds.get fd = p.fds.get fd ∨
    (c.inputPath.isSome ∧ q.fds.get fd = q.fds.get 0) ∨ (c.outputPath.isSome ∧ q.fds.get fd = q.fds.get 1) ∨
    (c.errorPath.isSome ∧ q.fds.get fd = q.fds.get 2) := by
  obtain ⟨rfl, _⟩ := started_inv h
  rw [stateAtExec_eq]
  obtain ⟨_, hfd, _⟩ := late_frame c e (redirections c p)
  generalize afterSeccomp c e (afterUid c (afterGid c (redirections c p))) = q at hfd
  rw [hfd]
  clear hfd h ho
  unfold redirections
  simp only []
  generalize hp0 : ({ p with limits := limitsAfter c p.limits } : Proc) = p0
  have e1 : p.fds = p0.fds := by rw [← hp0]
  rw [e1]
  clear hp0 e1
  have h1 : (afterInput c p0).2.fds.get fd = p0.fds.get fd ∨
      (c.inputPath.isSome ∧ (afterInput c p0).2.fds.get fd = (afterInput c p0).2.fds.get 0 ∧
       ((afterInput c p0).2.fds.get 0).isSome) := by
    unfold afterInput
    cases c.inputPath with
    | none => exact .inl rfl
    | some path =>
      have hr := redirected_redir p0 path false 0
      rcases hr.only fd with h | h
      · exact .inr ⟨rfl, by rw [hr.target]; exact h, by simp only [hr.target]; rfl⟩
      · exact .inl h
  generalize (afterInput c p0).2 = p1 at h1
  have h2' : ((afterOutput c p1).2.fds.get fd = p1.fds.get fd ∨
      (c.outputPath.isSome ∧ (afterOutput c p1).2.fds.get fd = (afterOutput c p1).2.fds.get 1 ∧
        ((afterOutput c p1).2.fds.get 1).isSome)) ∧
      ((p1.fds.get 0).isSome → (afterOutput c p1).2.fds.get 0 = p1.fds.get 0) := by
    unfold afterOutput
    cases c.outputPath with
    | none => exact ⟨.inl rfl, fun _ => rfl⟩
    | some path =>
      have hr := redirected_redir p1 path true 1
      refine ⟨?_, fun ho => hr.keep 0 (by omega) ho⟩
      rcases hr.only fd with h | h
      · exact .inr ⟨rfl, by rw [hr.target]; exact h, by simp only [hr.target]; rfl⟩
      · exact .inl h
  generalize afterOutput c p1 = a at h2'
  obtain ⟨o, p2⟩ := a
  simp only at h2' ⊢
  have h3 : ((afterError c o p2).2.fds.get fd = p2.fds.get fd ∨
      (c.errorPath.isSome ∧ (afterError c o p2).2.fds.get fd = (afterError c o p2).2.fds.get 2)) ∧
      (∀ m, m < 2 → (p2.fds.get m).isSome → (afterError c o p2).2.fds.get m = p2.fds.get m) := by
    unfold afterError
    cases c.errorPath with
    | none => exact ⟨.inl rfl, fun _ _ _ => rfl⟩
    | some path =>
      by_cases hs : c.outputPath = some path
      · simp only [hs, if_true]
        refine ⟨.inl ?_, fun m hm _ => ?_⟩
        · rw [FdTable.get_set, if_neg (by omega)]
        · rw [FdTable.get_set, if_neg (by omega)]
      · simp only [hs, if_false]
        have hr := redirected_redir p2 path true 2
        refine ⟨?_, fun m hm ho => hr.keep m (by omega) ho⟩
        rcases hr.only fd with h | h
        · exact .inr ⟨rfl, by rw [hr.target]; exact h⟩
        · exact .inl h
  generalize (afterError c o p2).2 = p3 at h3
  rcases h3.1 with g3 | ⟨g3, g3'⟩
  · rcases h2'.1 with g2 | ⟨g2, g2', g2''⟩
    · rcases h1 with g1 | ⟨g1, g1', g1''⟩
      · exact .inl (by rw [g3, g2, g1])
      · refine .inr (.inl ⟨g1, ?_⟩)
        have y := h2'.2 g1''
        rw [g3, g2, h3.2 0 (by omega) (by rw [y]; exact g1''), y, g1']
    · refine .inr (.inr (.inl ⟨g2, ?_⟩))
      rw [g3, h3.2 1 (by omega) g2'', g2']
  · exact .inr (.inr (.inr ⟨g3, g3'⟩))

/-- Descriptors 3 to 6 of the sample program: the log, and a second one for each stream. -/
example : ∃ q, Started sampleConfig (sampleChild fun _ => false) sampleProc q ∧ ∀ fd ∈ [3, 4, 5, 6], 2 < fd ∧ (q.fds.get fd).isSome :=
  ⟨_, sample_started, by decide⟩

/-! ## C23 -/

/-- The filter each profile name stands for. -/
theorem afterSeccomp_filters (c : Config) (e : ChildEnv) (p : Proc) (f : Filter) (name : CStr)
    (hn : c.seccompRuleName = some name) (hf : profileOf e name = some f) :
    (afterSeccomp c e p).filters = f :: p.filters ∧ (afterSeccomp c e p).noNewPrivs = true := by
  unfold afterSeccomp
  simp [hn, hf]

theorem ids_filters (c : Config) (p : Proc) : (afterUid c (afterGid c p)).filters = p.filters ∧
    (afterUid c (afterGid c p)).noNewPrivs = p.noNewPrivs := by
  unfold afterUid afterGid
  by_cases h1 : c.gid = castU32 (-1) <;> by_cases h2 : c.uid = castU32 (-1) <;> by_cases h3 : p.uid.e = 0 <;>
    simp [h1, h2, h3]

/-- C23: with a rule name, the program starts only under the filter of that name (and with no_new_privs set), on top of
what the caller had; a name that is not one of the five never starts the program; without a name nothing is installed. -/
theorem C23_profile_enforced (c : Config) (e : ChildEnv) (p q : Proc) (h : Started c e p q) :
    match c.seccompRuleName with
    | none => q.filters = p.filters ∧ q.noNewPrivs = p.noNewPrivs
    | some name =>
      q.noNewPrivs = true ∧
      ((name = c!"c_cpp" ∧ q.filters = cCppFilter e.exeAddr :: p.filters) ∨
       (name = c!"c_cpp_file_io" ∧ q.filters = cCppFileIoFilter e.exeAddr :: p.filters) ∨
       (name = c!"general" ∧ q.filters = generalFilter e.exeAddr e.hasExecveat :: p.filters) ∨
       (name = c!"golang" ∧ q.filters = golangFilter e.hasExecveat :: p.filters) ∨
       (name = c!"node" ∧ q.filters = nodeFilter e.hasExecveat :: p.filters)) := by
  obtain ⟨rfl, ok, _⟩ := started_inv h
  rw [stateAtExec_eq]
  have hf0 : (afterUid c (afterGid c (redirections c p))).filters = p.filters := by
    rw [(ids_filters c _).1, (redirections_frame c p).2.2.2.2.1]
  have hn0 : (afterUid c (afterGid c (redirections c p))).noNewPrivs = p.noNewPrivs := by
    rw [(ids_filters c _).2, (redirections_frame c p).2.2.2.2.2.1]
  generalize afterUid c (afterGid c (redirections c p)) = p' at hf0 hn0
  cases hn : c.seccompRuleName with
  | none =>
    simp only []
    unfold afterSeccomp
    rw [hn]
    exact ⟨hf0, hn0⟩
  | some name =>
    obtain ⟨f, hf, _⟩ := ok.seccomp name hn
    obtain ⟨h1, h2⟩ := afterSeccomp_filters c e p' f name hn hf
    simp only []
    refine ⟨h2, ?_⟩
    rw [h1, hf0]
    unfold profileOf at hf
    split at hf
    · cases hf; exact .inl ⟨by assumption, rfl⟩
    split at hf
    · cases hf; exact .inr (.inl ⟨by assumption, rfl⟩)
    split at hf
    · cases hf; exact .inr (.inr (.inl ⟨by assumption, rfl⟩))
    split at hf
    · cases hf; exact .inr (.inr (.inr (.inl ⟨by assumption, rfl⟩)))
    split at hf
    · cases hf; exact .inr (.inr (.inr (.inr ⟨by assumption, rfl⟩)))
    · cases hf

/-- The sample program starts, under `c_cpp`. -/
example : ∃ q, Started sampleConfig (sampleChild fun _ => false) sampleProc q ∧ q.noNewPrivs = true :=
  ⟨_, sample_started, (C23_profile_enforced _ _ _ _ sample_started).1⟩

/-- C23, unknown names. -/
theorem C23_unknown_name (c : Config) (e : ChildEnv) (p : Proc) (name : CStr) (hn : c.seccompRuleName = some name)
    (hk : name ∉ profileNames) (q : Proc) : ¬ Started c e p q := by
  intro h
  have := C23_profile_enforced c e p q h
  rw [hn] at this
  apply hk
  rcases this.2 with ⟨h, _⟩ | ⟨h, _⟩ | ⟨h, _⟩ | ⟨h, _⟩ | ⟨h, _⟩ <;> rw [h] <;> decide

example : c!"C_cpp" ∉ profileNames ∧ c!"" ∉ profileNames ∧ c!"c_cpp " ∉ profileNames := by decide

/-! ## C24 -/

/-- C24, the full claim: whenever the child dies in `child_process`, the caller gets SYSTEM_ERROR. -/
def C24_full : Prop :=
  ∀ (c : Config) (e : ChildEnv) (p q : Proc) (s : Stop) (t : Termination) (env : RunEnv) (pid : Nat) (prior : Result),
    ConfigOk c → Died c e p s q → Reports s t → Completed c env pid t →
    ∃ r effs, run c prior env = .returned r effs ∧ r.result = 5

/-- The verdict a caller gets for a child that died in this way, when its limits were not exceeded. -/
theorem verdict_of_death (c : Config) (env : RunEnv) (pid : Nat) (prior : Result) (t : Termination) (hc : ConfigOk c)
    (h : Completed c env pid t) :
    ∃ r effs, run c prior env = .returned r effs ∧ r.error = 0 ∧ r.result = verdict c t (usageOf env) :=
  C04_verdict c prior env pid t hc h

/-- C24 is false.  `execve` fails (say, the program is missing) after the `c_cpp` filter is in force: the failure path's
`flock` on the log is not whitelisted, so the child dies of SIGSYS and the caller sees RUNTIME_ERROR. -/
theorem C24_witness_exec :
    ∃ q, Died sampleConfig (sampleChild (· == .exec)) sampleProc (.killed 31) q ∧
      Reports (.killed 31) (.signaled 31 false) ∧
      ∀ prior, ∃ r effs, run sampleConfig prior (sampleEnv (Termination.signaled 31 false).waitStatus) = .returned r effs ∧
        r.result = 4 := by
  refine ⟨_, ⟨rfl, by simp, by simp⟩, rfl, fun prior => ?_⟩
  obtain ⟨r, effs, h1, _, h2⟩ := verdict_of_death sampleConfig _ 4242 prior _ sampleConfig_ok
    (sampleEnv_completed (.signaled 31 false) (by decide))
  exact ⟨r, effs, h1, by rw [h2]; decide⟩

theorem C24_false : ¬ C24_full := by
  intro h
  obtain ⟨q, hd, hr, hv⟩ := C24_witness_exec
  obtain ⟨r, effs, h1, h2⟩ := h _ _ _ q _ _ _ 4242 (noResult 0) sampleConfig_ok hd hr
    (sampleEnv_completed (.signaled 31 false) (by decide))
  obtain ⟨r', effs', h1', h2'⟩ := hv (noResult 0)
  rw [h1] at h1'
  cases h1'
  omega

/-- A second way C24 fails: the input file is missing and the log is already longer than `max_output_size`; writing the log
entry raises SIGXFSZ. -/
theorem C24_witness_log :
    ∃ q, Died { sampleConfig with maxOutputSize := 4096 } (sampleChild (· == .openInput)) sampleProc (.killed 25) q :=
  ⟨_, rfl, by simp, by simp⟩

/-- A third: SIGUSR1 is blocked or ignored in the caller; the child exits with code 1, an ordinary runtime error. -/
theorem C24_witness_blocked :
    ∃ q, Died sampleConfig (sampleChild (· == .openInput)) { sampleProc with ignored := (· == 10) } (.exited 1) q :=
  ⟨_, rfl, by simp, by simp⟩

/-- A fourth: another thread of the caller was in `localtime` at the fork; the child waits for ever and is killed by the watchdog. -/
theorem C24_witness_hung :
    ∃ q, Died sampleConfig { sampleChild (· == .openInput) with clockHeld := true } sampleProc .hung q ∧ Reports .hung (.signaled 9 false) :=
  ⟨_, ⟨rfl, by simp, by simp⟩, rfl⟩

/-- C24, the part that holds: if SIGUSR1 is not blocked or ignored, stderr notes do not kill, no thread of the caller is in `localtime` at the fork (or
there is no log), the log stays below the file-size limits, the caller has no filter of its own and it is not the `execve` under a C/C++ profile that fails, then a
child that dies in `child_process` yields SYSTEM_ERROR.  Missing: the cases of the four witnesses. -/
theorem C24_system_error_partial (c : Config) (e : ChildEnv) (p q : Proc) (s : Stop) (t : Termination) (env : RunEnv)
    (pid : Nat) (prior : Result) (hc : ConfigOk c) (hr : c.InRange)
    (hdeadly : p.deadly 10 = true) (hnote : e.stderrKills = none) (hclock : e.log = none ∨ e.clockHeld = false)
    (hlog : e.log = none ∨ e.logRegular = false ∨
      ((e.logSize : Int) < (p.limits .fsize).cur ∧ (c.maxOutputSize = -1 ∨ (e.logSize : Int) < c.maxOutputSize)))
    (hflt : p.filters = [])
    (hexec : e.fails .exec = false ∨ (c.seccompRuleName ≠ some c!"c_cpp" ∧ c.seccompRuleName ≠ some c!"c_cpp_file_io"))
    (hd : Died c e p s q) (hrep : Reports s t) (hcomp : Completed c env pid t) :
    ∃ r effs, run c prior env = .returned r effs ∧ r.result = 5 := by
  have hcalm : Calm True e p.notes p := by
    refine ⟨fun _ => ⟨hdeadly, ⟨hnote, hclock⟩, ?_, by rw [hflt]; exact pathOpen_nil⟩, hflt, rfl⟩
    rcases hlog with h | h | h
    · exact .inl h
    · exact .inr (.inl h)
    · exact .inr (.inr h.1)
  have hfit : LogFits c e := by
    rcases hlog with h | h | h
    · exact .inl h
    · exact .inr (.inl h)
    · rcases h.2 with h | h
      · exact .inr (.inr (.inl h))
      · refine .inr (.inr (.inr ?_))
        have h5 := hc.2.2.2.2.1
        have r5 := hr.out
        simp only [LimitOk, IsLong, LONG_MAX] at h5 r5
        rw [castU64_of_range (by omega) (by omega)]; exact h
  have hkill : s = .killed 10 := by
    by_cases hub : addInt c.maxCpuTime 1000 ≠ .ub ∨ c.maxCpuTime = UNLIMITED
    · rcases childProcess_calm hcalm c hub (fun _ => hfit) with ⟨q', h⟩ | ⟨s', q', h, _, hq⟩
      · rw [hd.1] at h
        cases h
        exact absurd rfl (hd.2.1 _ _ _)
      · rw [hd.1] at h
        cases h
        rcases hq trivial with h | ⟨h1, h2⟩
        · exact h
        · rcases hexec with h | h
          · rw [h] at h2; cases h2
          · rcases h1 with h1 | h1
            · exact absurd h1 h.1
            · exact absurd h1 h.2
    · simp only [not_or, Classical.not_not] at hub
      exact childProcess_ub_calm hcalm c hub.1 hub.2 hd.1 hd.2.2
  subst hkill
  cases t with
  | exited _ => cases hrep
  | stopped _ => cases hrep
  | signaled sig core =>
    have : (10 : Nat) = sig := hrep
    subst this
    obtain ⟨r, effs, h1, _, h2⟩ := verdict_of_death c env pid prior _ hc hcomp
    exact ⟨r, effs, h1, h2⟩

example : ∃ q, Died sampleConfig (sampleChild (· == .setuid)) sampleProc (.killed 10) q ∧
    sampleProc.deadly 10 = true ∧ (sampleChild (· == .setuid)).fails .exec = false ∧
    (4096 : Int) < (sampleProc.limits .fsize).cur ∧ (4096 : Int) < sampleConfig.maxOutputSize :=
  ⟨_, ⟨rfl, by simp, by simp⟩, rfl, rfl, by decide, by decide⟩

/-! ## C25 -/

/-- C25: `child_process` never returns to the code after it; and if it runs a program, it is the configured one with the
configured arguments and environment. -/
theorem C25_never_returns (c : Config) (e : ChildEnv) (p : Proc) :
    ∃ s q, childProcess c e p = .stop s q ∧
      ∀ path argv envp, s = .execed path argv envp → path = c.exePath ∧ argv = c.args ∧ envp = c.env := by
  have hf : ∀ s, FailStop e s → ∀ path argv envp, s = .execed path argv envp → path = c.exePath ∧ argv = c.args ∧ envp = c.env := by
    rintro s (rfl | rfl | ⟨_, _, rfl⟩ | rfl | rfl | ⟨rfl, _⟩) <;> simp
  by_cases hub : addInt c.maxCpuTime 1000 ≠ .ub ∨ c.maxCpuTime = UNLIMITED
  · rcases childProcess_run (e := e) (p := p) c hub with ⟨s, q, h, hs, _⟩ | ⟨h, _⟩
    · exact ⟨s, q, h, hf s hs⟩
    · refine ⟨_, _, h, ?_⟩
      intro path argv envp he
      cases he
      exact ⟨rfl, rfl, rfl⟩
  · simp only [not_or, Classical.not_not] at hub
    rcases childProcess_ub (e := e) (p := p) c hub.1 hub.2 with ⟨s, q, h, hs, _⟩ | ⟨q, h⟩
    · exact ⟨s, q, h, hf s hs⟩
    · exact ⟨_, q, h, by simp⟩

example : childProcess sampleConfig (sampleChild fun _ => false) sampleProc =
    .stop (.execed c!"/bin/prog" [c!"/bin/prog"] []) (stateAtExec sampleConfig (sampleChild fun _ => false) sampleProc) :=
  (started_inv sample_started).2.2.2.2

end Judger
