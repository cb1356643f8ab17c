import Verif.Spec.Told
import Verif.Props.Child

/-! # C89: what the log says about a child that could not start the program -/

set_option autoImplicit false

namespace Judger

open Spec

variable {c : Config} {e : ChildEnv} {p q : Proc}

theorem limitsOk_iff (hs : c.maxStack ≠ -1) : LimitsOk c e ↔ ¬ StageFails c e 1 := by
  have hu : UNLIMITED = -1 := rfl
  constructor
  · rintro ⟨h1, h2, h3, h4, h5⟩ (⟨s, hr, hk, hf⟩ | ⟨h, _⟩)
    · cases s with
      | rlimit r =>
        cases r with
        | stack => rw [h1 hs] at hf; cases hf
        | as =>
          simp only [Requested, wantedLimit] at hr
          split at hr
          · cases hr
          · rename_i hn
            rw [h2 ⟨by omega, by omega⟩] at hf; cases hf
        | cpu =>
          simp only [Requested, wantedLimit] at hr
          split at hr
          · cases hr
          · rename_i hn
            rw [h3 (by omega)] at hf; cases hf
        | nproc =>
          simp only [Requested, wantedLimit] at hr
          split at hr
          · cases hr
          · rename_i hn
            rw [h4 (by omega)] at hf; cases hf
        | fsize =>
          simp only [Requested, wantedLimit] at hr
          split at hr
          · cases hr
          · rename_i hn
            rw [h5 (by omega)] at hf; cases hf
      | _ => cases hk
    · cases h
  · intro h
    have key : ∀ r, (wantedLimit c r).isSome → e.fails (.rlimit r) = false := by
      intro r hr
      cases hf : e.fails (.rlimit r) with
      | false => rfl
      | true => exact absurd (.inl ⟨.rlimit r, hr, rfl, hf⟩) h
    refine ⟨fun _ => key _ rfl, fun hw => key _ ?_, fun hw => key _ ?_, fun hw => key _ ?_, fun hw => key _ ?_⟩ <;>
      simp only [wantedLimit] <;> rw [if_neg (by omega)] <;> rfl

theorem streamsOk_iff : StreamsOk c e ↔ ¬ StageFails c e 2 := by
  constructor
  · rintro ⟨h1, h2, h3⟩ (⟨s, hr, hk, hf⟩ | ⟨h, _⟩)
    · have hsome : ∀ o : Option CStr, o.isSome → o ≠ none := by intro o h h'; rw [h'] at h; cases h
      cases s with
      | openInput => rw [(h1 (hsome _ hr)).1] at hf; cases hf
      | dupInput => rw [(h1 (hsome _ hr)).2] at hf; cases hf
      | openOutput => rw [(h2 (hsome _ hr)).1] at hf; cases hf
      | dupOutput => rw [(h2 (hsome _ hr)).2] at hf; cases hf
      | openError => rw [(h3 (hsome _ hr.1)).1 hr.2] at hf; cases hf
      | dupError => rw [(h3 (hsome _ hr)).2] at hf; cases hf
      | _ => cases hk
    · cases h
  · intro h
    have key : ∀ s, Requested c e.hasExecveat s → stage s = 2 → e.fails s = false := by
      intro s hr hk
      cases hf : e.fails s with
      | false => rfl
      | true => exact absurd (.inl ⟨s, hr, hk, hf⟩) h
    have hsome : ∀ o : Option CStr, o ≠ none → o.isSome := by intro o h; cases o <;> simp_all
    exact ⟨fun h => ⟨key .openInput (hsome _ h) rfl, key .dupInput (hsome _ h) rfl⟩,
      fun h => ⟨key .openOutput (hsome _ h) rfl, key .dupOutput (hsome _ h) rfl⟩,
      fun h => ⟨fun h' => key .openError ⟨hsome _ h, h'⟩ rfl, key .dupError (hsome _ h) rfl⟩⟩

theorem idsOk_iff : IdsOk c e ↔ ¬ StageFails c e 3 := by
  constructor
  · rintro ⟨h1, h2⟩ (⟨s, hr, hk, hf⟩ | ⟨h, _⟩)
    · cases s with
      | setgid => rw [(h1 hr).1] at hf; cases hf
      | setgroups => rw [(h1 hr).2] at hf; cases hf
      | setuid => rw [h2 hr] at hf; cases hf
      | _ => cases hk
    · cases h
  · intro h
    have key : ∀ s, Requested c e.hasExecveat s → stage s = 3 → e.fails s = false := by
      intro s hr hk
      cases hf : e.fails s with
      | false => rfl
      | true => exact absurd (.inl ⟨s, hr, hk, hf⟩) h
    exact ⟨fun h => ⟨key .setgid h rfl, key .setgroups h rfl⟩, fun h => key .setuid h rfl⟩

theorem profileOf_name {e : ChildEnv} {name : CStr} {f : Filter} (h : profileOf e name = some f) : name ∈ profileNames := by
  unfold profileOf at h
  split at h
  · rename_i hn; rw [hn]; decide
  split at h
  · rename_i hn; rw [hn]; decide
  split at h
  · rename_i hn; rw [hn]; decide
  split at h
  · rename_i hn; rw [hn]; decide
  split at h
  · rename_i hn; rw [hn]; decide
  · cases h

theorem rulesOk_iff : RulesOk c e ↔ ¬ StageFails c e 4 := by
  constructor
  · rintro h (⟨s, hr, hk, hf⟩ | ⟨_, name, hn, hm⟩)
    · have hname : ∃ name, c.seccompRuleName = some name := by
        cases s with
        | scInit => exact Option.isSome_iff_exists.1 hr
        | scLoad => exact Option.isSome_iff_exists.1 hr
        | scRule k => obtain ⟨name, hn, _⟩ := hr; exact ⟨name, hn⟩
        | _ => cases hk
      obtain ⟨name, hn⟩ := hname
      obtain ⟨f, hp, h1, h2, h3⟩ := h name hn
      cases s with
      | scInit => rw [h1] at hf; cases hf
      | scLoad => rw [h3] at hf; cases hf
      | scRule k =>
        obtain ⟨name', hn', hlt⟩ := hr
        rw [hn] at hn'
        cases hn'
        rw [h2 k (by rw [profileOf_rules hp]; exact hlt)] at hf; cases hf
      | _ => cases hk
    · obtain ⟨f, hp, _⟩ := h name hn
      exact hm (profileOf_name hp)
  · intro h name hn
    have key : ∀ s, Requested c e.hasExecveat s → stage s = 4 → e.fails s = false := by
      intro s hr hk
      cases hf : e.fails s with
      | false => rfl
      | true => exact absurd (.inl ⟨s, hr, hk, hf⟩) h
    by_cases hm : name ∈ profileNames
    · obtain ⟨f, hf⟩ := profileOf_known e name hm
      refine ⟨f, hf, key _ (by simp [Requested, hn]) rfl, fun j hj => ?_, key _ (by simp [Requested, hn]) rfl⟩
      rw [profileOf_rules hf] at hj
      exact key _ ⟨name, hn, hj⟩ rfl
    · exact absurd (.inr ⟨rfl, name, hn, hm⟩) h

theorem stage_zero : ¬ StageFails c e 0 := by
  rintro (⟨s, hr, hk, hf⟩ | ⟨h, _⟩)
  · cases s <;> first | exact hr.elim | exact absurd hk (by simp [stage])
  · cases h

theorem blame_first (hs : c.maxStack ≠ -1) {code : CStr} (h : Blame c e code) :
    ∃ k, FirstFailure c e k ∧ code = stageCode k := by
  have lt : ∀ (k : Nat), (∀ j, 1 ≤ j → j < k → ¬ StageFails c e j) → ∀ j, j < k → ¬ StageFails c e j := by
    intro k h j hj
    by_cases h0 : j = 0
    · subst h0; exact stage_zero
    · exact h j (by omega) hj
  cases h with
  | limits h =>
    rw [limitsOk_iff hs] at h
    exact ⟨1, ⟨Classical.not_not.1 h, lt 1 fun j _ _ => by omega⟩, rfl⟩
  | streams h1 h =>
    rw [limitsOk_iff hs] at h1
    rw [streamsOk_iff] at h
    refine ⟨2, ⟨Classical.not_not.1 h, lt 2 fun j _ _ => ?_⟩, rfl⟩
    obtain rfl : j = 1 := by omega
    exact h1
  | ids h1 h2 h =>
    rw [limitsOk_iff hs] at h1
    rw [streamsOk_iff] at h2
    rw [idsOk_iff] at h
    refine ⟨3, ⟨Classical.not_not.1 h, lt 3 fun j _ _ => ?_⟩, rfl⟩
    obtain rfl | rfl : j = 1 ∨ j = 2 := by omega
    · exact h1
    · exact h2
  | rules h1 h2 h3 h =>
    rw [limitsOk_iff hs] at h1
    rw [streamsOk_iff] at h2
    rw [idsOk_iff] at h3
    rw [rulesOk_iff] at h
    refine ⟨4, ⟨Classical.not_not.1 h, lt 4 fun j _ _ => ?_⟩, rfl⟩
    obtain rfl | rfl | rfl : j = 1 ∨ j = 2 ∨ j = 3 := by omega
    · exact h1
    · exact h2
    · exact h3
  | exec h1 h2 h3 h4 h =>
    rw [limitsOk_iff hs] at h1
    rw [streamsOk_iff] at h2
    rw [idsOk_iff] at h3
    rw [rulesOk_iff] at h4
    refine ⟨5, ⟨.inl ⟨.exec, trivial, rfl, h⟩, lt 5 fun j _ _ => ?_⟩, rfl⟩
    obtain rfl | rfl | rfl | rfl : j = 1 ∨ j = 2 ∨ j = 3 ∨ j = 4 := by omega
    · exact h1
    · exact h2
    · exact h3
    · exact h4

/-- C89, the full claim: in a child that starts as root without filters of the caller's own, with the log usable and not at
its size limit and SIGUSR1 deadly, every failure to start the program adds exactly one message to the log, and it names the
first stage that failed. -/
def C89_full : Prop :=
  ∀ (c : Config) (e : ChildEnv) (p q : Proc) (s : Stop), ConfigOk c → c.InRange → c.maxCpuTime + 1000 ≤ 2147483647 →
    FreshRoot p → LogUsable e → LogHasRoom c e p → p.deadly 10 = true → e.stderrKills = none → Died c e p s q →
    ∃ k, FirstFailure c e k ∧ q.notes = failureNote e k :: p.notes

theorem noUb (hc : ConfigOk c) (hcpu : c.maxCpuTime + 1000 ≤ 2147483647) : addInt c.maxCpuTime 1000 ≠ .ub ∨ c.maxCpuTime = UNLIMITED := by
  obtain ⟨h1, _⟩ := hc
  unfold LimitOk at h1
  by_cases h : c.maxCpuTime = UNLIMITED
  · exact .inr h
  · left
    unfold addInt
    rw [if_pos]
    · simp
    · simp only [IsInt, INT_MIN, INT_MAX]
      omega

theorem notes_at_exec : (stateAtExec c e p).notes = p.notes := by
  have h1 : ∀ p, (afterInput c p).2.notes = p.notes := by
    intro p; unfold afterInput; split <;> rfl
  have h2 : ∀ p, (afterOutput c p).2.notes = p.notes := by
    intro p; unfold afterOutput; split <;> rfl
  have h3 : ∀ o p, (afterError c o p).2.notes = p.notes := by
    intro o p; unfold afterError; split
    · rfl
    · split <;> rfl
  have h4 : ∀ p, (afterGid c p).notes = p.notes := by
    intro p; unfold afterGid; split <;> rfl
  have h5 : ∀ p, (afterUid c p).notes = p.notes := by
    intro p; unfold afterUid; split
    · rfl
    · split <;> rfl
  have h6 : ∀ p, (afterSeccomp c e p).notes = p.notes := by
    intro p; unfold afterSeccomp; split
    · rfl
    · split <;> rfl
  unfold stateAtExec
  simp only [h1, h2, h3, h4, h5, h6]

/-- C89, success is silent: a child that starts the program has written nothing to the log — whatever the surroundings. -/
theorem C89_silent (c : Config) (e : ChildEnv) (p q : Proc) (h : Started c e p q) : q.notes = p.notes := by
  rw [(started_inv h).1]
  exact notes_at_exec

/-- C89, the log never lies: whatever goes wrong with the log, the signal or the file-size limits, a root child without
filters of the caller's own adds at most one message, and that names the first stage that failed. -/
theorem C89_never_wrong (c : Config) (e : ChildEnv) (p q : Proc) (s : Stop) (hc : ConfigOk c)
    (hcpu : c.maxCpuTime + 1000 ≤ 2147483647) (hp : FreshRoot p) (hd : Died c e p s q) :
    q.notes = p.notes ∨ ∃ k, FirstFailure c e k ∧ q.notes = failureNote e k :: p.notes := by
  rcases childProcess_told (Q := False) (e := e) (n0 := p.notes) ⟨False.elim, hp.2, rfl⟩ c (noUb hc hcpu) False.elim with
    ⟨q', h, _⟩ | ⟨s', q', h, _, hm, _⟩
  · rw [hd.1] at h
    cases h
    exact absurd rfl (hd.2.1 _ _ _)
  · rw [hd.1] at h
    cases h
    refine hm.imp_right fun ⟨code, hb, hn⟩ => ?_
    have hst := hc.2.2.2.2.2
    obtain ⟨k, hk, rfl⟩ := blame_first (by omega) (hb hp.1)
    exact ⟨k, hk, hn⟩

/-- C89, the part that holds: the full claim, except when `execve` itself fails under one of the two C/C++ profiles, or another thread of the caller was
in `localtime` at the fork (C130). -/
theorem C89_named_partial (c : Config) (e : ChildEnv) (p q : Proc) (s : Stop) (hc : ConfigOk c) (hr : c.InRange)
    (hcpu : c.maxCpuTime + 1000 ≤ 2147483647) (hp : FreshRoot p) (hlog : LogUsable e) (hroom : LogHasRoom c e p)
    (hdeadly : p.deadly 10 = true) (hnote : e.stderrKills = none) (hclock : e.clockHeld = false)
    (hexec : e.fails .exec = false ∨ (c.seccompRuleName ≠ some c!"c_cpp" ∧ c.seccompRuleName ≠ some c!"c_cpp_file_io"))
    (hd : Died c e p s q) :
    ∃ k, FirstFailure c e k ∧ q.notes = failureNote e k :: p.notes := by
  refine (C89_never_wrong c e p q s hc hcpu hp hd).resolve_left fun hn => ?_
  have hcalm : Calm True e p.notes p := by
    refine ⟨fun _ => ⟨hdeadly, ⟨hnote, .inr hclock⟩, ?_, by rw [hp.2]; exact pathOpen_nil⟩, hp.2, rfl⟩
    rcases hroom with h | h
    · exact .inr (.inl h)
    · exact .inr (.inr h.1)
  have hfit : LogFits c e := by
    rcases hroom with h | h
    · exact .inr (.inl h)
    · rcases h.2 with h | h
      · exact .inr (.inr (.inl h))
      · refine .inr (.inr (.inr ?_))
        have h5 := hc.2.2.2.2.1
        have r5 := hr.out
        simp only [LimitOk, IsLong, LONG_MAX] at h5 r5
        rw [castU64_of_range (by omega) (by omega)]; exact h
  rcases childProcess_told hcalm c (noUb hc hcpu) (fun _ => hfit) with ⟨q', h, _⟩ | ⟨s', q', h, _, _, hq⟩
  · rw [hd.1] at h
    cases h
    exact absurd rfl (hd.2.1 _ _ _)
  · rw [hd.1] at h
    cases h
    rcases hq trivial with ⟨_, h⟩ | ⟨h1, h2, _⟩
    · exact h hlog hn
    · rcases hexec with h | h
      · rw [h] at h2; cases h2
      · rcases h1 with h1 | h1
        · exact h.1 h1
        · exact h.2 h1

/-- C89 is false: `execve` fails under the `c_cpp` profile; locking the log kills the child before it has written anything. -/
theorem C89_false : ¬ C89_full := by
  intro h
  have hd : ∃ q, Died sampleConfig (sampleChild (· == .exec)) sampleProc (.killed 31) q ∧ q.notes = [] :=
    ⟨_, ⟨rfl, by simp, by simp⟩, rfl⟩
  obtain ⟨q, hd, hq⟩ := hd
  obtain ⟨k, _, hn⟩ := h sampleConfig (sampleChild (· == .exec)) sampleProc q _ sampleConfig_ok sampleConfig_range (by decide)
    ⟨rfl, rfl⟩ ⟨by simp [sampleChild], rfl, rfl⟩ (.inr ⟨by decide, .inr (by decide)⟩) rfl rfl hd
  rw [hq] at hn
  cases hn

/-- A message of C89_named_partial: the input file is missing. -/
example : ∃ q, Died sampleConfig (sampleChild (· == .openInput)) sampleProc (.killed 10) q ∧
    FirstFailure sampleConfig (sampleChild (· == .openInput)) 2 ∧
    q.notes = [c!"Error: System errno: No such file or directory; Internal errno: DUP2_FAILED"] := by
  refine ⟨_, ⟨rfl, by simp, by simp⟩, ⟨.inl ⟨.openInput, rfl, rfl, rfl⟩, fun j hj => ?_⟩, rfl⟩
  obtain rfl | rfl : j = 0 ∨ j = 1 := by omega
  · exact stage_zero
  · rw [← limitsOk_iff (by decide)]
    exact ⟨fun _ => rfl, fun _ => rfl, fun _ => rfl, fun _ => rfl, fun _ => rfl⟩

end Judger
