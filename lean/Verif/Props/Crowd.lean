import Verif.Props.Life
import Verif.Spec.Crowd

/-! # C93, C94: how many processes the judged program may have, and what other judgings have to do with it -/

set_option autoImplicit false

namespace Judger

open Judger.Spec

/-! ## C93 -/

/-- C93, the full claim: with `max_process_number` given, the program and its descendants are never more than that many processes at once. -/
def C93_full : Prop :=
  ∀ (c : Config) (q : Proc) (others : Int → Nat) (k : Crowd), Judging c q → c.maxProcessNumber ≠ -1 → Breeds ⟨[q], others⟩ k →
    (k.procs.length : Int) ≤ c.maxProcessNumber

/-- What can happen in a crowd can happen in a `Life`. -/
theorem breeds_life {procs : List Proc} {others : Int → Nat} {k : Crowd} (h : Breeds ⟨procs, others⟩ k) :
    Life ⟨procs, fun _ => 0⟩ ⟨k.procs, fun _ => 0⟩ := by
  induction h with
  | start => exact .start _
  | act _ i p p' hp ha ih => exact .act ih i p p' hp ha
  | limit _ i caller p r v hc hp hv ha ih => exact .limit ih i caller p r v hc hp hv ha
  | forks _ p hp _ ih => exact .forks ih p hp
  | exits _ i ih => exact .exits ih i
  | others _ _ ih => exact ih

/-- C93, the part that holds: a seccomp rule name is given.  Missing: without one, a set-user-ID root file is honoured, and root is exempt
(`C93_false`). -/
theorem C93_process_number_partial (c : Config) (q : Proc) (others : Int → Nat) (k : Crowd) (h : Judging c q) (hm : c.maxProcessNumber ≠ -1)
    (hn : c.seccompRuleName ≠ none) (hb : Breeds ⟨[q], others⟩ k) : (k.procs.length : Int) ≤ c.maxProcessNumber := by
  have hw : wantedLimit c .nproc = some c.maxProcessNumber := by simp [wantedLimit, hm]
  induction hb with
  | start =>
    rcases h.ok.2.2.2.1 with h' | h'
    · exact absurd h' hm
    · simpa using h'
  | act _ _ _ _ _ _ ih => simpa using ih
  | limit _ _ _ _ _ _ _ _ _ _ ih => simpa using ih
  | exits _ i ih =>
    have := List.length_eraseIdx_le (l := ‹Crowd›.procs) (i := i)
    dsimp only
    omega
  | others _ _ ih => exact ih
  | @forks l hb p hp ha ih =>
    have hall := life_confined h (judging_noNewPrivs h hn) (breeds_life hb)
    have hc : l.count c.uid = l.procs.length + l.others c.uid := by
      unfold Crowd.count
      rw [List.filter_eq_self.2]
      intro m hm
      rw [(hall m hm).1.uid]
      simp
    have hpu := (hall p hp).1.uid
    have hl := ((hall p hp).1.wanted .nproc _ hw).1
    have hlt : ¬ (p.limits .nproc).cur ≤ l.count c.uid := fun hle => ha ⟨by simp [Proc.privileged, hpu, h.uid.1], by rw [hpu]; exact h.uid.1, by rw [hpu]; exact hle⟩
    rw [hc] at hlt
    simp only [List.length_append, List.length_singleton]
    omega

/-- Without a rule name the program can become root and start as many processes as it likes. -/
theorem C93_open (q : Proc) (others : Int → Nat) (hn : q.noNewPrivs = false) (n : Nat) :
    ∃ k, Breeds ⟨[q], others⟩ k ∧ k.procs.length = n + 1 := by
  have h1 := Breeds.act (Breeds.start ⟨[q], others⟩) 0 q _ rfl (Act.execs q ⟨some 0, none⟩)
  have key : ∃ k m, Breeds ⟨[q], others⟩ k ∧ k.procs.length = n + 1 ∧ m ∈ k.procs ∧ m.privileged = true := by
    induction n with
    | zero => exact ⟨_, _, h1, rfl, List.mem_singleton.2 rfl, by simp [Proc.privileged, Ids.exec, hn]⟩
    | succ n ih =>
      obtain ⟨k, m, hb, hk, hm, hp⟩ := ih
      exact ⟨_, m, hb.forks m hm (fun hr => by rw [hr.1] at hp; cases hp), by simp [hk], List.mem_append_left _ hm, hp⟩
  obtain ⟨k, _, hb, hk, _⟩ := key
  exact ⟨k, hb, hk⟩

/-- With uid 0 the number of processes is not limited, rule name or not. -/
theorem C93_root (q : Proc) (others : Int → Nat) (hu : q.uid.e = 0) (n : Nat) : ∃ k, Breeds ⟨[q], others⟩ k ∧ k.procs.length = n + 1 := by
  have key : ∃ k, Breeds ⟨[q], others⟩ k ∧ k.procs.length = n + 1 ∧ q ∈ k.procs := by
    induction n with
    | zero => exact ⟨_, .start _, rfl, List.mem_singleton.2 rfl⟩
    | succ n ih =>
      obtain ⟨k, hb, hk, hm⟩ := ih
      exact ⟨_, hb.forks q hm (fun hr => by have := hr.1; simp [Proc.privileged, hu] at this), by simp [hk], List.mem_append_left _ hm⟩
  obtain ⟨k, hb, hk, _⟩ := key
  exact ⟨k, hb, hk⟩

/-- C93 is false of the code. -/
theorem C93_false : ¬C93_full := by
  intro hfull
  obtain ⟨q, hq, hn⟩ := judging_open
  obtain ⟨k, hb, hk⟩ := C93_open q (fun _ => 0) hn 5
  have := hfull _ q _ k hq (by decide) hb
  rw [hk] at this
  exact absurd this (by decide)

/-- The sample configuration allows five processes. -/
example (others : Int → Nat) (k : Crowd) (hb : Breeds ⟨[stateAtExec sampleConfig (sampleChild fun _ => false) sampleProc], others⟩ k) :
    (k.procs.length : Int) ≤ 5 :=
  C93_process_number_partial _ _ _ k judging_sample (by decide) (by decide) hb

/-! ## C94 -/

/-- C94, the full claim: whatever other processes there are, the kernel lets the judger start the program, and lets the program have
`max_process_number` processes. -/
def C94_full : Prop :=
  ∀ (c : Config) (q : Proc) (others : Nat), Judging c q → c.maxProcessNumber ≠ -1 →
    ¬ExecRefused q others ∧
    ∀ k : Crowd, Breeds ⟨[q], fun _ => others⟩ k → k.others = (fun _ => others) → (∀ m ∈ k.procs, m.uid = q.uid ∧ m.limits = q.limits) →
      (k.procs.length : Int) < c.maxProcessNumber → ∀ p ∈ k.procs, ¬ForkRefused k p

/-- C94, what the code does: the program starts exactly if the user has room for one more process, and may fork exactly as long as its own
processes and the others of that user together are fewer than `max_process_number`.  Missing: the share that others take (`C94_false`);
with `max_process_number` unlimited there is none (`C94_unlimited`). -/
theorem C94_share_partial (c : Config) (q : Proc) (others : Nat) (h : Judging c q) (hm : c.maxProcessNumber ≠ -1) :
    (¬ExecRefused q others ↔ (others + 1 : Int) ≤ c.maxProcessNumber) ∧
    ∀ k : Crowd, k.others = (fun _ => others) → (∀ m ∈ k.procs, m.uid = q.uid ∧ m.limits = q.limits) →
      ∀ p ∈ k.procs, (¬ForkRefused k p ↔ (k.procs.length + others : Int) < c.maxProcessNumber) := by
  obtain ⟨e, p0, hs⟩ := h.started
  have hu := (C18_privileges_dropped c e p0 q h.uid.2 h.gid hs).1
  have hl := C14_limits c e p0 q h.ok h.range hs .nproc
  simp only [wantedLimit, if_neg hm] at hl
  refine ⟨?_, fun k ho hk p hp => ?_⟩
  · unfold ExecRefused
    rw [hu, hl]
    have := h.uid.1
    constructor
    · intro h'; exact Classical.byContradiction fun hx => h' ⟨this, by simpa using hx⟩
    · intro h' hx; have := hx.2; simp only at this; omega
  · have hc : k.count c.uid = k.procs.length + others := by
      unfold Crowd.count
      rw [List.filter_eq_self.2, ho]
      intro m hm
      rw [(hk m hm).1, hu]
      simp
    obtain ⟨h1, h2⟩ := hk p hp
    unfold ForkRefused
    rw [h2, hl, h1, hu, hc]
    constructor
    · intro h'
      refine Classical.byContradiction fun hx => h' ⟨?_, h.uid.1, ?_⟩
      · simp [Proc.privileged, h1, hu, h.uid.1]
      · simp only [Int.natCast_add]; omega
    · intro h' hx
      have := hx.2.2
      simp only [Int.natCast_add] at this
      omega

/-- Two judgings under one uid, the first with `max_process_number` 1: as long as the other has a process, however it got along so far, the first
is not started. -/
theorem C94_one_at_a_time (c d : Config) (q r : Proc) (others : Int → Nat) (k : Crowd) (hc : Judging c q) (hd : Judging d r)
    (hn : d.seccompRuleName ≠ none) (hu : c.uid = d.uid) (h1 : c.maxProcessNumber = 1) (hb : Breeds ⟨[r], others⟩ k) (hk : k.procs ≠ []) :
    ExecRefused q (k.procs.filter fun m => m.uid.r == c.uid).length := by
  have hall := life_confined hd (judging_noNewPrivs hd hn) (breeds_life hb)
  rw [List.filter_eq_self.2 (fun m hm => by rw [(hall m hm).1.uid, hu]; simp)]
  have key := (C94_share_partial c q k.procs.length hc (by omega)).1
  refine Classical.byContradiction fun hx => ?_
  have h2 := key.1 hx
  have h3 := List.length_pos_iff.2 hk
  omega

/-- The hypotheses can be met: the sample configuration with one process, and the other judging just started. -/
example : (∃ q, Judging { sampleConfig with maxProcessNumber := 1 } q) ∧
    ∃ k, Breeds ⟨[stateAtExec sampleConfig (sampleChild fun _ => false) sampleProc], fun _ => 0⟩ k ∧ k.procs ≠ [] := by
  refine ⟨?_, _, .start _, by simp⟩
  have hc : ConfigOk { sampleConfig with maxProcessNumber := 1 } := by simp [ConfigOk, LimitOk, sampleConfig]
  obtain ⟨q, hq⟩ := C17_starts { sampleConfig with maxProcessNumber := 1 } (sampleChild fun _ => false) sampleProc hc (by decide) rfl rfl
    (by intro n hn; cases hn; decide) (fun _ _ => rfl)
  have hr : Config.InRange { sampleConfig with maxProcessNumber := 1 } := by constructor <;> decide
  exact ⟨q, hc, hr, by decide, by decide, _, _, ⟨_, _, _, hq⟩⟩

/-- Without `max_process_number` others do not matter, as long as they are fewer than the limit the judger itself has. -/
theorem C94_unlimited (c : Config) (ce : ChildEnv) (p q : Proc) (others : Nat) (hc : ConfigOk c) (hr : c.InRange) (hs : Started c ce p q)
    (hm : c.maxProcessNumber = -1) (hl : (others + 1 : Int) ≤ (p.limits .nproc).cur) : ¬ExecRefused q others := by
  have h := C14_limits c ce p q hc hr hs .nproc
  simp only [wantedLimit, if_pos hm] at h
  intro hx
  have := hx.2
  rw [h] at this
  omega

/-- C94 is false of the code: five other processes of the user are enough to keep the sample program from starting. -/
theorem C94_false : ¬C94_full := by
  intro hfull
  have h1 := (hfull _ _ 5 judging_sample (by decide)).1
  have := (C94_share_partial _ _ 5 judging_sample (by decide)).1.1 h1
  exact absurd this (by decide)

/-- Four are not. -/
example : ¬ExecRefused (stateAtExec sampleConfig (sampleChild fun _ => false) sampleProc) 4 :=
  (C94_share_partial _ _ 4 judging_sample (by decide)).1.2 (by decide)

end Judger
