import Verif.Props.Child
import Verif.Spec.Life

/-! # C86, C87: limits, identity and file sizes while the judged program runs -/

set_option autoImplicit false

namespace Judger

open Judger.Spec

/-- A configuration with a uid other than root and a gid has started a program, in state `q`. -/
structure Judging (c : Config) (q : Proc) : Prop where
  ok : ConfigOk c
  range : c.InRange
  uid : c.uid ≠ 0 ∧ c.uid ≠ keepId
  gid : c.gid ≠ keepId
  started : ∃ e p, Started c e p q

/-- The process `m` has at most the limits of `q`, where asked for those of `c`, and the identity asked for. -/
structure Confined (c : Config) (q m : Proc) : Prop where
  hard : ∀ r, (m.limits r).max ≤ (q.limits r).max
  wanted : ∀ r v, wantedLimit c r = some v → (m.limits r).cur ≤ v ∧ (m.limits r).max ≤ v
  uid : m.uid = ⟨c.uid, c.uid, c.uid⟩
  gid : m.gid = ⟨c.gid, c.gid, c.gid⟩
  groups : m.groups = [c.gid]

/-- C86, the full claim: whatever the judged program and its descendants do, all of them stay confined. -/
def C86_full : Prop :=
  ∀ (c : Config) (q : Proc) (size : Nat → Nat) (t : Scene), Judging c q → Life ⟨[q], size⟩ t → ∀ m ∈ t.procs, Confined c q m

theorem judging_confined {c : Config} {q : Proc} (h : Judging c q) : Confined c q q := by
  obtain ⟨e, p, hs⟩ := h.started
  obtain ⟨h1, h2, h3⟩ := C18_privileges_dropped c e p q h.uid.2 h.gid hs
  refine ⟨fun r => Int.le_refl _, ?_, h1, h2, h3⟩
  intro r v hv
  have := C14_limits c e p q h.ok h.range hs r
  rw [hv] at this
  rw [this]
  exact ⟨Int.le_refl _, Int.le_refl _⟩

theorem idsFrom_const {u : Ids} {a : Int} (h : Ids.From u ⟨a, a, a⟩) : u = ⟨a, a, a⟩ := by
  obtain ⟨h1, h2, h3⟩ := h
  simp only [or_self] at h1 h2 h3
  cases u
  simp_all

theorem idsExec_const (a : Int) (o : Option Int) : Ids.exec ⟨a, a, a⟩ o false = ⟨a, a, a⟩ := by
  cases o <;> rfl

theorem act_confined {c : Config} {q m m' : Proc} (hu : c.uid ≠ 0) (hm : Confined c q m) (hn : m.noNewPrivs = true) (ha : Act m m') :
    Confined c q m' ∧ m'.noNewPrivs = true := by
  have hpriv : ¬m.privileged = true := by
    unfold Proc.privileged
    rw [hm.uid]
    simpa using hu
  cases ha with
  | uids u h =>
    refine ⟨⟨hm.hard, hm.wanted, ?_, hm.gid, hm.groups⟩, hn⟩
    rcases h with h | h
    · exact absurd h hpriv
    · rw [hm.uid] at h; exact idsFrom_const h
  | gids g h =>
    refine ⟨⟨hm.hard, hm.wanted, hm.uid, ?_, hm.groups⟩, hn⟩
    rcases h with h | h
    · exact absurd h hpriv
    · rw [hm.gid] at h; exact idsFrom_const h
  | groups gs h => exact absurd h hpriv
  | execs i =>
    refine ⟨⟨hm.hard, hm.wanted, ?_, ?_, hm.groups⟩, hn⟩
    · rw [hn, hm.uid]; exact idsExec_const _ _
    · rw [hn, hm.gid]; exact idsExec_const _ _
  | noNewPrivs => exact ⟨⟨hm.hard, hm.wanted, hm.uid, hm.gid, hm.groups⟩, rfl⟩
  | filters => exact ⟨⟨hm.hard, hm.wanted, hm.uid, hm.gid, hm.groups⟩, hn⟩
  | descriptors => exact ⟨⟨hm.hard, hm.wanted, hm.uid, hm.gid, hm.groups⟩, hn⟩
  | signals => exact ⟨⟨hm.hard, hm.wanted, hm.uid, hm.gid, hm.groups⟩, hn⟩

theorem mem_set_cases {l : List Proc} {i : Nat} {x m : Proc} (h : m ∈ l.set i x) : m ∈ l ∨ m = x :=
  List.mem_or_eq_of_mem_set h

/-- The invariant: everybody is confined and has no_new_privs. -/
theorem life_confined {c : Config} {q : Proc} {size : Nat → Nat} {t : Scene} (h : Judging c q) (hn : q.noNewPrivs = true)
    (hl : Life ⟨[q], size⟩ t) : ∀ m ∈ t.procs, Confined c q m ∧ m.noNewPrivs = true := by
  induction hl with
  | start =>
    intro m hm
    rw [List.mem_singleton.1 hm]
    exact ⟨judging_confined h, hn⟩
  | act _ i p p' hp ha ih =>
    intro m hm
    rcases mem_set_cases hm with hm | rfl
    · exact ih m hm
    · have := ih p (List.mem_of_getElem? hp)
      exact act_confined h.uid.1 this.1 this.2 ha
  | limit _ i caller p r v hc hp hv ha ih =>
    intro m hm
    rcases mem_set_cases hm with hm | rfl
    · exact ih m hm
    · have hcal := ih caller hc
      obtain ⟨hp1, hp2⟩ := ih p (List.mem_of_getElem? hp)
      have hle : v.max ≤ (p.limits r).max := by
        rcases ha with ha | ha
        · unfold Proc.privileged at ha
          rw [hcal.1.uid] at ha
          exact absurd (by simpa using ha) h.uid.1
        · exact ha
      refine ⟨⟨?_, ?_, hp1.uid, hp1.gid, hp1.groups⟩, hp2⟩
      · intro r'
        dsimp only
        split
        · next he => subst he; exact Int.le_trans hle (hp1.hard _)
        · exact hp1.hard r'
      · intro r' w hw
        have := hp1.wanted r' w hw
        dsimp only
        split
        · next he => subst he; omega
        · exact this
  | forks _ p hp ih =>
    intro m hm
    rcases List.mem_append.1 hm with hm | hm
    · exact ih m hm
    · rw [List.mem_singleton.1 hm]; exact ih p hp
  | exits _ i ih => intro m hm; exact ih m (List.mem_of_mem_eraseIdx hm)
  | grows _ _ _ _ _ _ ih => exact ih
  | shrinks _ _ _ ih => exact ih

/-- With a rule name the program has no_new_privs. -/
theorem judging_noNewPrivs {c : Config} {q : Proc} (h : Judging c q) (hn : c.seccompRuleName ≠ none) : q.noNewPrivs = true := by
  obtain ⟨e, p, hs⟩ := h.started
  have := C23_profile_enforced c e p q hs
  split at this
  · next h' => exact absurd h' hn
  · exact this.1

/-- C86, the part that holds: a seccomp rule name is given.  Missing: without one, a set-user-ID root file is honoured (`C86_false`). -/
theorem C86_confined_partial (c : Config) (q : Proc) (size : Nat → Nat) (t : Scene) (h : Judging c q) (hn : c.seccompRuleName ≠ none)
    (hl : Life ⟨[q], size⟩ t) : ∀ m ∈ t.procs, Confined c q m :=
  fun m hm => (life_confined h (judging_noNewPrivs h hn) hl m hm).1

/-- The hypotheses can be met: the sample configuration names a rule set. -/
theorem judging_sample : Judging sampleConfig (stateAtExec sampleConfig (sampleChild fun _ => false) sampleProc) :=
  ⟨sampleConfig_ok, sampleConfig_range, by decide, by decide, _, _, sample_started⟩

example : sampleConfig.seccompRuleName ≠ none := by decide

/-- The sample configuration without a rule name starts, too. -/
theorem judging_open : ∃ q, Judging { sampleConfig with seccompRuleName := none } q ∧ q.noNewPrivs = false := by
  have hc : ConfigOk { sampleConfig with seccompRuleName := none } := sampleConfig_ok
  obtain ⟨q, hq⟩ := C17_starts { sampleConfig with seccompRuleName := none } (sampleChild fun _ => false) sampleProc hc (by decide) rfl rfl
    (by simp) (fun _ _ => rfl)
  have hs : Started { sampleConfig with seccompRuleName := none } (sampleChild fun _ => false) sampleProc q := ⟨_, _, _, hq⟩
  have := C23_profile_enforced _ _ _ _ hs
  have hr : Config.InRange { sampleConfig with seccompRuleName := none } := by
    obtain ⟨h1, h2, h3, h4, h5, h6, h7, h8, h9⟩ := sampleConfig_range
    exact ⟨h1, h2, h3, h4, h5, h6, h7, h8, h9⟩
  exact ⟨q, ⟨hc, hr, by decide, by decide, _, _, hs⟩, this.2⟩

/-- Without a rule name, executing a set-user-ID root file makes the process root, and root sets any limit it likes. -/
theorem C86_open (q : Proc) (size : Nat → Nat) (hn : q.noNewPrivs = false) (r : Res) (v : Int) :
    ∃ m, Life ⟨[q], size⟩ ⟨[m], size⟩ ∧ m.uid.e = 0 ∧ m.limits r = ⟨v, v⟩ := by
  have h1 := Life.act (Life.start ⟨[q], size⟩) 0 q _ rfl (Act.execs q ⟨some 0, none⟩)
  have h2 := Life.limit h1 0 _ _ r ⟨v, v⟩ (List.mem_singleton.2 rfl) rfl (Int.le_refl _) (Or.inl (by simp [Proc.privileged, Ids.exec, hn]))
  exact ⟨_, h2, by simp [Ids.exec, hn], by simp⟩

/-- With uid 0 no limit binds, even with a rule name. -/
theorem C86_root (q : Proc) (size : Nat → Nat) (hu : q.uid.e = 0) (r : Res) (v : Int) :
    ∃ m, Life ⟨[q], size⟩ ⟨[m], size⟩ ∧ m.limits r = ⟨v, v⟩ :=
  ⟨_, Life.limit (Life.start ⟨[q], size⟩) 0 q q r ⟨v, v⟩ (List.mem_singleton.2 rfl) rfl (Int.le_refl _) (Or.inl (by simp [Proc.privileged, hu])),
    by simp⟩

/-- C86 is false of the code: without a rule name no_new_privs is not set. -/
theorem C86_false : ¬C86_full := by
  intro hfull
  obtain ⟨q, hq, hn⟩ := judging_open
  obtain ⟨m, hl, hu, _⟩ := C86_open q (fun _ => 0) hn .cpu 0
  have h1 := (hfull _ q _ _ hq hl m (List.mem_singleton.2 rfl)).uid
  rw [h1] at hu
  exact absurd hu (by decide)

/-- C87, the full claim: with `max_output_size` given, no file the judged program or a descendant writes gets longer than that (or than it was);
in particular the output file, emptied before the start, never gets longer than `max_output_size`. -/
def C87_full : Prop :=
  ∀ (c : Config) (q : Proc) (size : Nat → Nat) (t : Scene), Judging c q → c.maxOutputSize ≠ -1 → Life ⟨[q], size⟩ t →
    ∀ f, (t.size f : Int) ≤ max (size f : Int) c.maxOutputSize

/-- C87, the part that holds: a seccomp rule name is given.  Missing: as for C86. -/
theorem C87_output_size_partial (c : Config) (q : Proc) (size : Nat → Nat) (t : Scene) (h : Judging c q) (ho : c.maxOutputSize ≠ -1)
    (hn : c.seccompRuleName ≠ none) (hl : Life ⟨[q], size⟩ t) : ∀ f, (t.size f : Int) ≤ max (size f : Int) c.maxOutputSize := by
  have hw : wantedLimit c .fsize = some c.maxOutputSize := by simp [wantedLimit, ho]
  induction hl with
  | start => intro f; dsimp only; omega
  | act _ _ _ _ _ _ ih => exact ih
  | limit _ _ _ _ _ _ _ _ _ _ ih => exact ih
  | forks _ _ _ ih => exact ih
  | exits _ _ ih => exact ih
  | grows hl p f n hp hle ih =>
    intro g
    have h1 := ih g
    have h2 := ((life_confined h (judging_noNewPrivs h hn) hl p hp).1.wanted .fsize _ hw).1
    dsimp only
    split <;> omega
  | shrinks hl f n ih =>
    intro g
    have h1 := ih g
    dsimp only
    split <;> omega

/-- An output file of at most 1 MiB: the sample configuration, the file empty at first. -/
example (t : Scene) (size : Nat → Nat) (f : Nat) (h0 : size f = 0)
    (hl : Life ⟨[stateAtExec sampleConfig (sampleChild fun _ => false) sampleProc], size⟩ t) :
    (t.size f : Int) ≤ sampleConfig.maxOutputSize := by
  have := C87_output_size_partial _ _ _ t judging_sample (by decide) (by decide) hl f
  rw [h0] at this
  have h2 : sampleConfig.maxOutputSize ≥ 0 := by decide
  omega

/-- C87 is false of the code, for the same reason as C86. -/
theorem C87_false : ¬C87_full := by
  intro hfull
  obtain ⟨q, hq, hn⟩ := judging_open
  obtain ⟨m, hl, _, hm⟩ := C86_open q (fun _ => 0) hn .fsize (sampleConfig.maxOutputSize + 1)
  have h1 := hfull _ q _ _ hq (by decide) (Life.grows hl m 0 (sampleConfig.maxOutputSize + 1).toNat (List.mem_singleton.2 rfl)
    (by rw [hm]; decide)) 0
  have h2 : ((1048577 : Nat) : Int) ≤ max (0 : Int) 1048576 := h1
  exact absurd h2 (by decide)

end Judger
