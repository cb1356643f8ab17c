import Verif.Props.Peers
import Verif.Spec.Secret

/-! # C141: a judged program reads no files of other users -/

set_option autoImplicit false

namespace Judger

open Judger.Spec

/-- C141, the full claim: a file that does not belong to the user of the program can never be opened for reading by the program or its descendants. -/
def C141_full : Prop :=
  ∀ (c : Config) (q : Proc) (size : Nat → Nat) (i j : Inode) (t : Scene), Judging c q → i.owner ≠ c.uid → Pries ⟨[q], size⟩ i t j → ¬CanOpen t j

/-- What the program then is: the user and the group of the request, with no group beside. -/
def asAsked (c : Config) : Who := ⟨c.uid, c.gid, [c.gid]⟩

theorem life_trans {s t u : Scene} (h : Life s t) (h' : Life t u) : Life s u := by
  induction h' with
  | start => exact h
  | act _ i p p' hp ha ih => exact .act ih i p p' hp ha
  | limit _ i caller p r v hc hp hv ha ih => exact .limit ih i caller p r v hc hp hv ha
  | forks _ p hp ih => exact .forks ih p hp
  | exits _ i ih => exact .exits ih i
  | grows _ p f n hp hn ih => exact .grows ih p f n hp hn
  | shrinks _ f n ih => exact .shrinks ih f n

/-- With a rule set the program stays what it is, and leaves the files of others as they are. -/
theorem pries_same {c : Config} {q : Proc} {size : Nat → Nat} {i j : Inode} {t : Scene} (h : Judging c q) (hn : c.seccompRuleName ≠ none)
    (hi : i.owner ≠ c.uid) (hp : Pries ⟨[q], size⟩ i t j) : Life ⟨[q], size⟩ t ∧ j = i := by
  have who : ∀ {t : Scene}, Life ⟨[q], size⟩ t → ∀ m ∈ t.procs, asWho m = asAsked c := by
    intro t hl m hm
    have hc := C86_confined_partial c q size t h hn hl m hm
    unfold asWho asAsked
    rw [hc.uid, hc.gid, hc.groups]
  have no : ∀ {t : Scene}, Life ⟨[q], size⟩ t → ∀ m ∈ t.procs, ¬(asWho m).mayChange i := by
    intro t hl m hm ha
    rw [who hl m hm] at ha
    rcases ha with ha | ha
    · exact h.uid.1 ha
    · exact hi ha.symm
  induction hp with
  | lives hl => exact ⟨hl, rfl⟩
  | chmod _ p hp ha mode ih => obtain ⟨hl, rfl⟩ := ih; exact absurd ha (no hl p hp)
  | chown _ p hp ha o g ih => obtain ⟨hl, rfl⟩ := ih; exact absurd (.inl ha) (no hl p hp)
  | chgrp _ p hp ha g ih => obtain ⟨hl, rfl⟩ := ih; exact absurd ha (no hl p hp)
  | then_ _ hl' ih => exact ⟨life_trans ih.1 hl', ih.2⟩

/-- C141, the part that holds: with a rule set, a file of another user whose mode does not let the group of the request (if it is the file's) or everybody read it.
Missing: files that may be read (`C141_witness_open`), and programs without a rule set (`C141_witness_root`). -/
theorem C141_closed_partial (c : Config) (q : Proc) (size : Nat → Nat) (i j : Inode) (t : Scene) (h : Judging c q) (hn : c.seccompRuleName ≠ none)
    (hi : i.owner ≠ c.uid) (hm : ¬(asAsked c).mayRead i) (hp : Pries ⟨[q], size⟩ i t j) : ¬CanOpen t j := by
  obtain ⟨hl, rfl⟩ := pries_same h hn hi hp
  rintro ⟨m, hmem, r, _, _, hr⟩
  have hc := C86_confined_partial c q size t h hn hl m hmem
  refine hm ?_
  have : asWho m = asAsked c := by
    unfold asWho asAsked
    rw [hc.uid, hc.gid, hc.groups]
  rwa [← this]

/-- Every rule set lets a file be opened for reading. -/
theorem opens_allowed {c : Config} {ce : ChildEnv} {p q : Proc} (hf : p.filters = []) (hs : Started c ce p q) :
    evalAll q.filters (Req.mk' 257 [0, 0x1000, 0]) = .allow := by
  have hp := C23_profile_enforced c ce p q hs
  have one : ∀ f : Filter, f.eval (Req.mk' 257 [0, 0x1000, 0]) = .allow → evalAll [f] (Req.mk' 257 [0, 0x1000, 0]) = .allow := by
    intro f h
    show Action.min (f.eval _) .allow = .allow
    rw [h]
    rfl
  cases hname : c.seccompRuleName with
  | none => rw [hname] at hp; rw [hp.1, hf]; decide
  | some name =>
    rw [hname] at hp
    rcases hp.2 with ⟨_, h2⟩ | ⟨_, h2⟩ | ⟨_, h2⟩ | ⟨_, h2⟩ | ⟨_, h2⟩ <;> rw [h2, hf] <;> apply one
    · rw [cCpp_eval _ rfl]; simp [cCppAnswer, readOnly, accessMode, Req.mk']
    · rw [cCppFileIo_eval _ rfl]; simp [cCppFileIoAnswer, Req.mk']
    · rw [general_eval _ _ rfl]; simp [generalAnswer, Req.mk', readOnly, accessMode]
    · rw [golang_eval _ rfl]; simp [golangAnswer, Req.mk', readOnly, accessMode]
    · rw [node_eval _ rfl]; simp [nodeAnswer, Req.mk']

/-- C141, settled for every rule set: a program can come to read a file of another user exactly if its mode lets the user and the group of the request read it
(callers under no filter of their own). -/
theorem C141_exact (c : Config) (ce : ChildEnv) (p q : Proc) (size : Nat → Nat) (i : Inode) (h : Judging c q) (hs : Started c ce p q) (hf : p.filters = [])
    (hn : c.seccompRuleName ≠ none) (hi : i.owner ≠ c.uid) :
    (∃ t j, Pries ⟨[q], size⟩ i t j ∧ CanOpen t j) ↔ (asAsked c).mayRead i := by
  constructor
  · rintro ⟨t, j, h1, h2⟩
    exact Classical.byContradiction fun hm => C141_closed_partial c q size i j t h hn hi hm h1 h2
  · intro hm
    have hc := judging_confined h
    refine ⟨_, i, .lives (.start _), q, List.mem_singleton.2 rfl, Req.mk' 257 [0, 0x1000, 0], .inr (.inr (.inr ⟨rfl, by decide⟩)), opens_allowed hf hs, ?_⟩
    have : asWho q = asAsked c := by
      unfold asWho asAsked
      rw [hc.uid, hc.gid, hc.groups]
    rwa [this]

/-- The answers of a problem, in a file of root that everybody may read. -/
def openAnswers : Inode := ⟨0, 0, 0o644⟩

/-- The same, closed. -/
def closedAnswers : Inode := ⟨0, 0, 0o600⟩

/-- Under every rule set, also `c_cpp`, and without one, the program can open the answers if everybody may. -/
theorem C141_witness_open (name : Option CStr) (hn : ∀ n, name = some n → n ∈ profileNames) :
    ∃ q, Judging { sampleConfig with seccompRuleName := name } q ∧ CanOpen ⟨[q], fun _ => 0⟩ openAnswers := by
  obtain ⟨q, hj, hs⟩ := sample_any name hn
  have hc := judging_confined hj
  refine ⟨q, hj, q, List.mem_singleton.2 rfl, Req.mk' 257 [0, 0x1000, 0], .inr (.inr (.inr ⟨rfl, by decide⟩)), opens_allowed rfl hs, ?_⟩
  unfold asWho
  rw [hc.uid, hc.gid, hc.groups]
  right
  simp only [sampleConfig]
  decide

/-- Without a rule set it can open them even if they are closed, through a set-user-ID root file. -/
theorem C141_witness_root : ∃ q t, Judging { sampleConfig with seccompRuleName := none } q ∧ Pries ⟨[q], fun _ => 0⟩ closedAnswers t closedAnswers ∧
    CanOpen t closedAnswers := by
  obtain ⟨q, hj, hs⟩ := sample_any none (by simp)
  have hp := C23_profile_enforced _ _ _ _ hs
  have hn : q.noNewPrivs = false := hp.2
  have h1 := Life.act (Life.start ⟨[q], fun _ => 0⟩) 0 q _ rfl (Act.execs q ⟨some 0, none⟩)
  refine ⟨q, _, hj, .lives h1, _, List.mem_singleton.2 rfl, Req.mk' 257 [0, 0x1000, 0], .inr (.inr (.inr ⟨rfl, by decide⟩)), ?_, .inl ?_⟩
  · show evalAll q.filters _ = .allow
    exact opens_allowed rfl hs
  · simp [asWho, Ids.exec, hn]

/-- The sample judging under `c_cpp`: the answers can be read when they are open, and not when they are closed. -/
example (size : Nat → Nat) (h : Judging sampleConfig (stateAtExec sampleConfig (sampleChild fun _ => false) sampleProc)) :
    (∃ t j, Pries ⟨[stateAtExec sampleConfig (sampleChild fun _ => false) sampleProc], size⟩ openAnswers t j ∧ CanOpen t j) ∧
    ¬∃ t j, Pries ⟨[stateAtExec sampleConfig (sampleChild fun _ => false) sampleProc], size⟩ closedAnswers t j ∧ CanOpen t j := by
  constructor
  · refine (C141_exact sampleConfig _ _ _ size openAnswers h sample_started rfl (by simp [sampleConfig]) (by simp only [sampleConfig, openAnswers]; decide)).2 (.inr ?_)
    simp only [asAsked, sampleConfig]
    decide
  · rw [C141_exact sampleConfig _ _ _ size closedAnswers h sample_started rfl (by simp [sampleConfig]) (by simp only [sampleConfig, closedAnswers]; decide)]
    rintro (h | h)
    · exact absurd h (by simp only [asAsked, sampleConfig]; decide)
    · exact absurd h (by simp only [asAsked, sampleConfig]; decide)

/-- C141 is false of the code. -/
theorem C141_false : ¬C141_full := by
  intro h
  obtain ⟨q, hq, hc⟩ := C141_witness_open (some c!"c_cpp") (fun n h => by cases h; simp [profileNames])
  exact h _ q _ openAnswers _ _ hq (by simp only [sampleConfig, openAnswers]; decide) (.lives (.start _)) hc

/-- Under `general` the closed answers stay closed. -/
example : ∃ q, Judging { sampleConfig with seccompRuleName := some c!"general" } q ∧
    ∀ t j, Pries ⟨[q], fun _ => 0⟩ closedAnswers t j → ¬CanOpen t j := by
  obtain ⟨q, hj, _⟩ := sample_any (some c!"general") (fun n h => by cases h; simp [profileNames])
  refine ⟨q, hj, fun t j h => C141_closed_partial _ q _ _ j t hj (by simp) (by simp only [sampleConfig, closedAnswers]; decide) ?_ h⟩
  rintro (h | h)
  · exact absurd h (by simp only [asAsked, sampleConfig]; decide)
  · exact absurd h (by simp only [asAsked, sampleConfig]; decide)

end Judger
