import Verif.Props.Child

/-! # Exactly when the program finds nothing of the judger open (C22) -/

set_option autoImplicit false

namespace Judger

open Spec

namespace Inherited

theorem redirected_keeps (t : Proc) (path : CStr) (w : Bool) (n m : Nat) (h : (t.fds.get m).isSome) : ((redirected t path w n).fds.get m).isSome := by
  rw [redirected_fds]
  split
  · rfl
  · exact h

theorem redirected_new (t : Proc) (path : CStr) (w : Bool) (n : Nat) : ((redirected t path w n).fds.get t.fds.lowest).isSome := by
  rw [redirected_fds, if_pos (.inr rfl)]
  rfl

theorem input_keeps (c : Config) (t : Proc) (m : Nat) (h : (t.fds.get m).isSome) : ((afterInput c t).2.fds.get m).isSome := by
  unfold afterInput
  cases c.inputPath with
  | none => exact h
  | some path => exact redirected_keeps _ _ _ _ _ h

theorem output_keeps (c : Config) (t : Proc) (m : Nat) (h : (t.fds.get m).isSome) : ((afterOutput c t).2.fds.get m).isSome := by
  unfold afterOutput
  cases c.outputPath with
  | none => exact h
  | some path => exact redirected_keeps _ _ _ _ _ h

theorem error_keeps (c : Config) (o : Option File) (t : Proc) (m : Nat) (hm : m ≠ 2) (h : (t.fds.get m).isSome) :
    ((afterError c o t).2.fds.get m).isSome := by
  unfold afterError
  cases c.errorPath with
  | none => exact h
  | some path =>
    simp only
    split
    · simp only [FdTable.get_set, if_neg hm]
      exact h
    · exact redirected_keeps _ _ _ _ _ h

theorem lowest_high {t : FdTable} (h : ∀ n, n ≤ 2 → (t.get n).isSome) : 2 < t.lowest := by
  have h0 := lowest_ne_of_open (h 0 (by omega))
  have h1 := lowest_ne_of_open (h 1 (by omega))
  have h2 := lowest_ne_of_open (h 2 (by omega))
  omega

/-- What is open above 2 stays open. -/
theorem keeps (c : Config) (p : Proc) (m : Nat) (hm : m ≠ 2) (h : (p.fds.get m).isSome) : ((redirections c p).fds.get m).isSome :=
  error_keeps _ _ _ _ hm (output_keeps _ _ _ (input_keeps _ _ _ h))

/-- A configured stream takes the lowest free descriptor as well, and keeps it. -/
theorem takes (c : Config) (p : Proc) (hp : ∀ n, n ≤ 2 → (p.fds.get n).isSome)
    (hc : ¬(c.inputPath = none ∧ c.outputPath = none ∧ c.errorPath = none)) : ((redirections c p).fds.get p.fds.lowest).isSome := by
  have hl := lowest_high hp
  have hne : p.fds.lowest ≠ 2 := by omega
  unfold redirections
  simp only
  cases hi : c.inputPath with
  | some path =>
    apply error_keeps _ _ _ _ hne
    apply output_keeps
    simp only [afterInput, hi]
    exact redirected_new { p with limits := limitsAfter c p.limits } path false 0
  | none =>
    simp only [afterInput, hi]
    cases ho : c.outputPath with
    | some path =>
      apply error_keeps _ _ _ _ hne
      simp only [afterOutput, ho]
      exact redirected_new { p with limits := limitsAfter c p.limits } path true 1
    | none =>
      simp only [afterOutput, ho]
      cases he : c.errorPath with
      | some path =>
        have : ¬(none = some path) := fun h => by cases h
        simp only [afterError, he, ho, if_neg this]
        exact redirected_new { p with limits := limitsAfter c p.limits } path true 2
      | none => exact absurd ⟨hi, ho, he⟩ hc

theorem nothing (c : Config) (p : Proc) (h : c.inputPath = none ∧ c.outputPath = none ∧ c.errorPath = none) : (redirections c p).fds = p.fds := by
  obtain ⟨h1, h2, h3⟩ := h
  simp only [redirections, afterInput, afterOutput, afterError, h1, h2, h3]

theorem started_fds {c : Config} {e : ChildEnv} {p q : Proc} (h : Started c e p q) : q.fds = (redirections c p).fds := by
  obtain ⟨rfl, _⟩ := started_inv h
  rw [stateAtExec_eq]
  exact (late_frame c e (redirections c p)).2.1

end Inherited

open Inherited

/-- **C22**, settled for callers whose standard streams are open: what the started program has open above 2 is the caller's own and not the log exactly
if no stream is configured and the log is not open above 2. -/
theorem C22_exact (c : Config) (e : ChildEnv) (p q : Proc) (h : Started c e p q) (hp : ∀ n, n ≤ 2 → (p.fds.get n).isSome) :
    (∀ fd, 2 < fd → (q.fds.get fd).isSome → q.fds.get fd = p.fds.get fd ∧ ∀ f, e.log = some f → fd ≠ f.fd) ↔
      (c.inputPath = none ∧ c.outputPath = none ∧ c.errorPath = none) ∧ ∀ f, e.log = some f → f.fd ≤ 2 ∨ p.fds.get f.fd = none := by
  rw [started_fds h]
  constructor
  · intro H
    refine ⟨Classical.byContradiction fun hc => ?_, fun f hf => ?_⟩
    · have ht := takes c p hp hc
      have := (H _ (lowest_high hp) ht).1
      rw [this, FdTable.get_lowest] at ht
      cases ht
    · by_cases h2 : f.fd ≤ 2
      · exact .inl h2
      · right
        cases hg : p.fds.get f.fd with
        | none => rfl
        | some k =>
          have := H f.fd (by omega) (keeps c p f.fd (by omega) (by rw [hg]; rfl))
          exact absurd rfl (this.2 f hf)
  · rintro ⟨hc, hl⟩ fd hfd ho
    rw [nothing c p hc] at ho ⊢
    refine ⟨rfl, fun f hf he => ?_⟩
    subst he
    rcases hl f hf with h1 | h1
    · omega
    · rw [h1] at ho; cases ho

/-- With a log that is open above 2, as `run()` opens it for such a caller, the claim fails for every request. -/
theorem C22_log_always (c : Config) (e : ChildEnv) (p q : Proc) (h : Started c e p q) (f : File) (hf : e.log = some f) (h2 : 2 < f.fd)
    (ho : (p.fds.get f.fd).isSome) :
    (q.fds.get f.fd).isSome ∧ ¬∀ fd, 2 < fd → (q.fds.get fd).isSome → q.fds.get fd = p.fds.get fd ∧ ∀ f, e.log = some f → fd ≠ f.fd := by
  have hk : (q.fds.get f.fd).isSome := by
    rw [started_fds h]
    exact keeps c p f.fd (by omega) ho
  exact ⟨hk, fun H => (H f.fd h2 hk).2 f hf rfl⟩

/-- Non-vacuous: the sample program, whose caller has its streams and the log open. -/
example : ∃ q, Started sampleConfig (sampleChild fun _ => false) sampleProc q ∧ (∀ n, n ≤ 2 → (sampleProc.fds.get n).isSome) ∧
    ∃ f, (sampleChild fun _ => false).log = some f ∧ 2 < f.fd ∧ (sampleProc.fds.get f.fd).isSome :=
  ⟨_, sample_started, by intro n hn; obtain rfl | rfl | rfl : n = 0 ∨ n = 1 ∨ n = 2 := by omega
                         all_goals decide,
    _, rfl, by decide, by decide⟩

end Judger
