import Verif.Props.Ledger
import Verif.Spec.Lock

/-! # C116: a judged program does not hold up other judgings through the log -/

set_option autoImplicit false

namespace Judger

open Judger.Spec

/-- The started program has a descriptor of the log. -/
def HasLog (c : Config) (q : Proc) : Prop := ∃ fd i f, q.fds.get fd = some i ∧ q.ofds[i]? = some f ∧ f.path = c.logPath

/-- C116, the full claim: whatever the program and its descendants do, if their user may not open the log by name, another judger can write its entry. -/
def C116_full : Prop :=
  ∀ (c : Config) (ce : ChildEnv) (p q : Proc) (n : Nat) (m : Queue), Started c ce p q → Locks (HasLog c q) ⟨n, false, [q.filters]⟩ m →
    m.taken = false

/-- C116, where the program has no descriptor of the log, as when it could not be opened, and cannot get one. -/
theorem C116_no_descriptor_partial (reach : Prop) (fs : List Filter) (n : Nat) (m : Queue) (hr : ¬reach) (h : Locks reach ⟨n, false, [fs]⟩ m) :
    m.taken = false := by
  induction h with
  | start => rfl
  | tells _ ht => exact ht
  | takes _ hl => exact absurd hl hr
  | frees => rfl
  | installs _ _ _ _ _ _ ih => exact ih
  | forks _ _ _ _ _ _ ih => exact ih
  | ends _ _ _ _ _ ih => simp [ih]

/-- A judger that could not open its log. -/
example : ¬HasLog { sampleConfig with logPath := c!"/nowhere/judger.log" } (stateAtExec sampleConfig (sampleChild fun _ => false) sampleProc) := by
  rintro ⟨fd, i, f, _, h2, h3⟩
  have : ∀ f ∈ (stateAtExec sampleConfig (sampleChild fun _ => false) sampleProc).ofds, f.path ≠ c!"/nowhere/judger.log" := by decide
  exact this f (List.mem_of_getElem? h2) h3

theorem cpp_locks {reach : Prop} {exe : BitVec 64} {fs : List Filter} {n : Nat} {m : Queue} (hu : CppAmong exe fs)
    (h : Locks reach ⟨n, false, [fs]⟩ m) : m.taken = false ∧ ∀ gs ∈ m.procs, CppAmong exe gs := by
  induction h with
  | start => exact ⟨rfl, fun gs hg => by rw [List.mem_singleton.1 hg]; exact hu⟩
  | tells _ _ ih => exact ih
  | takes _ _ gs hg r hn ha ih =>
    obtain ⟨h1, h2⟩ := cppAmong_allow (ih.2 gs hg) ha
    have h3 := hn.resolve_left (by simp [h1])
    have := cCppFileIoAnswer_allow h2
    simp [h3] at this
  | frees _ ih => exact ⟨rfl, ih.2⟩
  | installs _ a b gs f hf ih =>
    refine ⟨ih.1, fun x hx => ?_⟩
    rcases List.mem_append.1 hx with hx | hx
    · exact ih.2 x (by rw [hf]; exact List.mem_append_left _ hx)
    · rcases List.mem_cons.1 hx with rfl | hx
      · exact (ih.2 gs (by rw [hf]; simp)).imp (List.mem_cons_of_mem _) (List.mem_cons_of_mem _)
      · exact ih.2 x (by rw [hf]; exact List.mem_append_right _ (List.mem_cons_of_mem _ hx))
  | forks _ gs hg _ _ _ ih =>
    refine ⟨ih.1, fun x hx => ?_⟩
    rcases List.mem_append.1 hx with hx | hx
    · exact ih.2 x hx
    · rw [List.mem_singleton.1 hx]; exact ih.2 gs hg
  | ends _ a b gs hf ih =>
    refine ⟨by simp [ih.1], fun x hx => ih.2 x ?_⟩
    rw [hf]
    rcases List.mem_append.1 hx with hx | hx
    · exact List.mem_append_left _ hx
    · exact List.mem_append_right _ (List.mem_cons_of_mem _ hx)

/-- C116, under `c_cpp` and `c_cpp_file_io`, even where the program's user may open the log by name.
Missing: the other rule sets and none (`C116_witness`). -/
theorem C116_c_cpp_partial (reach : Prop) (c : Config) (ce : ChildEnv) (p q : Proc) (n : Nat) (m : Queue)
    (hn : c.seccompRuleName = some c!"c_cpp" ∨ c.seccompRuleName = some c!"c_cpp_file_io") (hs : Started c ce p q)
    (h : Locks reach ⟨n, false, [q.filters]⟩ m) : m.taken = false := by
  have hprof := C23_profile_enforced c ce p q hs
  have hu : CppAmong ce.exeAddr q.filters := by
    rcases hn with hn | hn <;> rw [hn] at hprof <;>
      rcases hprof.2 with ⟨h1, h2⟩ | ⟨h1, h2⟩ | ⟨h1, h2⟩ | ⟨h1, h2⟩ | ⟨h1, h2⟩ <;>
      first
      | exact absurd h1 (by decide)
      | (left; rw [h2]; exact List.mem_cons_self)
      | (right; rw [h2]; exact List.mem_cons_self)
  exact (cpp_locks hu h).1

/-- Under `c_cpp`, while the sample program runs, another judger writes an entry. -/
example : ∃ q m, Started { sampleConfig with seccompRuleName := some c!"c_cpp" } (sampleChild fun _ => false) sampleProc q ∧
    Locks (HasLog { sampleConfig with seccompRuleName := some c!"c_cpp" } q) ⟨7, false, [q.filters]⟩ m ∧ m.entries = 8 ∧ m.taken = false :=
  ⟨_, _, sample_started, .tells (.start _) rfl, rfl, rfl⟩

/-- Under `general`, `golang`, `node`, and without a rule set: the program locks the log, starts another process and ends.  As long as that process
keeps the lock, no other judger gets an entry written. -/
theorem C116_witness (name : Option CStr) (hn : ∀ n, name = some n → n ∈ [c!"general", c!"golang", c!"node"]) :
    ∃ q, Started { sampleConfig with seccompRuleName := name } (sampleChild fun _ => false) sampleProc q ∧
      HasLog { sampleConfig with seccompRuleName := name } q ∧
      ∀ n : Nat, Locks (HasLog { sampleConfig with seccompRuleName := name } q) ⟨n, false, [q.filters]⟩ ⟨n, true, [q.filters]⟩ := by
  obtain ⟨q, hs, hl, _, _⟩ := log_start name (fun n h => by
    have := hn n h
    simp only [List.mem_cons, List.not_mem_nil, or_false] at this
    rcases this with rfl | rfl | rfl <;> simp [profileNames])
  have hf := C23_profile_enforced _ _ _ _ hs
  have ha : evalAll q.filters (Req.mk' 73 [3, 2]) = .allow ∧ evalAll q.filters (Req.mk' 435 [0x1000, 88]) = .allow := by
    cases name with
    | none =>
      have h1 := hf.1
      rw [h1]
      exact ⟨by decide, by decide⟩
    | some n =>
      have := hn n rfl
      simp only [List.mem_cons, List.not_mem_nil, or_false] at this
      rcases this with rfl | rfl | rfl <;>
        rcases hf.2 with ⟨h1, h2⟩ | ⟨h1, h2⟩ | ⟨h1, h2⟩ | ⟨h1, h2⟩ | ⟨h1, h2⟩ <;>
        first
        | exact absurd h1 (by decide)
        | (rw [h2]; exact ⟨by decide, by decide⟩)
  have hh : HasLog { sampleConfig with seccompRuleName := name } q := by
    obtain ⟨fd, i, f, h1, h2, h3, _⟩ := hl
    exact ⟨fd, i, f, h1, h2, h3⟩
  refine ⟨q, hs, hh, fun n => ?_⟩
  have h1 := Locks.takes (Locks.start ⟨n, false, [q.filters]⟩) hh q.filters (List.mem_singleton.2 rfl) _ (.inr rfl) ha.1
  have h2 := Locks.forks h1 q.filters (List.mem_singleton.2 rfl) _ (by decide) ha.2
  exact Locks.ends h2 [] [q.filters] q.filters rfl

/-- Before another judger writes anything, the program must have released the lock. -/
theorem C116_waits (reach : Prop) (l m : Queue) (h : Locks reach l m) (hm : l.entries < m.entries) :
    ∃ k, Locks reach l k ∧ k.taken = false ∧ k.entries = l.entries := by
  induction h with
  | start => omega
  | @tells m h ht ih =>
    by_cases h1 : l.entries < m.entries
    · exact ih h1
    · refine ⟨m, h, ht, ?_⟩
      have : l.entries < m.entries + 1 := hm
      omega
  | takes _ _ _ _ _ _ _ ih => exact ih hm
  | frees _ ih => exact ih hm
  | installs _ _ _ _ _ _ ih => exact ih hm
  | forks _ _ _ _ _ _ ih => exact ih hm
  | ends _ _ _ _ _ ih => exact ih hm

example : ∃ k, Locks False ⟨0, true, [[]]⟩ k ∧ k.taken = false ∧ k.entries = 0 :=
  C116_waits False ⟨0, true, [[]]⟩ _ (.tells (.frees (.start _)) rfl) (by decide)

/-- C116 is false of the code. -/
theorem C116_false : ¬C116_full := by
  intro h
  obtain ⟨q, hs, _, hw⟩ := C116_witness none (by simp)
  have := h _ _ _ q 0 _ hs (hw 0)
  cases this

end Judger
