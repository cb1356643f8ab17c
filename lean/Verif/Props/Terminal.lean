import Verif.Props.Names
import Verif.Spec.Terminal

/-! # C127: a judged program leaves the input of the caller's terminal alone -/

set_option autoImplicit false

namespace Judger

open Judger.Spec

/-- C127, the full claim: nothing is typed, and nothing that was typed is taken, on the terminal from which the judger was started. -/
def C127_full : Prop :=
  ∀ (c : Config) (ce : ChildEnv) (p q : Proc) (u : Keyboard), Started c ce p q → Fingers ⟨[], 0, [q.filters]⟩ u → u.typed = [] ∧ u.taken = 0

/-- Under the C/C++ rule sets nothing is typed. -/
theorem cpp_fingers {exe : BitVec 64} {fs : List Filter} {u : Keyboard} (hu : CppAmong exe fs) (h : Fingers ⟨[], 0, [fs]⟩ u) :
    u.typed = [] ∧ ∀ gs ∈ u.procs, CppAmong exe gs := by
  induction h with
  | start => exact ⟨rfl, fun gs hg => by rw [List.mem_singleton.1 hg]; exact hu⟩
  | types _ gs hg r hn ha x ih =>
    obtain ⟨h1, h2⟩ := cppAmong_allow (ih.2 gs hg) ha
    have h3 := hn.resolve_left (by simp [h1])
    have := cCppFileIoAnswer_allow h2
    simp only [List.mem_cons, List.not_mem_nil, or_false] at this
    omega
  | takes _ _ _ _ _ _ _ _ _ _ ih => exact ih
  | installs _ a b gs f hf ih =>
    refine ⟨ih.1, fun x hx => ?_⟩
    rcases List.mem_append.1 hx with hx | hx
    · exact ih.2 x (by rw [hf]; exact List.mem_append_left _ hx)
    · rcases List.mem_cons.1 hx with rfl | hx
      · exact (ih.2 gs (by rw [hf]; simp)).imp (List.mem_cons_of_mem _) (List.mem_cons_of_mem _)
      · exact ih.2 x (by rw [hf]; exact List.mem_append_right _ (List.mem_cons_of_mem _ hx))
  | forks _ gs hg ih =>
    refine ⟨ih.1, fun x hx => ?_⟩
    rcases List.mem_append.1 hx with hx | hx
    · exact ih.2 x hx
    · rw [List.mem_singleton.1 hx]; exact ih.2 gs hg
  | ends _ a b gs hf ih =>
    refine ⟨ih.1, fun x hx => ih.2 x ?_⟩
    rw [hf]
    rcases List.mem_append.1 hx with hx | hx
    · exact List.mem_append_left _ hx
    · exact List.mem_append_right _ (List.mem_cons_of_mem _ hx)

/-- C127, the part that holds: under `c_cpp` and `c_cpp_file_io` nothing is typed.  Missing: the other rule sets and none (`C127_witness_typed`), and what
is taken (`C127_witness_taken`). -/
theorem C127_c_cpp_partial (c : Config) (ce : ChildEnv) (p q : Proc) (u : Keyboard)
    (hn : c.seccompRuleName = some c!"c_cpp" ∨ c.seccompRuleName = some c!"c_cpp_file_io") (hs : Started c ce p q)
    (h : Fingers ⟨[], 0, [q.filters]⟩ u) : u.typed = [] := (cpp_fingers (started_cpp hs hn) h).1

example : ∃ u, Started sampleConfig (sampleChild fun _ => false) sampleProc (stateAtExec sampleConfig (sampleChild fun _ => false) sampleProc) ∧
    Fingers ⟨[], 0, [(stateAtExec sampleConfig (sampleChild fun _ => false) sampleProc).filters]⟩ u ∧ u.taken = 8 :=
  ⟨_, sample_started, .takes (.start _) _ (List.mem_singleton.2 rfl) (Req.mk' 257 [0, 0x1000, 0]) (Req.mk' 0 [3, 0x2000, 8]) (.inr (.inr rfl))
    (.inr (.inl rfl)) (by decide) (by decide) 8, rfl⟩

/-- Under the other rule sets, and without one, the program types what it likes to the shell from which the judger was started. -/
theorem C127_witness_typed (name : Option CStr) (hn : ∀ n, name = some n → n ∈ [c!"general", c!"golang", c!"node"]) (text : CStr) :
    ∃ q u, Started { sampleConfig with seccompRuleName := name } (sampleChild fun _ => false) sampleProc q ∧ Fingers ⟨[], 0, [q.filters]⟩ u ∧
      u.typed = text := by
  obtain ⟨q, hs, _⟩ := log_start name (fun n h => by
    have := hn n h
    simp only [List.mem_cons, List.not_mem_nil, or_false] at this
    rcases this with rfl | rfl | rfl <;> simp [profileNames])
  have hf := C23_profile_enforced _ _ _ _ hs
  have ha : evalAll q.filters (Req.mk' 16 [0, 0x5412, 0x1000]) = .allow := by
    cases name with
    | none =>
      have h1 := hf.1
      rw [h1]
      decide
    | some n =>
      have := hn n rfl
      simp only [List.mem_cons, List.not_mem_nil, or_false] at this
      rcases this with rfl | rfl | rfl <;>
        rcases hf.2 with ⟨h1, h2⟩ | ⟨h1, h2⟩ | ⟨h1, h2⟩ | ⟨h1, h2⟩ | ⟨h1, h2⟩ <;>
        first
        | exact absurd h1 (by decide)
        | (rw [h2]; decide)
  have key : ∀ text : CStr, Fingers ⟨[], 0, [q.filters]⟩ ⟨text, 0, [q.filters]⟩ := by
    intro text
    rw [← List.reverse_reverse text]
    induction text.reverse with
    | nil => exact .start _
    | cons x xs ih =>
      rw [List.reverse_cons]
      exact .types ih _ (List.mem_singleton.2 rfl) _ (.inr rfl) ha x
  exact ⟨q, _, hs, key text, rfl⟩

/-- Even under `c_cpp` it takes what was meant for others. -/
theorem C127_witness_taken : ∃ q u, Started sampleConfig (sampleChild fun _ => false) sampleProc q ∧ Fingers ⟨[], 0, [q.filters]⟩ u ∧ u.taken = 8 :=
  ⟨_, _, sample_started, .takes (.start _) _ (List.mem_singleton.2 rfl) (Req.mk' 257 [0, 0x1000, 0]) (Req.mk' 0 [3, 0x2000, 8]) (.inr (.inr rfl))
    (.inr (.inl rfl)) (by decide) (by decide) 8, rfl⟩

/-- C127 is false of the code: it calls no `setsid`. -/
theorem C127_false : ¬C127_full := by
  intro h
  obtain ⟨q, u, h1, h2, h3⟩ := C127_witness_taken
  have := (h _ _ _ _ _ h1 h2).2
  omega

end Judger
