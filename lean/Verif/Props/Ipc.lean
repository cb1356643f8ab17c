import Verif.Props.Network
import Verif.Spec.Ipc

/-! # C140: a judged program leaves nothing behind in the kernel -/

set_option autoImplicit false

namespace Judger

open Judger.Spec

/-- C140, the full claim: when all processes of the program have ended, none of the shared memory, semaphores and message queues they made is left. -/
def C140_full : Prop :=
  ∀ (most : Nat) (c : Config) (ce : ChildEnv) (p q : Proc) (k : Estate), Started c ce p q →
    Bequeaths most ⟨[q.filters], []⟩ k → k.procs = [] → k.objects = []

/-- What a filter forbids stays forbidden to everybody of the program. -/
theorem bequeaths_none {most : Nat} {fs : List Filter} {f : Filter} {k : Estate} (hf : f ∈ fs)
    (hno : ∀ r : Req, r.native = true → r.nr ∈ ipcMakers → f.eval r ≠ .allow)
    (h : Bequeaths most ⟨[fs], []⟩ k) : k.objects = [] ∧ ∀ gs ∈ k.procs, f ∈ gs := by
  generalize he : (⟨[fs], []⟩ : Estate) = e at h
  induction h with
  | start =>
    subst he
    exact ⟨rfl, fun gs hg => by rw [List.mem_singleton.1 hg]; exact hf⟩
  | makes _ gs hg r hp _ ih =>
    have hmem := ih.2 gs hg
    have hnat := allowed_native hp.2 hmem
    exact absurd (evalAll_allow hp.2 _ hmem) (hno r hnat (hp.1.resolve_left (by rw [hnat]; simp)))
  | removed _ l hl ih =>
    rw [ih.1] at hl
    exact ⟨List.eq_nil_of_sublist_nil hl, ih.2⟩
  | installs _ a b gs g hk ih =>
    refine ⟨ih.1, fun x hx => ?_⟩
    have h2 := ih.2
    rw [hk] at h2
    rcases List.mem_append.1 hx with hx | hx
    · exact h2 x (List.mem_append_left _ hx)
    · rcases List.mem_cons.1 hx with rfl | hx
      · exact List.mem_cons_of_mem _ (h2 gs (List.mem_append_right _ List.mem_cons_self))
      · exact h2 x (List.mem_append_right _ (List.mem_cons_of_mem _ hx))
  | forks _ gs hg ih =>
    refine ⟨ih.1, fun x hx => ?_⟩
    rcases List.mem_append.1 hx with hx | hx
    · exact ih.2 x hx
    · rw [List.mem_singleton.1 hx]; exact ih.2 gs hg
  | ends _ a b gs hk ih =>
    refine ⟨ih.1, fun x hx => ?_⟩
    have h2 := ih.2
    rw [hk] at h2
    rcases List.mem_append.1 hx with hx | hx
    · exact h2 x (List.mem_append_left _ hx)
    · exact h2 x (List.mem_append_right _ (List.mem_cons_of_mem _ hx))

/-- C140, the part that holds: under `c_cpp` and `c_cpp_file_io` no such object is there at any time.  Missing: the other rule sets and none
(`C140_false`). -/
theorem C140_c_cpp_partial (most : Nat) (c : Config) (ce : ChildEnv) (p q : Proc) (k : Estate)
    (hn : c.seccompRuleName = some c!"c_cpp" ∨ c.seccompRuleName = some c!"c_cpp_file_io")
    (hs : Started c ce p q) (h : Bequeaths most ⟨[q.filters], []⟩ k) : k.objects = [] := by
  have hprof := C23_profile_enforced c ce p q hs
  have hcpp : ∀ exe, cCppFilter exe ∈ q.filters → k.objects = [] := fun exe hf =>
    (bequeaths_none hf (fun r hr hm => by
      simp only [ipcMakers, List.mem_cons, List.not_mem_nil, or_false] at hm
      rw [cCpp_eval _ hr]
      rcases hm with hm | hm | hm | hm <;> simp [cCppAnswer, hm]) h).1
  have hio : ∀ exe, cCppFileIoFilter exe ∈ q.filters → k.objects = [] := fun exe hf =>
    (bequeaths_none hf (fun r hr hm => by
      simp only [ipcMakers, List.mem_cons, List.not_mem_nil, or_false] at hm
      rw [cCppFileIo_eval _ hr]
      rcases hm with hm | hm | hm | hm <;> simp [cCppFileIoAnswer, cCppAnswer, hm]) h).1
  rcases hn with hn | hn <;> rw [hn] at hprof <;>
    rcases hprof.2 with ⟨h1, h2⟩ | ⟨h1, h2⟩ | ⟨h1, h2⟩ | ⟨h1, h2⟩ | ⟨h1, h2⟩
  · exact hcpp ce.exeAddr (by rw [h2]; simp)
  · exact absurd h1 (by decide)
  · exact absurd h1 (by decide)
  · exact absurd h1 (by decide)
  · exact absurd h1 (by decide)
  · exact absurd h1 (by decide)
  · exact hio ce.exeAddr (by rw [h2]; simp)
  · exact absurd h1 (by decide)
  · exact absurd h1 (by decide)
  · exact absurd h1 (by decide)

/-- The sample program under `c_cpp`. -/
example (k : Estate) (h : Bequeaths 4096 ⟨[(stateAtExec sampleConfig (sampleChild fun _ => false) sampleProc).filters], []⟩ k) : k.objects = [] :=
  C140_c_cpp_partial 4096 sampleConfig _ _ _ k (.inl rfl) sample_started h

/-- A program that may make them makes as many as the kernel has room for, and ends. -/
theorem bequeaths_many {fs : List Filter} {nr : Nat} (hnr : nr ∈ ipcMakers) (ha : evalAll fs (Req.mk' nr []) = .allow) (most n : Nat) (hn : n ≤ most) :
    Bequeaths most ⟨[fs], []⟩ ⟨[], List.replicate n nr⟩ := by
  have h : Bequeaths most ⟨[fs], []⟩ ⟨[fs], List.replicate n nr⟩ := by
    induction n with
    | zero => exact .start _
    | succ n ih =>
      have h2 := Bequeaths.makes (ih (by omega)) fs List.mem_cons_self (Req.mk' nr []) ⟨.inr hnr, ha⟩ (by simp; omega)
      exact h2
  exact .ends h [] [] fs rfl

/-- Under the other rule sets every one of the four calls passes, so a program leaves as many objects of each kind as the kernel has room for. -/
theorem C140_witness (name : CStr) (hn : name = c!"general" ∨ name = c!"golang" ∨ name = c!"node") :
    ∃ q, Started { sampleConfig with seccompRuleName := some name } (sampleChild fun _ => false) sampleProc q ∧
      ∀ nr ∈ ipcMakers, ∀ most n, n ≤ most → Bequeaths most ⟨[q.filters], []⟩ ⟨[], List.replicate n nr⟩ := by
  have hc : ConfigOk { sampleConfig with seccompRuleName := some name } := sampleConfig_ok
  obtain ⟨q, hq⟩ := C17_starts { sampleConfig with seccompRuleName := some name } (sampleChild fun _ => false) sampleProc hc
    (by simp [sampleConfig]) rfl rfl (by rcases hn with rfl | rfl | rfl <;> simp [profileNames]) (fun _ _ => rfl)
  have hs : Started { sampleConfig with seccompRuleName := some name } (sampleChild fun _ => false) sampleProc q := ⟨_, _, _, hq⟩
  have hf := C23_profile_enforced _ _ _ _ hs
  refine ⟨q, hs, fun nr hnr most n hle => bequeaths_many hnr ?_ most n hle⟩
  simp only [ipcMakers, List.mem_cons, List.not_mem_nil, or_false] at hnr
  rcases hn with rfl | rfl | rfl <;>
    rcases hf.2 with ⟨h1, h2⟩ | ⟨h1, h2⟩ | ⟨h1, h2⟩ | ⟨h1, h2⟩ | ⟨h1, h2⟩ <;>
    first
    | exact absurd h1 (by decide)
    | (rw [h2]; rcases hnr with rfl | rfl | rfl | rfl <;> decide)

/-- C140, settled (callers under no filter of their own): a program can leave such an object behind exactly if it does not run under one of the two C/C++ rule sets. -/
theorem C140_exact (c : Config) (ce : ChildEnv) (p q : Proc) (hf : p.filters = []) (hs : Started c ce p q) :
    (∃ most k, Bequeaths most ⟨[q.filters], []⟩ k ∧ k.procs = [] ∧ k.objects ≠ []) ↔
      c.seccompRuleName ≠ some c!"c_cpp" ∧ c.seccompRuleName ≠ some c!"c_cpp_file_io" := by
  constructor
  · rintro ⟨most, k, h, _, ho⟩
    exact ⟨fun hn => ho (C140_c_cpp_partial most c ce p q k (.inl hn) hs h), fun hn => ho (C140_c_cpp_partial most c ce p q k (.inr hn) hs h)⟩
  · rintro ⟨h1, h2⟩
    have one : ∀ f : Filter, f.eval (Req.mk' 29 []) = .allow → evalAll [f] (Req.mk' 29 []) = .allow := by
      intro f h
      show Action.min (f.eval _) .allow = .allow
      rw [h]
      rfl
    have ha : evalAll q.filters (Req.mk' 29 []) = .allow := by
      have hp := C23_profile_enforced c ce p q hs
      cases hname : c.seccompRuleName with
      | none => rw [hname] at hp; rw [hp.1, hf]; rfl
      | some name =>
        rw [hname] at hp h1 h2
        rcases hp.2 with ⟨h, _⟩ | ⟨h, _⟩ | ⟨_, h⟩ | ⟨_, h⟩ | ⟨_, h⟩
        · exact absurd (congrArg some h) h1
        · exact absurd (congrArg some h) h2
        · rw [h, hf]; apply one; rw [general_eval _ _ rfl]; simp [generalAnswer, Req.mk']
        · rw [h, hf]; apply one; rw [golang_eval _ rfl]; simp [golangAnswer, Req.mk']
        · rw [h, hf]; apply one; rw [node_eval _ rfl]; simp [nodeAnswer, Req.mk']
    exact ⟨1, _, bequeaths_many (nr := 29) (by decide) ha 1 1 (Nat.le_refl 1), rfl, by simp⟩

/-- The sample program, under `c_cpp`, cannot. -/
example : ¬∃ most k, Bequeaths most ⟨[(stateAtExec sampleConfig (sampleChild fun _ => false) sampleProc).filters], []⟩ k ∧ k.procs = [] ∧ k.objects ≠ [] := by
  rw [C140_exact sampleConfig _ _ _ rfl sample_started]
  simp [sampleConfig]

/-- C140 is false of the code. -/
theorem C140_false : ¬C140_full := by
  intro hfull
  obtain ⟨q, hs, h⟩ := C140_witness c!"general" (.inl rfl)
  have := hfull 1 _ _ _ q _ hs (h 29 (by decide) 1 1 (by omega)) rfl
  cases this

end Judger
