import Verif.Props.Ledger
import Verif.Props.Touch
import Verif.Props.Disc
import Verif.Spec.Names

/-! # C122: a judged program cannot redirect the files of other judgings -/

set_option autoImplicit false

namespace Judger

open Judger.Spec

/-- C122, the full claim: whatever the program and its descendants do, wherever their user may write, a name leads at most to the file it led to before the
program was started, or to one that did not exist then. -/
def C122_full : Prop :=
  ∀ (c : Config) (ce : ChildEnv) (p q : Proc) (may : CStr → Prop) (d : Names) (n : Nat) (u : Tree), Started c ce p q →
    Renames may ⟨d, n, [q.filters]⟩ u → ∀ path i, Denotes u.names path i → i < n → Denotes d path i

theorem denotes_put {d : Names} {n : CStr} {j : Nat} {m : CStr} {i : Nat} (h : Denotes (d.put n (some (.file j))) m i) :
    Denotes d m i ∨ i = j := by
  induction h with
  | file m i h =>
    unfold Names.put at h
    split at h
    · cases h; exact .inr rfl
    · exact .inl (.file m i h)
  | link m t i h _ ih =>
    unfold Names.put at h
    split at h
    · cases h
    · exact ih.imp (.link m t i h) id

theorem denotes_keep {d : Names} {n : CStr} {j : Nat} (hd : d n = none) {m : CStr} {i : Nat} (h : Denotes d m i) :
    Denotes (d.put n (some (.file j))) m i := by
  have hne : ∀ {m : CStr} {e : Entry}, d m = some e → d.put n (some (.file j)) m = some e := fun {m e} hm => by
    unfold Names.put
    rw [if_neg (fun h => by rw [h, hd] at hm; cases hm)]
    exact hm
  induction h with
  | file m i h => exact .file m i (hne h)
  | link m t i h _ ih => exact .link m t i (hne h) ih

/-- Under the C/C++ rule sets files are created, and nothing else happens to names. -/
theorem cpp_renames {may : CStr → Prop} {exe : BitVec 64} {fs : List Filter} {d : Names} {n : Nat} {u : Tree} (hu : CppAmong exe fs)
    (h : Renames may ⟨d, n, [fs]⟩ u) :
    (∀ path i, Denotes u.names path i → Denotes d path i ∨ n ≤ i) ∧ (∀ path i, Denotes d path i → Denotes u.names path i) ∧ n ≤ u.files ∧
      ∀ gs ∈ u.procs, CppAmong exe gs := by
  induction h with
  | start => exact ⟨fun _ _ h => .inl h, fun _ _ h => h, Nat.le_refl _, fun gs hg => by rw [List.mem_singleton.1 hg]; exact hu⟩
  | creates _ gs hg r hn ha m hm hd ih =>
    refine ⟨fun path i h => ?_, fun path i h => denotes_keep hd (ih.2.1 path i h), Nat.le_succ_of_le ih.2.2.1, ih.2.2.2⟩
    rcases denotes_put h with h | h
    · exact ih.1 path i h
    · have := ih.2.2.1
      exact .inr (by omega)
  | links _ gs hg r hn ha m t hm hd ih =>
    obtain ⟨h1, h2⟩ := cppAmong_allow (ih.2.2.2 gs hg) ha
    have h3 := hn.resolve_left (by simp [h1])
    have := cCppFileIoAnswer_allow h2
    simp only [List.mem_cons, List.not_mem_nil, or_false] at this
    omega
  | other _ gs hg r hn ha m e hm ih =>
    obtain ⟨h1, h2⟩ := cppAmong_allow (ih.2.2.2 gs hg) ha
    have h3 := hn.resolve_left (by simp [h1])
    have := cCppFileIoAnswer_allow h2
    exfalso
    apply h3
    simp only [leavesNames, List.cons_append, List.nil_append, List.mem_cons, List.not_mem_nil, or_false] at this ⊢
    omega
  | installs _ a b gs f hf ih =>
    refine ⟨ih.1, ih.2.1, ih.2.2.1, fun x hx => ?_⟩
    rcases List.mem_append.1 hx with hx | hx
    · exact ih.2.2.2 x (by rw [hf]; exact List.mem_append_left _ hx)
    · rcases List.mem_cons.1 hx with rfl | hx
      · exact (ih.2.2.2 gs (by rw [hf]; simp)).imp (List.mem_cons_of_mem _) (List.mem_cons_of_mem _)
      · exact ih.2.2.2 x (by rw [hf]; exact List.mem_append_right _ (List.mem_cons_of_mem _ hx))
  | forks _ gs hg ih =>
    refine ⟨ih.1, ih.2.1, ih.2.2.1, fun x hx => ?_⟩
    rcases List.mem_append.1 hx with hx | hx
    · exact ih.2.2.2 x hx
    · rw [List.mem_singleton.1 hx]; exact ih.2.2.2 gs hg
  | ends _ a b gs hf ih =>
    refine ⟨ih.1, ih.2.1, ih.2.2.1, fun x hx => ih.2.2.2 x ?_⟩
    rw [hf]
    rcases List.mem_append.1 hx with hx | hx
    · exact List.mem_append_left _ hx
    · exact List.mem_append_right _ (List.mem_cons_of_mem _ hx)

theorem started_cpp {c : Config} {ce : ChildEnv} {p q : Proc} (hs : Started c ce p q)
    (hn : c.seccompRuleName = some c!"c_cpp" ∨ c.seccompRuleName = some c!"c_cpp_file_io") : CppAmong ce.exeAddr q.filters := by
  have hp := C23_profile_enforced c ce p q hs
  rcases hn with hn | hn <;> rw [hn] at hp <;>
    rcases hp.2 with ⟨h1, h2⟩ | ⟨h1, h2⟩ | ⟨h1, h2⟩ | ⟨h1, h2⟩ | ⟨h1, h2⟩ <;>
    first
    | exact absurd h1 (by decide)
    | (rw [h2]; exact .inl List.mem_cons_self)
    | (rw [h2]; exact .inr List.mem_cons_self)

/-- C122, the part that holds: under `c_cpp` and `c_cpp_file_io`; there also, what a name led to it still leads to.  Missing: the other rule sets and none
(`C122_witness`). -/
theorem C122_c_cpp_partial (c : Config) (ce : ChildEnv) (p q : Proc) (may : CStr → Prop) (d : Names) (n : Nat) (u : Tree)
    (hn : c.seccompRuleName = some c!"c_cpp" ∨ c.seccompRuleName = some c!"c_cpp_file_io") (hs : Started c ce p q)
    (h : Renames may ⟨d, n, [q.filters]⟩ u) :
    (∀ path i, Denotes u.names path i → i < n → Denotes d path i) ∧ (∀ path i, Denotes d path i → Denotes u.names path i) := by
  obtain ⟨h1, h2, _⟩ := cpp_renames (started_cpp hs hn) h
  exact ⟨fun path i hd hi => (h1 path i hd).resolve_right (by omega), h2⟩

/-- What this means for another judging, which opens its files as root and empties them: any file that existed before the program was started and is now
opened for writing is one that the request named, under the name it had. -/
theorem C122_overwrites_partial (c : Config) (ce : ChildEnv) (p q : Proc) (may : CStr → Prop) (d : Names) (n : Nat) (u : Tree)
    (hn : c.seccompRuleName = some c!"c_cpp" ∨ c.seccompRuleName = some c!"c_cpp_file_io") (hs : Started c ce p q)
    (h : Renames may ⟨d, n, [q.filters]⟩ u) (c' : Config) (e' : ChildEnv) (p' q' : Proc) (s : Stop) (hj : childProcess c' e' p' = .stop s q') :
    ∀ f ∈ q'.ofds.drop p'.ofds.length, f.writable = true ∨ f.truncated = true → ∀ i, Denotes u.names f.path i → i < n →
      ∃ path, (c'.outputPath = some path ∨ c'.errorPath = some path) ∧ Denotes d path i := by
  intro f hf hw i hd hi
  exact ⟨f.path, C120_writes c' e' p' s q' hj f hf hw, (C122_c_cpp_partial c ce p q may d n u hn hs h).1 _ _ hd hi⟩

/-- Three files and a directory in which the program may write; the output of the next judging does not exist yet. -/
def sampleNames : Names := fun n =>
  if n = c!"/etc/passwd" then some (.file 0) else if n = c!"/out" then some (.file 1) else if n = c!"/current" then some (.link c!"/out") else none

theorem sample_denotes : Denotes sampleNames c!"/current" 1 := .link _ c!"/out" _ (by decide) (.file _ _ (by decide))

theorem sample_undenoted {i : Nat} : ¬Denotes sampleNames c!"/next" i := by
  have h0 : sampleNames c!"/next" = none := by decide
  intro h
  cases h with
  | file _ _ h => rw [h0] at h; cases h
  | link _ _ _ h _ => rw [h0] at h; cases h

/-- The sample program creates a file under the name of the next output: this changes nothing for files that were there. -/
example : ∃ u, Renames (· = c!"/next") ⟨sampleNames, 2, [(stateAtExec sampleConfig (sampleChild fun _ => false) sampleProc).filters]⟩ u ∧
    Denotes u.names c!"/next" 2 ∧ Denotes u.names c!"/current" 1 := by
  have hs := sample_started
  have hf : evalAll (stateAtExec sampleConfig (sampleChild fun _ => false) sampleProc).filters (Req.mk' 257 [0, 0x1000, 64, 0]) = .allow := by decide +kernel
  have hr := Renames.creates (may := (· = c!"/next")) (.start ⟨sampleNames, 2, [(stateAtExec sampleConfig (sampleChild fun _ => false) sampleProc).filters]⟩) _
    (List.mem_singleton.2 rfl) (Req.mk' 257 [0, 0x1000, 64, 0]) (.inr rfl) hf c!"/next" rfl (by decide)
  exact ⟨_, hr, .file _ _ rfl, (C122_c_cpp_partial _ _ _ _ _ _ _ _ (.inl rfl) hs hr).2 _ _ sample_denotes⟩

/-- The judging after it is told to write to `/current`, a link to `/out`, and does. -/
example : ∃ s q', childProcess { sampleConfig with outputPath := some c!"/current" } (sampleChild fun _ => false) sampleProc = .stop s q' ∧
    ∃ f ∈ q'.ofds.drop sampleProc.ofds.length, f.writable = true ∧ Denotes sampleNames f.path 1 := by
  refine ⟨_, _, rfl, ⟨c!"/current", false, true, true⟩, ?_, rfl, sample_denotes⟩
  decide +kernel

/-- Under `general`, `golang`, `node`, and without a rule set: a symbolic link under the name of the next output leads to a file of the system, which the
next judging empties and fills with the output of its program. -/
theorem C122_witness (name : Option CStr) (hn : ∀ n, name = some n → n ∈ [c!"general", c!"golang", c!"node"]) :
    ∃ q u, Started { sampleConfig with seccompRuleName := name } (sampleChild fun _ => false) sampleProc q ∧
      Renames (· = c!"/next") ⟨sampleNames, 2, [q.filters]⟩ u ∧ Denotes u.names c!"/next" 0 ∧ ¬Denotes sampleNames c!"/next" 0 := by
  obtain ⟨q, hs, _⟩ := log_start name (fun n h => by
    have := hn n h
    simp only [List.mem_cons, List.not_mem_nil, or_false] at this
    rcases this with rfl | rfl | rfl <;> simp [profileNames])
  have hf := C23_profile_enforced _ _ _ _ hs
  have ha : evalAll q.filters (Req.mk' 88 [0x1000, 0x2000]) = .allow := by
    cases name with
    | none =>
      have h1 := hf.1
      rw [h1]
      decide
    | some n =>
      have := hn n rfl
      simp only [List.mem_cons, List.not_mem_nil, or_false] at this
      rcases this with rfl | rfl | rfl <;>
        rcases hf.2 with ⟨h1, h2⟩ | ⟨h1, h2⟩ | ⟨h1, h2⟩ | ⟨h1, h2⟩ | ⟨h1, h2⟩ <;>
        first
        | exact absurd h1 (by decide)
        | (rw [h2]; decide)
  have hr := Renames.links (may := (· = c!"/next")) (.start ⟨sampleNames, 2, [q.filters]⟩) _ (List.mem_singleton.2 rfl) (Req.mk' 88 [0x1000, 0x2000])
    (.inr (.inl rfl)) ha c!"/next" c!"/etc/passwd" rfl (show sampleNames c!"/next" = none by decide)
  exact ⟨q, _, hs, hr, .link _ c!"/etc/passwd" _ rfl (.file _ _ rfl), sample_undenoted⟩

/-- C122 is false of the code. -/
theorem C122_false : ¬C122_full := by
  intro h
  obtain ⟨q, u, hs, hr, h1, h2⟩ := C122_witness (some c!"general") (fun n hn => by cases hn; simp)
  exact h2 (h _ _ _ _ _ _ _ u hs hr _ _ h1 (by decide))

end Judger
