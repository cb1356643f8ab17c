import Verif.Props.Seccomp
import Verif.Spec.Ledger

/-! # C113: a judged program leaves the judger's log alone -/

set_option autoImplicit false

namespace Judger

open Judger.Spec

/-- The started program has a descriptor through which it can write to the log. -/
def HoldsLog (c : Config) (q : Proc) : Prop :=
  ∃ fd i f, q.fds.get fd = some i ∧ q.ofds[i]? = some f ∧ f.path = c.logPath ∧ f.writable = true

/-- C113, the full claim: whatever the program and its descendants do, if their user may not write the log by name, then it holds what it held before,
followed by what judgers wrote. -/
def C113_full : Prop :=
  ∀ (c : Config) (ce : ChildEnv) (p q : Proc) (text : List Char) (m : Ledger), Started c ce p q →
    Writes (HoldsLog c q) False ⟨text, text, [q.filters]⟩ m → m.text = m.told

/-- C113, where the program does not have the log open, as when it could not be opened. -/
theorem C113_not_held_partial (c : Config) (q : Proc) (text : List Char) (m : Ledger) (hh : ¬HoldsLog c q)
    (h : Writes (HoldsLog c q) False ⟨text, text, [q.filters]⟩ m) : m.text = m.told := by
  induction h with
  | start => rfl
  | tells _ s ih => simp [ih]
  | adds _ hl => exact absurd hl hh
  | cuts _ hl => exact absurd hl hh
  | other _ hl => exact absurd hl hh
  | named _ hw => exact hw.elim
  | installs _ _ _ _ _ _ ih => exact ih
  | forks _ _ _ ih => exact ih
  | ends _ _ _ _ _ ih => exact ih

/-- A judger that could not open its log: the program started has none of that name. -/
example : ¬HoldsLog { sampleConfig with logPath := c!"/nowhere/judger.log" } (stateAtExec sampleConfig (sampleChild fun _ => false) sampleProc) := by
  rintro ⟨fd, i, f, _, h2, h3, _⟩
  have : ∀ f ∈ (stateAtExec sampleConfig (sampleChild fun _ => false) sampleProc).ofds, f.path ≠ c!"/nowhere/judger.log" := by decide
  exact this f (List.mem_of_getElem? h2) h3

/-- The filters of a C/C++ rule set are among these. -/
def CppAmong (exe : BitVec 64) (fs : List Filter) : Prop := cCppFilter exe ∈ fs ∨ cCppFileIoFilter exe ∈ fs

theorem cppAmong_allow {exe : BitVec 64} {fs : List Filter} {r : Req} (hu : CppAmong exe fs) (ha : evalAll fs r = .allow) :
    r.native = true ∧ cCppFileIoAnswer exe r = .allow :=
  underCCpp_allow (w := ⟨fun _ => [], fun _ => none, 0, fs, []⟩) hu ha

theorem cpp_writes {held : Prop} {exe : BitVec 64} {fs : List Filter} {text : List Char} {m : Ledger} (hu : CppAmong exe fs)
    (h : Writes held False ⟨text, text, [fs]⟩ m) : text <+: m.text ∧ m.told.Sublist m.text ∧ ∀ gs ∈ m.procs, CppAmong exe gs := by
  induction h with
  | start => exact ⟨List.prefix_refl _, List.Sublist.refl _, fun gs hg => by rw [List.mem_singleton.1 hg]; exact hu⟩
  | tells _ s ih => exact ⟨ih.1.trans (List.prefix_append ..), ih.2.1.append (List.Sublist.refl s), ih.2.2⟩
  | adds _ _ gs _ r _ _ s ih => exact ⟨ih.1.trans (List.prefix_append ..), ih.2.1.trans (List.sublist_append_left ..), ih.2.2⟩
  | cuts _ _ gs hg r hn ha n ih =>
    obtain ⟨h1, h2⟩ := cppAmong_allow (ih.2.2 gs hg) ha
    have h3 := hn.resolve_left (by simp [h1])
    have := cCppFileIoAnswer_allow h2
    simp [h3] at this
  | other _ _ gs hg r hn ha s ih =>
    obtain ⟨h1, h2⟩ := cppAmong_allow (ih.2.2 gs hg) ha
    have h3 := hn.resolve_left (by simp [h1])
    have := cCppFileIoAnswer_allow h2
    exfalso
    apply h3
    simp only [tame, List.cons_append, List.nil_append, List.mem_cons, List.not_mem_nil, or_false] at this ⊢
    omega
  | named _ hw => exact hw.elim
  | installs _ a b gs f hf ih =>
    refine ⟨ih.1, ih.2.1, fun x hx => ?_⟩
    rcases List.mem_append.1 hx with hx | hx
    · exact ih.2.2 x (by rw [hf]; exact List.mem_append_left _ hx)
    · rcases List.mem_cons.1 hx with rfl | hx
      · exact (ih.2.2 gs (by rw [hf]; simp)).imp (List.mem_cons_of_mem _) (List.mem_cons_of_mem _)
      · exact ih.2.2 x (by rw [hf]; exact List.mem_append_right _ (List.mem_cons_of_mem _ hx))
  | forks _ gs hg ih =>
    refine ⟨ih.1, ih.2.1, fun x hx => ?_⟩
    rcases List.mem_append.1 hx with hx | hx
    · exact ih.2.2 x hx
    · rw [List.mem_singleton.1 hx]; exact ih.2.2 gs hg
  | ends _ a b gs hf ih =>
    refine ⟨ih.1, ih.2.1, fun x hx => ih.2.2 x ?_⟩
    rw [hf]
    rcases List.mem_append.1 hx with hx | hx
    · exact List.mem_append_left _ hx
    · exact List.mem_append_right _ (List.mem_cons_of_mem _ hx)

/-- C113, what holds with the log open: under `c_cpp` and `c_cpp_file_io` nothing that is in the log is lost, neither what was there before nor what
judgers write meanwhile.  Missing: that the program adds nothing (`C113_witness_added`), and the other rule sets and none (`C113_witness_erased`). -/
theorem C113_kept_partial (c : Config) (ce : ChildEnv) (p q : Proc) (text : List Char) (m : Ledger)
    (hn : c.seccompRuleName = some c!"c_cpp" ∨ c.seccompRuleName = some c!"c_cpp_file_io") (hs : Started c ce p q)
    (h : Writes (HoldsLog c q) False ⟨text, text, [q.filters]⟩ m) : text <+: m.text ∧ m.told.Sublist m.text := by
  have hprof := C23_profile_enforced c ce p q hs
  have hu : CppAmong ce.exeAddr q.filters := by
    rcases hn with hn | hn <;> rw [hn] at hprof <;>
      rcases hprof.2 with ⟨h1, h2⟩ | ⟨h1, h2⟩ | ⟨h1, h2⟩ | ⟨h1, h2⟩ | ⟨h1, h2⟩ <;>
      first
      | exact absurd h1 (by decide)
      | (left; rw [h2]; exact List.mem_cons_self)
      | (right; rw [h2]; exact List.mem_cons_self)
  exact ⟨(cpp_writes hu h).1, (cpp_writes hu h).2.1⟩

/-- The sample configuration with any rule set, or none. -/
theorem log_start (name : Option CStr) (hn : ∀ n, name = some n → n ∈ profileNames) :
    ∃ q, Started { sampleConfig with seccompRuleName := name } (sampleChild fun _ => false) sampleProc q ∧
      HoldsLog { sampleConfig with seccompRuleName := name } q ∧ evalAll q.filters (Req.mk' 1 [3, 0x1000, 6]) = .allow ∧
      (name ≠ some c!"c_cpp" → name ≠ some c!"c_cpp_file_io" → evalAll q.filters (Req.mk' 77 [3, 0]) = .allow) := by
  obtain ⟨q, hq⟩ := C17_starts { sampleConfig with seccompRuleName := name } (sampleChild fun _ => false) sampleProc sampleConfig_ok
    (by simp [sampleConfig]) rfl rfl hn (fun _ _ => rfl)
  have hs : Started { sampleConfig with seccompRuleName := name } (sampleChild fun _ => false) sampleProc q := ⟨_, _, _, hq⟩
  have hf := C23_profile_enforced _ _ _ _ hs
  refine ⟨q, hs, ?_, ?_⟩
  · obtain ⟨rfl, _⟩ := started_inv hs
    refine ⟨3, 3, ⟨c!"judger.log", false, true, false⟩, ?_⟩
    cases name with
    | none => decide
    | some n =>
      have := hn n rfl
      simp only [profileNames, List.mem_cons, List.not_mem_nil, or_false] at this
      rcases this with rfl | rfl | rfl | rfl | rfl <;> decide
  · cases name with
    | none =>
      have h1 := hf.1
      rw [h1]
      exact ⟨by decide, fun _ _ => by decide⟩
    | some n =>
      rcases hf.2 with ⟨rfl, h2⟩ | ⟨rfl, h2⟩ | ⟨rfl, h2⟩ | ⟨rfl, h2⟩ | ⟨rfl, h2⟩ <;> rw [h2] <;>
        exact ⟨by decide, fun h3 h4 => by first | exact absurd rfl h3 | exact absurd rfl h4 | decide⟩

/-- Under every rule set, and without one, the program writes what it likes into the log. -/
theorem C113_witness_added (name : Option CStr) (hn : ∀ n, name = some n → n ∈ profileNames) :
    ∃ q, Started { sampleConfig with seccompRuleName := name } (sampleChild fun _ => false) sampleProc q ∧
      ∀ text s : List Char, Writes (HoldsLog { sampleConfig with seccompRuleName := name } q) False ⟨text, text, [q.filters]⟩
        ⟨text ++ s, text, [q.filters]⟩ := by
  obtain ⟨q, hs, hl, ha, _⟩ := log_start name hn
  exact ⟨q, hs, fun text s => .adds (.start _) hl q.filters (List.mem_singleton.2 rfl) _ (.inr (.inl rfl)) ha s⟩

/-- Under `general`, `golang`, `node`, and without a rule set, it erases the log. -/
theorem C113_witness_erased (name : Option CStr) (hn : ∀ n, name = some n → n ∈ [c!"general", c!"golang", c!"node"]) :
    ∃ q, Started { sampleConfig with seccompRuleName := name } (sampleChild fun _ => false) sampleProc q ∧
      ∀ text : List Char, Writes (HoldsLog { sampleConfig with seccompRuleName := name } q) False ⟨text, text, [q.filters]⟩ ⟨[], text, [q.filters]⟩ := by
  obtain ⟨q, hs, hl, _, ha⟩ := log_start name (fun n h => by
    have := hn n h
    simp only [List.mem_cons, List.not_mem_nil, or_false] at this
    rcases this with rfl | rfl | rfl <;> simp [profileNames])
  refine ⟨q, hs, fun text => ?_⟩
  have h1 : name ≠ some c!"c_cpp" := fun h => absurd (hn _ h) (by decide)
  have h2 : name ≠ some c!"c_cpp_file_io" := fun h => absurd (hn _ h) (by decide)
  have := Writes.cuts (writable := False) (.start ⟨text, text, [q.filters]⟩) hl q.filters (List.mem_singleton.2 rfl) _ (.inr rfl) (ha h1 h2) 0
  simpa using this

/-- C113 is false of the code. -/
theorem C113_false : ¬C113_full := by
  intro h
  obtain ⟨q, hs, hw⟩ := C113_witness_added (some c!"c_cpp") (fun n h => by cases h; simp [profileNames])
  have := h _ _ _ q [] _ hs (hw [] ['x'])
  cases this

/-- Under `c_cpp` the program adds a word, and the judger an entry after it. -/
example : ∃ q m, Started { sampleConfig with seccompRuleName := some c!"c_cpp" } (sampleChild fun _ => false) sampleProc q ∧
    Writes (HoldsLog { sampleConfig with seccompRuleName := some c!"c_cpp" } q) False ⟨c!"old", c!"old", [q.filters]⟩ m ∧
    m.text = c!"oldboolog" ∧ m.told = c!"oldlog" := by
  obtain ⟨q, hs, hw⟩ := C113_witness_added (some c!"c_cpp") (fun n h => by cases h; simp [profileNames])
  exact ⟨q, _, hs, .tells (hw c!"old" c!"boo") c!"log", rfl, rfl⟩

end Judger
