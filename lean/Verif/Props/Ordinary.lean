import Verif.Props.Names
import Verif.Spec.Ordinary

/-! # C128: a rule set does not stop an ordinary program -/

set_option autoImplicit false

namespace Judger

open Judger.Spec

/-- C128, the full claim: under every rule set every system call of an ordinary program gets through. -/
def C128_full : Prop :=
  ∀ (c : Config) (e : ChildEnv) (p q : Proc) (d : Deed) (r : Req), p.filters = [] → Started c e p q → d.Makes r → evalAll q.filters r = .allow

/-- C128, a part that holds: all of it under `general`, `golang` and `node`, and without a rule set.  Missing: `c_cpp` and `c_cpp_file_io`. -/
theorem C128_others_partial (c : Config) (e : ChildEnv) (p q : Proc) (d : Deed) (r : Req) (hp : p.filters = []) (hs : Started c e p q)
    (hn : c.seccompRuleName ≠ some c!"c_cpp" ∧ c.seccompRuleName ≠ some c!"c_cpp_file_io") (hd : d.Makes r) : evalAll q.filters r = .allow := by
  obtain ⟨hr, hd⟩ := hd
  have hnr : r.nr ∉ [2, 41, 56, 57, 58, 59, 62, 322] ∧ (r.nr = 257 → r.args 2 = 0x80000) := by
    rcases hd with hd | ⟨_, h1, h2⟩
    · cases d <;> simp only [Deed.calls] at hd <;> (try split at hd) <;> simp only [List.mem_cons, List.not_mem_nil, or_false] at hd ⊢ <;> omega
    · rw [h1, h2]; decide
  simp only [List.mem_cons, List.not_mem_nil, or_false, not_or] at hnr
  obtain ⟨⟨n2, n41, n56, n57, n58, n59, n62, n322⟩, hop⟩ := hnr
  have hro : r.nr = 257 → readOnly (r.args 2) = true := fun h => by rw [hop h]; decide
  have hf := C23_profile_enforced c e p q hs
  split at hf
  · rw [hf.1, hp]; rfl
  · rename_i name hname
    rw [hname] at hn
    rcases hf.2 with ⟨h1, _⟩ | ⟨h1, _⟩ | ⟨_, h2⟩ | ⟨_, h2⟩ | ⟨_, h2⟩
    · exact absurd (by rw [h1]) hn.1
    · exact absurd (by rw [h1]) hn.2
    · rw [h2, hp, evalAll_one, general_eval _ _ hr]
      simp only [generalAnswer, n2, n41, n56, n57, n58, n59, n62, n322, and_false, or_self, if_false]
      split
      · rw [if_pos (hro ‹_›)]
      · rfl
    · rw [h2, hp, evalAll_one, golang_eval _ hr]
      simp only [golangAnswer, n2, n41, n57, n58, n62, n322, and_false, or_self, if_false]
      split
      · rw [if_pos (hro ‹_›)]
      · rfl
    · rw [h2, hp, evalAll_one, node_eval _ hr]
      simp only [nodeAnswer, n41, n57, n58, n62, n322, and_false, or_self, if_false]

/-- C128, what holds under `c_cpp` and `c_cpp_file_io`: exactly the programs that never enlarge a large block, never sort more than 1024 bytes, and do not
use a stream that is a character device get all their calls through.  Missing: the others. -/
theorem C128_c_cpp_partial (c : Config) (e : ChildEnv) (p q : Proc) (d : Deed) (hp : p.filters = []) (hs : Started c e p q)
    (hn : c.seccompRuleName = some c!"c_cpp" ∨ c.seccompRuleName = some c!"c_cpp_file_io") :
    (∀ r, d.Makes r → evalAll q.filters r = .allow) ↔ d.stopped = false := by
  have hf : ∀ r : Req, r.native = true → evalAll q.filters r = cCppAnswer e.exeAddr r ∨ evalAll q.filters r = cCppFileIoAnswer e.exeAddr r := by
    intro r hr
    have hf := C23_profile_enforced c e p q hs
    rcases hn with hn | hn <;> rw [hn] at hf <;> rcases hf.2 with ⟨h1, h2⟩ | ⟨h1, h2⟩ | ⟨h1, h2⟩ | ⟨h1, h2⟩ | ⟨h1, h2⟩ <;>
      first
      | exact absurd h1 (by decide)
      | (rw [h2, hp, evalAll_one, cCpp_eval _ hr]; exact .inl rfl)
      | (rw [h2, hp, evalAll_one, cCppFileIo_eval _ hr]; exact .inr rfl)
  constructor
  · intro h
    have key : ∀ nr ∈ d.calls, nr ∉ [25, 99, 16] := by
      intro nr hnr hm
      have h1 := h ⟨true, nr, fun _ => 0⟩ ⟨rfl, .inl hnr⟩
      simp only [List.mem_cons, List.not_mem_nil, or_false] at hm
      rcases hf ⟨true, nr, fun _ => 0⟩ rfl with h2 | h2 <;> rw [h2] at h1 <;> rcases hm with rfl | rfl | rfl <;>
        simp [cCppFileIoAnswer, cCppAnswer] at h1
    cases d with
    | enlarge => exact absurd (key 25 (by decide)) (by decide)
    | sort => exact absurd (key 99 (by decide)) (by decide)
    | prepare device =>
      cases device
      · rfl
      · exact absurd (key 16 (by decide)) (by decide)
    | _ => rfl
  · intro hd r ⟨hr, hm⟩
    have h1 : r.nr ∈ [0, 1, 3, 5, 8, 9, 10, 11, 12, 17, 19, 20, 21, 89, 158, 202, 218, 228, 231, 262, 269, 273, 302, 318, 334] ∨
        (r.nr = 257 ∧ r.args 2 = 0x80000) := by
      rcases hm with hm | ⟨_, h1, h2⟩
      · left
        cases d with
        | enlarge => cases hd
        | sort => cases hd
        | prepare device =>
          cases device
          · simp only [Deed.calls, List.mem_cons, List.not_mem_nil, or_false] at hm ⊢; simp at hm; omega
          · cases hd
        | _ => simp only [Deed.calls, List.mem_cons, List.not_mem_nil, or_false] at hm ⊢; omega
      · exact .inr ⟨h1, h2⟩
    have h2 : cCppAnswer e.exeAddr r = .allow := by
      unfold cCppAnswer
      rcases h1 with h1 | ⟨h1, h2⟩
      · rw [if_pos h1]
      · rw [h1, h2]; simp; decide
    rcases hf r hr with h3 | h3
    · rw [h3, h2]
    · rw [h3, cCppFileIoAnswer, h2]; split <;> rfl

example : Started sampleConfig (sampleChild fun _ => false) sampleProc (stateAtExec sampleConfig (sampleChild fun _ => false) sampleProc) ∧
    sampleProc.filters = [] ∧ sampleConfig.seccompRuleName = some c!"c_cpp" ∧ Deed.load.Makes (Req.mk' 257 [0, 0x1000, 0x80000]) ∧
    Deed.output.stopped = false ∧ Deed.sort.stopped = true :=
  ⟨sample_started, rfl, rfl, ⟨rfl, .inr ⟨rfl, rfl, rfl⟩⟩, rfl, rfl⟩

example : ∃ q, Started { sampleConfig with seccompRuleName := some c!"general" } (sampleChild fun _ => false) sampleProc q ∧
    Deed.sort.Makes (Req.mk' 99 [0x1000]) := by
  obtain ⟨q, hs, _⟩ := log_start (some c!"general") (fun n h => by cases h; decide)
  exact ⟨q, hs, rfl, .inl (by decide)⟩

/-- Under `c_cpp` a program is killed when a `vector` of C, a large block that is enlarged with `realloc`, needs mremap (25); when it sorts some hundred
numbers with `qsort`, which calls sysinfo (99); and when the standard output is /dev/null, and `printf` asks it whether it is a terminal with
ioctl (16) and TCGETS (0x5401). -/
theorem C128_witness : ∃ q, Started sampleConfig (sampleChild fun _ => false) sampleProc q ∧
    (Deed.enlarge.Makes (Req.mk' 25 [0x1000, 0x40000, 0x80000, 1]) ∧ evalAll q.filters (Req.mk' 25 [0x1000, 0x40000, 0x80000, 1]) = .kill) ∧
    (Deed.sort.Makes (Req.mk' 99 [0x1000]) ∧ evalAll q.filters (Req.mk' 99 [0x1000]) = .kill) ∧
    ((Deed.prepare true).Makes (Req.mk' 16 [1, 0x5401, 0x1000]) ∧ evalAll q.filters (Req.mk' 16 [1, 0x5401, 0x1000]) = .kill) :=
  ⟨_, sample_started, ⟨⟨rfl, .inl (by decide)⟩, by decide⟩, ⟨⟨rfl, .inl (by decide)⟩, by decide⟩, ⟨⟨rfl, .inl (by decide)⟩, by decide⟩⟩

/-- C128 is false of the code. -/
theorem C128_false : ¬C128_full := by
  intro h
  obtain ⟨q, hs, ⟨h1, h2⟩, _⟩ := C128_witness
  have := h _ _ _ _ _ _ rfl hs h1
  rw [h2] at this
  cases this

end Judger
