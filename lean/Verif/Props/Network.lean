import Verif.Props.Seccomp
import Verif.Spec.Network

/-! # C111: a judged program under a rule set has no network -/

set_option autoImplicit false

namespace Judger

open Judger.Spec

/-- C111, the full claim: under any rule set, whatever the program and its descendants do, none of them gets a network socket. -/
def C111_full : Prop :=
  ∀ (rings lenders : Prop) (c : Config) (ce : ChildEnv) (p q : Proc) (G : List Caller), c.seccompRuleName ≠ none → Started c ce p q →
    Nets rings lenders [⟨false, false, q.filters⟩] G → ∀ x ∈ G, x.socket = false

/-- What a filter forbids stays forbidden to everybody of the program. -/
theorem nets_without {rings lenders : Prop} {fs : List Filter} {f : Filter} {G : List Caller} (hf : f ∈ fs)
    (h41 : ∀ r : Req, r.native = true → r.nr = 41 → f.eval r ≠ .allow)
    (hring : ¬rings ∨ ∀ r : Req, r.native = true → r.nr = 425 → f.eval r ≠ .allow)
    (hlend : ¬lenders ∨ ∀ r : Req, r.native = true → r.nr = 438 → f.eval r ≠ .allow)
    (h : Nets rings lenders [⟨false, false, fs⟩] G) : ∀ x ∈ G, x.socket = false ∧ x.ring = false ∧ f ∈ x.filters := by
  have pass : ∀ {x : Caller} {nr : Nat} {r : Req}, f ∈ x.filters → (∀ r : Req, r.native = true → r.nr = nr → f.eval r ≠ .allow) → ¬Passes x nr r := by
    rintro x nr r hx hno ⟨hn, ha⟩
    have hnat := allowed_native ha hx
    refine hno r hnat (hn.resolve_left (by rw [hnat]; simp)) (evalAll_allow ha _ hx)
  have repl : ∀ {a b : List Caller} {x y : Caller}, (∀ z ∈ a ++ x :: b, z.socket = false ∧ z.ring = false ∧ f ∈ z.filters) →
      (y.socket = false ∧ y.ring = false ∧ f ∈ y.filters) → ∀ z ∈ a ++ y :: b, z.socket = false ∧ z.ring = false ∧ f ∈ z.filters := by
    intro a b x y h hy z hz
    rcases List.mem_append.1 hz with hz | hz
    · exact h z (List.mem_append_left _ hz)
    · rcases List.mem_cons.1 hz with rfl | hz
      · exact hy
      · exact h z (List.mem_append_right _ (List.mem_cons_of_mem _ hz))
  have mid : ∀ {a b : List Caller} {x : Caller}, x ∈ a ++ x :: b := List.mem_append_right _ List.mem_cons_self
  induction h with
  | start =>
    intro x hx
    rw [List.mem_singleton.1 hx]
    exact ⟨rfl, rfl, hf⟩
  | socket a b x r _ hp ih => exact absurd hp (pass (ih x mid).2.2 h41)
  | ring a b x r _ hr hp ih => exact absurd hp (pass (ih x mid).2.2 (hring.resolve_left fun hn => hn hr))
  | enters a b x r _ hx _ ih => rw [(ih x mid).2.1] at hx; cases hx
  | copies a b x r _ hl hp ih => exact absurd hp (pass (ih x mid).2.2 (hlend.resolve_left fun hn => hn hl))
  | given a b x y _ hy ih =>
    refine repl ih ⟨?_, ?_, (ih x mid).2.2⟩
    · simp [(ih x mid).1, (ih y hy).1]
    · simp [(ih x mid).2.1, (ih y hy).2.1]
  | installs a b x g _ ih => exact repl ih ⟨(ih x mid).1, (ih x mid).2.1, List.mem_cons_of_mem _ (ih x mid).2.2⟩
  | forks _ x hx ih =>
    intro z hz
    rcases List.mem_append.1 hz with hz | hz
    · exact ih z hz
    · rw [List.mem_singleton.1 hz]; exact ih x hx
  | ends a b x _ ih =>
    intro z hz
    rcases List.mem_append.1 hz with hz | hz
    · exact ih z (List.mem_append_left _ hz)
    · exact ih z (List.mem_append_right _ (List.mem_cons_of_mem _ hz))

/-- C111, the part that holds: `c_cpp` and `c_cpp_file_io`; and under `general`, `golang` and `node` where the kernel has no rings that open sockets
and there is no process whose descriptors the program may copy.  Missing: those two ways (`C111_false`). -/
theorem C111_no_socket_partial (rings lenders : Prop) (c : Config) (ce : ChildEnv) (p q : Proc) (G : List Caller)
    (hn : c.seccompRuleName = some c!"c_cpp" ∨ c.seccompRuleName = some c!"c_cpp_file_io" ∨ (c.seccompRuleName ≠ none ∧ ¬rings ∧ ¬lenders))
    (hs : Started c ce p q) (h : Nets rings lenders [⟨false, false, q.filters⟩] G) : ∀ x ∈ G, x.socket = false := by
  have hprof := C23_profile_enforced c ce p q hs
  have hcpp : ∀ exe, cCppFilter exe ∈ q.filters → ∀ x ∈ G, x.socket = false := fun exe hf x hx =>
    (nets_without hf (fun r hr h => by rw [cCpp_eval _ hr]; simp [cCppAnswer, h])
      (.inr fun r hr h => by rw [cCpp_eval _ hr]; simp [cCppAnswer, h]) (.inr fun r hr h => by rw [cCpp_eval _ hr]; simp [cCppAnswer, h]) h x hx).1
  have hio : ∀ exe, cCppFileIoFilter exe ∈ q.filters → ∀ x ∈ G, x.socket = false := fun exe hf x hx =>
    (nets_without hf (fun r hr h => by rw [cCppFileIo_eval _ hr]; simp [cCppFileIoAnswer, cCppAnswer, h])
      (.inr fun r hr h => by rw [cCppFileIo_eval _ hr]; simp [cCppFileIoAnswer, cCppAnswer, h])
      (.inr fun r hr h => by rw [cCppFileIo_eval _ hr]; simp [cCppFileIoAnswer, cCppAnswer, h]) h x hx).1
  rcases hn with hn | hn | ⟨hn, hr, hl⟩
  · rw [hn] at hprof
    rcases hprof.2 with ⟨h1, h2⟩ | ⟨h1, h2⟩ | ⟨h1, h2⟩ | ⟨h1, h2⟩ | ⟨h1, h2⟩ <;>
      first
      | exact absurd h1 (by decide)
      | exact hcpp ce.exeAddr (by rw [h2]; simp)
  · rw [hn] at hprof
    rcases hprof.2 with ⟨h1, h2⟩ | ⟨h1, h2⟩ | ⟨h1, h2⟩ | ⟨h1, h2⟩ | ⟨h1, h2⟩ <;>
      first
      | exact absurd h1 (by decide)
      | exact hio ce.exeAddr (by rw [h2]; simp)
  · cases hname : c.seccompRuleName with
    | none => exact absurd hname hn
    | some name =>
      rw [hname] at hprof
      rcases hprof.2 with ⟨h1, h2⟩ | ⟨h1, h2⟩ | ⟨h1, h2⟩ | ⟨h1, h2⟩ | ⟨h1, h2⟩
      · exact hcpp ce.exeAddr (by rw [h2]; simp)
      · exact hio ce.exeAddr (by rw [h2]; simp)
      · intro x hx
        exact (nets_without (by rw [h2]; exact List.mem_cons_self) (fun r hr h => by rw [general_eval _ _ hr]; simp [generalAnswer, h])
          (.inl hr) (.inl hl) h x hx).1
      · intro x hx
        exact (nets_without (by rw [h2]; exact List.mem_cons_self) (fun r hr h => by rw [golang_eval _ hr]; simp [golangAnswer, h])
          (.inl hr) (.inl hl) h x hx).1
      · intro x hx
        exact (nets_without (by rw [h2]; exact List.mem_cons_self) (fun r hr h => by rw [node_eval _ hr]; simp [nodeAnswer, h])
          (.inl hr) (.inl hl) h x hx).1

/-- The sample program under `c_cpp`, on a kernel with rings. -/
example (G : List Caller)
    (h : Nets True True [⟨false, false, (stateAtExec sampleConfig (sampleChild fun _ => false) sampleProc).filters⟩] G) :
    ∀ x ∈ G, x.socket = false :=
  C111_no_socket_partial True True sampleConfig _ _ _ G (.inl rfl) sample_started h

theorem blacklisted_start (name : CStr) (hn : name = c!"general" ∨ name = c!"golang" ∨ name = c!"node") :
    ∃ q, Started { sampleConfig with seccompRuleName := some name } (sampleChild fun _ => false) sampleProc q ∧
      ∀ nr, nr = 425 ∨ nr = 426 ∨ nr = 438 → evalAll q.filters (Req.mk' nr []) = .allow := by
  have hc : ConfigOk { sampleConfig with seccompRuleName := some name } := sampleConfig_ok
  obtain ⟨q, hq⟩ := C17_starts { sampleConfig with seccompRuleName := some name } (sampleChild fun _ => false) sampleProc hc
    (by simp [sampleConfig]) rfl rfl (by rcases hn with rfl | rfl | rfl <;> simp [profileNames]) (fun _ _ => rfl)
  have hs : Started { sampleConfig with seccompRuleName := some name } (sampleChild fun _ => false) sampleProc q := ⟨_, _, _, hq⟩
  have hf := C23_profile_enforced _ _ _ _ hs
  refine ⟨q, hs, ?_⟩
  intro nr hnr
  rcases hn with rfl | rfl | rfl <;>
    rcases hf.2 with ⟨h1, h2⟩ | ⟨h1, h2⟩ | ⟨h1, h2⟩ | ⟨h1, h2⟩ | ⟨h1, h2⟩ <;>
    first
    | exact absurd h1 (by decide)
    | (rw [h2]; rcases hnr with rfl | rfl | rfl <;> decide)

/-- Under `general`, `golang` and `node` a program opens a socket through a ring, where the kernel has them. -/
theorem C111_witness_ring (name : CStr) (hn : name = c!"general" ∨ name = c!"golang" ∨ name = c!"node") :
    ∃ q, Started { sampleConfig with seccompRuleName := some name } (sampleChild fun _ => false) sampleProc q ∧
      ∃ G, Nets True False [⟨false, false, q.filters⟩] G ∧ ∃ x ∈ G, x.socket = true := by
  obtain ⟨q, hs, ha⟩ := blacklisted_start name hn
  have h1 := Nets.start (rings := True) (lenders := False) [⟨false, false, q.filters⟩]
  have h2 := Nets.ring [] [] _ (Req.mk' 425 []) h1 trivial ⟨.inr rfl, ha 425 (by simp)⟩
  have h3 := Nets.enters [] [] _ (Req.mk' 426 []) h2 rfl ⟨.inr rfl, ha 426 (by simp)⟩
  exact ⟨q, hs, _, h3, _, List.mem_singleton.2 rfl, rfl⟩

/-- Or copies that of another process of its user, as of another judging without a rule set. -/
theorem C111_witness_copy (name : CStr) (hn : name = c!"general" ∨ name = c!"golang" ∨ name = c!"node") :
    ∃ q, Started { sampleConfig with seccompRuleName := some name } (sampleChild fun _ => false) sampleProc q ∧
      ∃ G, Nets False True [⟨false, false, q.filters⟩] G ∧ ∃ x ∈ G, x.socket = true := by
  obtain ⟨q, hs, ha⟩ := blacklisted_start name hn
  have h1 := Nets.start (rings := False) (lenders := True) [⟨false, false, q.filters⟩]
  have h2 := Nets.copies [] [] _ (Req.mk' 438 []) h1 trivial ⟨.inr rfl, ha 438 (by simp)⟩
  exact ⟨q, hs, _, h2, _, List.mem_singleton.2 rfl, rfl⟩

/-- C111, settled for every rule set (callers under no filter of their own): a program can come to a socket exactly if it runs under `general`, `golang` or `node` and
the kernel has rings that open sockets or there is a process whose descriptors it may copy. -/
theorem C111_exact (rings lenders : Prop) (c : Config) (ce : ChildEnv) (p q : Proc) (hf : p.filters = []) (hs : Started c ce p q) (hn : c.seccompRuleName ≠ none) :
    (∃ G, Nets rings lenders [⟨false, false, q.filters⟩] G ∧ ∃ x ∈ G, x.socket = true) ↔
      (c.seccompRuleName ≠ some c!"c_cpp" ∧ c.seccompRuleName ≠ some c!"c_cpp_file_io") ∧ (rings ∨ lenders) := by
  constructor
  · rintro ⟨G, hG, x, hx, hsock⟩
    have no : ∀ h, False := fun (h : c.seccompRuleName = some c!"c_cpp" ∨ c.seccompRuleName = some c!"c_cpp_file_io" ∨ (c.seccompRuleName ≠ none ∧ ¬rings ∧ ¬lenders)) => by
      have := C111_no_socket_partial rings lenders c ce p q G h hs hG x hx
      rw [hsock] at this
      cases this
    refine ⟨⟨fun h => no (.inl h), fun h => no (.inr (.inl h))⟩, Classical.byContradiction fun h => no (.inr (.inr ⟨hn, fun hr => h (.inl hr), fun hl => h (.inr hl)⟩))⟩
  · rintro ⟨⟨h1, h2⟩, hrl⟩
    have ha : ∀ nr, nr = 425 ∨ nr = 426 ∨ nr = 438 → evalAll q.filters (Req.mk' nr []) = .allow := by
      intro nr hnr
      have one : ∀ f : Filter, f.eval (Req.mk' nr []) = .allow → evalAll [f] (Req.mk' nr []) = .allow := by
        intro f h
        show Action.min (f.eval _) .allow = .allow
        rw [h]
        rfl
      have hp := C23_profile_enforced c ce p q hs
      cases hname : c.seccompRuleName with
      | none => exact absurd hname hn
      | some name =>
        rw [hname] at hp h1 h2
        rcases hp.2 with ⟨h, _⟩ | ⟨h, _⟩ | ⟨_, h⟩ | ⟨_, h⟩ | ⟨_, h⟩
        · exact absurd (congrArg some h) h1
        · exact absurd (congrArg some h) h2
        · rw [h, hf]; apply one; rw [general_eval _ _ rfl]; rcases hnr with rfl | rfl | rfl <;> simp [generalAnswer, Req.mk']
        · rw [h, hf]; apply one; rw [golang_eval _ rfl]; rcases hnr with rfl | rfl | rfl <;> simp [golangAnswer, Req.mk']
        · rw [h, hf]; apply one; rw [node_eval _ rfl]; rcases hnr with rfl | rfl | rfl <;> simp [nodeAnswer, Req.mk']
    have h0 := Nets.start (rings := rings) (lenders := lenders) [⟨false, false, q.filters⟩]
    rcases hrl with hr | hl
    · have h3 := Nets.ring [] [] _ (Req.mk' 425 []) h0 hr ⟨.inr rfl, ha 425 (by simp)⟩
      have h4 := Nets.enters [] [] _ (Req.mk' 426 []) h3 rfl ⟨.inr rfl, ha 426 (by simp)⟩
      exact ⟨_, h4, _, List.mem_singleton.2 rfl, rfl⟩
    · have h3 := Nets.copies [] [] _ (Req.mk' 438 []) h0 hl ⟨.inr rfl, ha 438 (by simp)⟩
      exact ⟨_, h3, _, List.mem_singleton.2 rfl, rfl⟩

/-- The sample program, under `c_cpp`, comes to none even on a kernel with rings. -/
example : ¬∃ G, Nets True True [⟨false, false, (stateAtExec sampleConfig (sampleChild fun _ => false) sampleProc).filters⟩] G ∧ ∃ x ∈ G, x.socket = true := by
  rw [C111_exact True True sampleConfig _ _ _ rfl sample_started (by simp [sampleConfig])]
  simp [sampleConfig]

/-- C111 is false of the code. -/
theorem C111_false : ¬C111_full := by
  intro hfull
  obtain ⟨q, hs, G, hG, x, hx, hsock⟩ := C111_witness_ring c!"general" (.inl rfl)
  have := hfull True False _ _ _ q G (by simp) hs hG x hx
  rw [hsock] at this
  cases this

end Judger
