import Verif.Props.Tamper
import Verif.Props.Kills
import Verif.Props.Ledger
import Verif.Props.Lock
import Verif.Props.Terminal
import Verif.Props.Space
import Verif.Props.Toil

/-!
# C86, C87, C93, C109, C113, C114, C116, C117, C127 and C137 settled

Each of these is false in general and proved in part; here for every configuration exactly where it holds.  Callers under no filter of their own (`p.filters = []`),
which could only forbid more.
-/

set_option autoImplicit false

namespace Judger

open Judger.Spec

/-- One of the two C/C++ rule sets. -/
def UnderWhitelist (c : Config) : Prop := c.seccompRuleName = some c!"c_cpp" ∨ c.seccompRuleName = some c!"c_cpp_file_io"

/-- What `general`, `golang` and `node` let pass passes outside the two C/C++ rule sets. -/
theorem others_pass {c : Config} {ce : ChildEnv} {p q : Proc} (hf : p.filters = []) (hs : Started c ce p q) (hw : ¬UnderWhitelist c) (r : Req)
    (hr : r.native = true) (h3 : ∀ x b, generalAnswer x b r = .allow) (h4 : ∀ b, golangAnswer b r = .allow) (h5 : ∀ b, nodeAnswer b r = .allow) :
    evalAll q.filters r = .allow := by
  have hp := C23_profile_enforced c ce p q hs
  have one : ∀ f : Filter, f.eval r = .allow → evalAll [f] r = .allow := by
    intro f h
    show Action.min (f.eval _) .allow = .allow
    rw [h]
    rfl
  cases hname : c.seccompRuleName with
  | none => rw [hname] at hp; rw [hp.1, hf]; rfl
  | some name =>
    rw [hname] at hp
    rcases hp.2 with ⟨h, _⟩ | ⟨h, _⟩ | ⟨_, h⟩ | ⟨_, h⟩ | ⟨_, h⟩
    · exact absurd (.inl (by rw [hname, h])) hw
    · exact absurd (.inr (by rw [hname, h])) hw
    · rw [h, hf]; apply one; rw [general_eval _ _ hr]; exact h3 _ _
    · rw [h, hf]; apply one; rw [golang_eval _ hr]; exact h4 _
    · rw [h, hf]; apply one; rw [node_eval _ hr]; exact h5 _

/-- C86, settled: the program and its descendants stay confined whatever they do exactly if a rule set is given (callers without no_new_privs). -/
theorem C86_exact (c : Config) (ce : ChildEnv) (p q : Proc) (size : Nat → Nat) (h : Judging c q) (hs : Started c ce p q) (hp : p.noNewPrivs = false) :
    (∀ t, Life ⟨[q], size⟩ t → ∀ m ∈ t.procs, Confined c q m) ↔ c.seccompRuleName ≠ none := by
  constructor
  · intro hall hn
    have hprof := C23_profile_enforced c ce p q hs
    rw [hn] at hprof
    obtain ⟨m, hl, hu, _⟩ := C86_open q size (hprof.2.trans hp) .as 0
    have := (hall _ hl m (List.mem_singleton.2 rfl)).uid
    rw [this] at hu
    exact h.uid.1 hu
  · exact fun hn t hl => C86_confined_partial c q size t h hn hl

/-- Without a rule set, and where the caller had not set it, no_new_privs is not set. -/
theorem unsealed {c : Config} {ce : ChildEnv} {p q : Proc} (hs : Started c ce p q) (hp : p.noNewPrivs = false) (hn : c.seccompRuleName = none) :
    q.noNewPrivs = false := by
  have hprof := C23_profile_enforced c ce p q hs
  rw [hn] at hprof
  exact hprof.2.trans hp

/-- C87, settled: no file grows beyond `max_output_size` whatever the program does exactly if a rule set is given. -/
theorem C87_exact (c : Config) (ce : ChildEnv) (p q : Proc) (size : Nat → Nat) (h : Judging c q) (hs : Started c ce p q) (hp : p.noNewPrivs = false)
    (ho : c.maxOutputSize ≠ -1) :
    (∀ t, Life ⟨[q], size⟩ t → ∀ f, (t.size f : Int) ≤ max (size f : Int) c.maxOutputSize) ↔ c.seccompRuleName ≠ none := by
  constructor
  · intro hall hn
    obtain ⟨m, hl, _, hm⟩ := C86_open q size (unsealed hs hp hn) .fsize (max (size 0 : Int) c.maxOutputSize + 1)
    have h2 := Life.grows hl m 0 (max (size 0 : Int) c.maxOutputSize + 1).toNat (List.mem_singleton.2 rfl) (by rw [hm]; simp only; omega)
    have h3 := hall _ h2 0
    simp only [if_true] at h3
    omega
  · exact fun hn t hl => C87_output_size_partial c q size t h ho hn hl

/-- C93, settled: there are never more than `max_process_number` processes exactly if a rule set is given. -/
theorem C93_exact (c : Config) (ce : ChildEnv) (p q : Proc) (others : Int → Nat) (h : Judging c q) (hs : Started c ce p q) (hp : p.noNewPrivs = false)
    (hm : c.maxProcessNumber ≠ -1) :
    (∀ k, Breeds ⟨[q], others⟩ k → (k.procs.length : Int) ≤ c.maxProcessNumber) ↔ c.seccompRuleName ≠ none := by
  constructor
  · intro hall hn
    obtain ⟨k, hk, hl⟩ := C93_open q others (unsealed hs hp hn) c.maxProcessNumber.toNat
    have := hall k hk
    rw [hl] at this
    omega
  · exact fun hn k hk => C93_process_number_partial c q others k h hm hn hk

/-- C109, settled: with a limit on memory that is not only checked, no process of the program ever has more than twice that exactly if a rule set is given. -/
theorem C109_exact (c : Config) (ce : ChildEnv) (p q : Proc) (space : Nat) (others : Int → Nat) (h : Judging c q) (hs : Started c ce p q)
    (hp : p.noNewPrivs = false) (h0 : c.memoryLimitCheckOnly = 0) (hm : c.maxMemory ≠ -1) (hsp : (space : Int) ≤ (q.limits .as).cur) :
    (∀ k, Dwells ⟨[⟨q, space⟩], others⟩ k → ∀ x ∈ k.dwellers, (x.space : Int) ≤ 2 * c.maxMemory) ↔ c.seccompRuleName ≠ none := by
  constructor
  · intro hall hn
    have hq := unsealed hs hp hn
    have h1 := Dwells.act (.start ⟨[⟨q, space⟩], others⟩) 0 ⟨q, space⟩ _ rfl (Act.execs q ⟨some 0, none⟩)
    have h2 := Dwells.limit h1 0 _ _ .as ⟨2 * c.maxMemory + 1, 2 * c.maxMemory + 1⟩ (List.mem_singleton.2 rfl) rfl (Int.le_refl _)
      (Or.inl (by simp [Proc.privileged, Ids.exec, hq]))
    have hpos : 0 ≤ 2 * c.maxMemory + 1 := by
      rcases h.ok.2.2.1 with h' | h'
      · exact absurd h' hm
      · omega
    have h3 := Dwells.maps h2 0 _ (2 * c.maxMemory + 1).toNat rfl (.inl (by simp only [if_true]; omega))
    have h4 : (((2 * c.maxMemory + 1).toNat : Nat) : Int) ≤ 2 * c.maxMemory := hall _ h3 _ (List.mem_singleton.2 rfl)
    omega
  · exact fun hn k hk => C109_each_partial c q space others k h hsp hn h0 hm hk

/-- C117, settled: the CPU time of the program and its descendants together is bounded by the limit, a second and a tick exactly under the two C/C++ rule sets. -/
theorem C117_exact (tick : Nat) (c : Config) (ce : ChildEnv) (p q : Proc) (used : Nat) (h : Judging c q) (hs : Started c ce p q) (hf : p.filters = [])
    (hk : 1 ≤ tick) (ht : c.maxCpuTime ≠ -1) (hu : (used : Int) ≤ (c.maxCpuTime + 1000) * 1000) :
    (∀ k, Grinds tick ⟨[⟨q, used⟩], used⟩ k → (k.total : Int) ≤ (c.maxCpuTime + 1000) * 1000 + tick) ↔ UnderWhitelist c := by
  constructor
  · intro hall
    refine Classical.byContradiction fun hw => ?_
    have ha : evalAll q.filters (Req.mk' 435 [0x1000, 88]) = .allow := by
      refine others_pass hf hs hw _ rfl ?_ ?_ ?_ <;> intros <;> simp [generalAnswer, golangAnswer, nodeAnswer, Req.mk']
    have hpos : 1 ≤ c.maxCpuTime := by have := h.ok.1; simp only [LimitOk] at this; omega
    have hl := C14_limits c ce p q h.ok h.range hs .cpu
    simp only [wantedLimit, ht, if_false] at hl
    have many : ∀ n : Nat, Grinds tick ⟨[⟨q, used⟩], used⟩ ⟨[⟨q, used⟩], used + n⟩ := by
      intro n
      induction n with
      | zero => exact .start _
      | succ n ih =>
        have h1 := Grinds.forks ih ⟨q, used⟩ (Req.mk' 435 [0x1000, 88]) (List.mem_singleton.2 rfl) (by decide) ha
        have h2 := Grinds.computes h1 1 ⟨q, 0⟩ 1 rfl hk (by simp only [hl]; omega)
        exact Grinds.exits h2 1
    have := hall _ (many ((c.maxCpuTime + 1000) * 1000 + tick + 1).toNat)
    simp only at this
    omega
  · exact fun hw k hd => C117_together_partial tick c q used k h hw ht hu hd

/-- C114, settled for every rule set: the program or a descendant can come to signal a process exactly outside the two C/C++ rule sets, and if its real or saved user is
that of the request. -/
theorem C114_exact (c : Config) (ce : ChildEnv) (p q : Proc) (size : Nat → Nat) (target : Ids) (h : Judging c q) (hs : Started c ce p q) (hf : p.filters = [])
    (hn : c.seccompRuleName ≠ none) :
    (∃ t, Life ⟨[q], size⟩ t ∧ CanSignal t target) ↔ ¬UnderWhitelist c ∧ (target.r = c.uid ∨ target.s = c.uid) := by
  constructor
  · rintro ⟨t, hl, hc⟩
    refine ⟨fun hw => C114_c_cpp_partial c ce p q size t target hw hs hl hc, Classical.byContradiction fun ht => ?_⟩
    exact C114_judger_partial c q size t target h hn (fun he => ht (.inl he)) (fun he => ht (.inr he)) hl hc
  · rintro ⟨hw, ht⟩
    refine ⟨_, .start _, q, List.mem_singleton.2 rfl, Req.mk' 200 [1, 9], .inr (by simp [signalCalls, Req.mk']), ?_, ?_⟩
    · refine others_pass hf hs hw _ rfl ?_ ?_ ?_ <;> intros <;> simp [generalAnswer, golangAnswer, nodeAnswer, Req.mk']
    · have hc := judging_confined h
      unfold MaySignal
      rw [hc.uid]
      rcases ht with ht | ht
      · exact .inr (.inl ht.symm)
      · exact .inr (.inr (.inl ht.symm))

/-- C116, settled: the program can come to lock the log exactly if it has a descriptor of it and is outside the two C/C++ rule sets. -/
theorem C116_exact (reach : Prop) (c : Config) (ce : ChildEnv) (p q : Proc) (n : Nat) (hs : Started c ce p q) (hf : p.filters = []) :
    (∃ m, Locks reach ⟨n, false, [q.filters]⟩ m ∧ m.taken = true) ↔ reach ∧ ¬UnderWhitelist c := by
  constructor
  · rintro ⟨m, hm, ht⟩
    refine ⟨Classical.byContradiction fun hr => ?_, fun hw => ?_⟩
    · rw [C116_no_descriptor_partial reach q.filters n m hr hm] at ht; cases ht
    · rw [C116_c_cpp_partial reach c ce p q n m hw hs hm] at ht; cases ht
  · rintro ⟨hr, hw⟩
    refine ⟨_, .takes (.start _) hr _ (List.mem_singleton.2 rfl) (Req.mk' 73 [3, 2]) (.inr rfl) ?_, rfl⟩
    refine others_pass hf hs hw _ rfl ?_ ?_ ?_ <;> intros <;> simp [generalAnswer, golangAnswer, nodeAnswer, Req.mk']

/-- C113, settled: something can be lost from the log exactly if the program has it open and is outside the two C/C++ rule sets. -/
theorem C113_exact (c : Config) (ce : ChildEnv) (p q : Proc) (text : List Char) (hs : Started c ce p q) (hf : p.filters = []) :
    (∃ m, Writes (HoldsLog c q) False ⟨text, text, [q.filters]⟩ m ∧ ¬(text <+: m.text ∧ m.told.Sublist m.text)) ↔ HoldsLog c q ∧ ¬UnderWhitelist c := by
  constructor
  · rintro ⟨m, hm, hl⟩
    refine ⟨Classical.byContradiction fun hh => hl ?_, fun hw => hl (C113_kept_partial c ce p q text m hw hs hm)⟩
    have he := C113_not_held_partial c q text m hh hm
    refine ⟨?_, by rw [he]; exact List.Sublist.refl _⟩
    clear hl he
    induction hm with
    | start => exact List.prefix_refl _
    | tells _ s ih => exact List.IsPrefix.trans ih (List.prefix_append _ _)
    | adds _ hl => exact absurd hl hh
    | cuts _ hl => exact absurd hl hh
    | other _ hl => exact absurd hl hh
    | named _ hw => exact hw.elim
    | installs _ _ _ _ _ _ ih => exact ih
    | forks _ _ _ ih => exact ih
    | ends _ _ _ _ _ ih => exact ih
  · rintro ⟨hh, hw⟩
    refine ⟨_, .cuts (.tells (.start _) c!"x") hh _ (List.mem_singleton.2 rfl) (Req.mk' 77 [3, 0]) (.inr rfl) ?_ 0, ?_⟩
    · refine others_pass hf hs hw _ rfl ?_ ?_ ?_ <;> intros <;> simp [generalAnswer, golangAnswer, nodeAnswer, Req.mk']
    · rintro ⟨_, h⟩
      simp at h

/-- C127, settled: the program can type to the caller's terminal exactly outside the two C/C++ rule sets. -/
theorem C127_exact (c : Config) (ce : ChildEnv) (p q : Proc) (hs : Started c ce p q) (hf : p.filters = []) :
    (∃ u, Fingers ⟨[], 0, [q.filters]⟩ u ∧ u.typed ≠ []) ↔ ¬UnderWhitelist c := by
  constructor
  · rintro ⟨u, hu, ht⟩ hw
    exact ht (C127_c_cpp_partial c ce p q u hw hs hu)
  · intro hw
    refine ⟨_, .types (.start _) _ (List.mem_singleton.2 rfl) (Req.mk' 16 [0, 0x5412, 0x1000]) (.inr rfl) ?_ 'x', by simp⟩
    refine others_pass hf hs hw _ rfl ?_ ?_ ?_ <;> intros <;> simp [generalAnswer, golangAnswer, nodeAnswer, Req.mk']

/-- C137 (reading), settled for every rule set: the program can come to look into a process exactly if all its ids are those of the request. -/
theorem C137_read_exact (c : Config) (ce : ChildEnv) (p q : Proc) (size : Nat → Nat) (target : Peer) (h : Judging c q) (hs : Started c ce p q)
    (hf : p.filters = []) (hn : c.seccompRuleName ≠ none) :
    (∃ t, Life ⟨[q], size⟩ t ∧ CanDo Looks t target) ↔ target.uid = ⟨c.uid, c.uid, c.uid⟩ ∧ target.gid = ⟨c.gid, c.gid, c.gid⟩ := by
  constructor
  · rintro ⟨t, hl, hc⟩
    refine Classical.byContradiction fun ht => C137_others_partial c q size t target h hn ?_ hl _ hc
    by_cases hu : target.uid = ⟨c.uid, c.uid, c.uid⟩
    · exact .inr fun hg => ht ⟨hu, hg⟩
    · exact .inl hu
  · rintro ⟨hu, hg⟩
    have hc := judging_confined h
    refine ⟨_, .start _, q, List.mem_singleton.2 rfl, Req.mk' 257 [0, 0x1000, 0], .inr (.inr (.inr ⟨rfl, by decide⟩)), opens_allowed hf hs, .inr ?_⟩
    rw [hc.uid, hc.gid]
    exact ⟨.inl hu, .inl hg⟩

/-- C137 (changing), settled for every rule set: exactly if all its ids are those of the request and the rule set is not `c_cpp`. -/
theorem C137_change_exact (c : Config) (ce : ChildEnv) (p q : Proc) (size : Nat → Nat) (target : Peer) (h : Judging c q) (hs : Started c ce p q)
    (hf : p.filters = []) (hn : c.seccompRuleName ≠ none) :
    (∃ t, Life ⟨[q], size⟩ t ∧ CanDo Changes t target) ↔
      c.seccompRuleName ≠ some c!"c_cpp" ∧ target.uid = ⟨c.uid, c.uid, c.uid⟩ ∧ target.gid = ⟨c.gid, c.gid, c.gid⟩ := by
  constructor
  · rintro ⟨t, hl, hc⟩
    refine ⟨fun hw => C137_c_cpp_partial c ce p q size t target hw hs hl hc, Classical.byContradiction fun ht => C137_others_partial c q size t target h hn ?_ hl _ hc⟩
    by_cases hu : target.uid = ⟨c.uid, c.uid, c.uid⟩
    · exact .inr fun hg => ht ⟨hu, hg⟩
    · exact .inl hu
  · rintro ⟨hw, hu, hg⟩
    have hc := judging_confined h
    have hm : MayAttach q target := by
      right
      rw [hc.uid, hc.gid]
      exact ⟨.inl hu, .inl hg⟩
    by_cases hio : c.seccompRuleName = some c!"c_cpp_file_io"
    · refine ⟨_, .start _, q, List.mem_singleton.2 rfl, Req.mk' 257 [0, 0x1000, 2], .inr (.inr (.inr ⟨rfl, by decide⟩)), ?_, hm⟩
      have hprof := C23_profile_enforced c ce p q hs
      rw [hio] at hprof
      rcases hprof.2 with ⟨h1, h2⟩ | ⟨h1, h2⟩ | ⟨h1, h2⟩ | ⟨h1, h2⟩ | ⟨h1, h2⟩
      · exact absurd h1 (by decide)
      · rw [h2, hf]
        show Action.min _ .allow = .allow
        rw [cCppFileIo_eval _ rfl]
        simp [cCppFileIoAnswer, Req.mk', Action.min]
      · exact absurd h1 (by decide)
      · exact absurd h1 (by decide)
      · exact absurd h1 (by decide)
    · refine ⟨_, .start _, q, List.mem_singleton.2 rfl, Req.mk' 101 [16, 1], .inr (.inl (by simp [Req.mk'])), ?_, hm⟩
      refine others_pass hf hs (fun hx => hx.elim hw hio) _ rfl ?_ ?_ ?_ <;> intros <;> simp [generalAnswer, golangAnswer, nodeAnswer, Req.mk']

/-- All of them of the sample judging under `golang`. -/
example (size : Nat → Nat) : ∃ q, Judging { sampleConfig with seccompRuleName := some c!"golang" } q ∧
    (∀ t, Life ⟨[q], size⟩ t → ∀ m ∈ t.procs, Confined { sampleConfig with seccompRuleName := some c!"golang" } q m) ∧
    (∃ t, Life ⟨[q], size⟩ t ∧ CanSignal t neighbour.uid) ∧ (¬∃ t, Life ⟨[q], size⟩ t ∧ CanSignal t ⟨0, 0, 0⟩) ∧
    (∃ m, Locks True ⟨0, false, [q.filters]⟩ m ∧ m.taken = true) ∧ (∃ u, Fingers ⟨[], 0, [q.filters]⟩ u ∧ u.typed ≠ []) ∧
    (∃ t, Life ⟨[q], size⟩ t ∧ CanDo Looks t neighbour) ∧ (∃ t, Life ⟨[q], size⟩ t ∧ CanDo Changes t neighbour) ∧
    ¬∃ t, Life ⟨[q], size⟩ t ∧ CanDo Looks t ⟨⟨0, 0, 0⟩, ⟨0, 0, 0⟩⟩ := by
  obtain ⟨q, hj, hs⟩ := sample_any (some c!"golang") (fun n h => by cases h; simp [profileNames])
  have hw : ¬UnderWhitelist { sampleConfig with seccompRuleName := some c!"golang" } := by simp [UnderWhitelist]
  refine ⟨q, hj, (C86_exact _ _ _ q size hj hs rfl).2 (by simp), (C114_exact _ _ _ q size _ hj hs rfl (by simp)).2 ⟨hw, .inl rfl⟩, ?_,
    (C116_exact True _ _ _ q 0 hs rfl).2 ⟨trivial, hw⟩, (C127_exact _ _ _ q hs rfl).2 hw, (C137_read_exact _ _ _ q size _ hj hs rfl (by simp)).2 ⟨rfl, rfl⟩,
    (C137_change_exact _ _ _ q size _ hj hs rfl (by simp)).2 ⟨by simp, rfl, rfl⟩, ?_⟩
  · rw [C114_exact _ _ _ q size _ hj hs rfl (by simp)]
    simp [sampleConfig]
  · rw [C137_read_exact _ _ _ q size _ hj hs rfl (by simp)]
    simp [sampleConfig]

/-- The sample judging under `c_cpp` loses nothing of the log, although it has it open. -/
example (text : List Char) : ¬∃ m, Writes (HoldsLog sampleConfig (stateAtExec sampleConfig (sampleChild fun _ => false) sampleProc)) False
    ⟨text, text, [(stateAtExec sampleConfig (sampleChild fun _ => false) sampleProc).filters]⟩ m ∧ ¬(text <+: m.text ∧ m.told.Sublist m.text) := by
  rw [C113_exact sampleConfig _ _ _ text sample_started rfl]
  exact fun h => h.2 (.inl rfl)

/-- The sample under golang: file sizes, the number of processes and each process's memory are bounded, the CPU time of all together is not. -/
example (size : Nat → Nat) (others : Int → Nat) : ∃ q, Judging { sampleConfig with seccompRuleName := some c!"golang" } q ∧
    (∀ t, Life ⟨[q], size⟩ t → ∀ f, (t.size f : Int) ≤ max (size f : Int) 1048576) ∧ (∀ k, Breeds ⟨[q], others⟩ k → (k.procs.length : Int) ≤ 5) ∧
    (∀ k, Dwells ⟨[⟨q, 0⟩], others⟩ k → ∀ x ∈ k.dwellers, (x.space : Int) ≤ 2 * 67108864) ∧
    ¬∀ k, Grinds 4000 ⟨[⟨q, 0⟩], 0⟩ k → (k.total : Int) ≤ 2004000 := by
  obtain ⟨q, hj, hs⟩ := sample_any (some c!"golang") (fun n h => by cases h; simp [profileNames])
  have hl := C14_limits _ _ _ _ hj.ok hj.range hs .as
  simp only [wantedLimit, sampleConfig] at hl
  simp at hl
  refine ⟨q, hj, (C87_exact _ _ _ q size hj hs rfl (by decide)).2 (by simp), (C93_exact _ _ _ q others hj hs rfl (by decide)).2 (by simp),
    (C109_exact _ _ _ q 0 others hj hs rfl rfl (by decide) (by rw [hl]; decide)).2 (by simp), fun h => ?_⟩
  have hw := (C117_exact 4000 _ _ _ q 0 hj hs rfl (by decide) (by decide) (by decide)).1 h
  simp [UnderWhitelist] at hw

end Judger
