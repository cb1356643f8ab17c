import Verif.Props.Crowd
import Verif.Spec.Space

/-! # C109: how much memory the judged program and its descendants can have -/

set_option autoImplicit false

namespace Judger

open Judger.Spec

/-- C109, the full claim: with `max_memory` and `max_process_number` given (and `memory_limit_check_only` off), every process of the program has at
most twice `max_memory`, and all together at most `max_process_number` times that. -/
def C109_full : Prop :=
  ∀ (c : Config) (q : Proc) (space : Nat) (others : Int → Nat) (k : House), Judging c q → (space : Int) ≤ (q.limits .as).cur →
    c.memoryLimitCheckOnly = 0 → c.maxMemory ≠ -1 → c.maxProcessNumber ≠ -1 → Dwells ⟨[⟨q, space⟩], others⟩ k →
    (∀ x ∈ k.dwellers, (x.space : Int) ≤ 2 * c.maxMemory) ∧ (k.total : Int) ≤ c.maxProcessNumber * (2 * c.maxMemory)

theorem map_eraseIdx (l : List Dweller) (i : Nat) : (l.eraseIdx i).map Dweller.proc = (l.map Dweller.proc).eraseIdx i := by
  induction l generalizing i with
  | nil => rfl
  | cons a l ih => cases i <;> simp [ih]

/-- What can happen in a house can happen in a crowd. -/
theorem dwells_breeds {ds : List Dweller} {others : Int → Nat} {k : House} (h : Dwells ⟨ds, others⟩ k) :
    Breeds ⟨ds.map Dweller.proc, others⟩ k.crowd := by
  induction h with
  | start => exact .start _
  | act _ i x p' hx ha ih =>
    have := Breeds.act ih i x.proc p' (by simp [House.crowd, hx]) ha
    simpa [House.crowd, List.map_set] using this
  | limit _ i caller x r v hc hx hv ha ih =>
    have := Breeds.limit ih i caller.proc x.proc r v (List.mem_map_of_mem hc) (by simp [House.crowd, hx]) hv ha
    simpa [House.crowd, List.map_set] using this
  | @maps l _ i x n hx _ ih =>
    have : (l.dwellers.map Dweller.proc).set i x.proc = l.dwellers.map Dweller.proc := by
      apply List.ext_getElem?
      intro j
      rw [List.getElem?_set]
      split
      · next hj =>
        subst hj
        split
        · simp [hx]
        · next hl =>
          refine absurd ?_ hl
          rw [List.length_map]
          exact (List.getElem?_eq_some_iff.1 hx).1
      · rfl
    simpa [House.crowd, List.map_set, this] using ih
  | forks _ x hx ha ih =>
    have := Breeds.forks ih x.proc (List.mem_map_of_mem hx) ha
    simpa [House.crowd] using this
  | exits _ i ih =>
    have := Breeds.exits ih i
    rw [show (House.crowd _).procs.eraseIdx i = _ from (map_eraseIdx _ _).symm] at this
    exact this
  | others _ o ih => exact Breeds.others ih o

theorem sum_le_length {l : List Nat} {b : Int} (h : ∀ n ∈ l, (n : Int) ≤ b) : ((l.sum : Nat) : Int) ≤ l.length * b := by
  induction l with
  | nil => simp
  | cons a l ih =>
    have h1 := h a List.mem_cons_self
    have h2 := ih fun n hn => h n (List.mem_cons_of_mem _ hn)
    simp only [List.sum_cons, List.length_cons, Int.natCast_add, Int.add_mul]
    omega

/-- C109, each process: a seccomp rule name is given.  Missing: without one, a set-user-ID root file is honoured (`C109_false`). -/
theorem C109_each_partial (c : Config) (q : Proc) (space : Nat) (others : Int → Nat) (k : House) (h : Judging c q)
    (hs : (space : Int) ≤ (q.limits .as).cur) (hn : c.seccompRuleName ≠ none) (h0 : c.memoryLimitCheckOnly = 0) (hm : c.maxMemory ≠ -1)
    (hd : Dwells ⟨[⟨q, space⟩], others⟩ k) : ∀ x ∈ k.dwellers, (x.space : Int) ≤ 2 * c.maxMemory := by
  have hw : wantedLimit c .as = some (2 * c.maxMemory) := by simp [wantedLimit, h0, hm]
  have hlim : ∀ l, Dwells ⟨[⟨q, space⟩], others⟩ l → ∀ x ∈ l.dwellers, (x.proc.limits .as).cur ≤ 2 * c.maxMemory := by
    intro l hl x hx
    exact ((life_confined h (judging_noNewPrivs h hn) (breeds_life (dwells_breeds hl)) x.proc
      (List.mem_map_of_mem hx)).1.wanted .as _ hw).1
  induction hd with
  | start =>
    intro x hx
    have := hlim _ (.start _) x hx
    rw [List.mem_singleton.1 hx] at this ⊢
    dsimp only at *
    omega
  | act hl i x p' hx ha ih =>
    intro y hy
    rcases List.mem_or_eq_of_mem_set hy with hy | rfl
    · exact ih y hy
    · exact ih x (List.mem_of_getElem? hx)
  | limit hl i caller x r v hc hx hv ha ih =>
    intro y hy
    rcases List.mem_or_eq_of_mem_set hy with hy | rfl
    · exact ih y hy
    · exact ih x (List.mem_of_getElem? hx)
  | maps hl i x n hx hle ih =>
    intro y hy
    rcases List.mem_or_eq_of_mem_set hy with hy | rfl
    · exact ih y hy
    · have h1 := hlim _ hl x (List.mem_of_getElem? hx)
      have h2 := ih x (List.mem_of_getElem? hx)
      dsimp only
      omega
  | forks hl x hx ha ih =>
    intro y hy
    rcases List.mem_append.1 hy with hy | hy
    · exact ih y hy
    · rw [List.mem_singleton.1 hy]; exact ih x hx
  | exits hl i ih => intro y hy; exact ih y (List.mem_of_mem_eraseIdx hy)
  | others hl o ih => exact ih

/-- C109, all together: a seccomp rule name is given.  Missing: as above. -/
theorem C109_together_partial (c : Config) (q : Proc) (space : Nat) (others : Int → Nat) (k : House) (h : Judging c q)
    (hs : (space : Int) ≤ (q.limits .as).cur) (hn : c.seccompRuleName ≠ none) (h0 : c.memoryLimitCheckOnly = 0) (hm : c.maxMemory ≠ -1)
    (hp : c.maxProcessNumber ≠ -1) (hd : Dwells ⟨[⟨q, space⟩], others⟩ k) : (k.total : Int) ≤ c.maxProcessNumber * (2 * c.maxMemory) := by
  have h1 := C109_each_partial c q space others k h hs hn h0 hm hd
  have h2 := C93_process_number_partial c q others k.crowd h hp hn (dwells_breeds hd)
  have h3 : (k.total : Int) ≤ (k.dwellers.map Dweller.space).length * (2 * c.maxMemory) := by
    refine sum_le_length ?_
    intro n hn
    obtain ⟨x, hx, rfl⟩ := List.mem_map.1 hn
    exact h1 x hx
  have h4 : 0 ≤ 2 * c.maxMemory := by
    rcases h.ok.2.2.1 with h' | h'
    · exact absurd h' hm
    · omega
  simp only [House.crowd, List.length_map] at h2 h3
  exact Int.le_trans h3 (Int.mul_le_mul_of_nonneg_right h2 h4)

/-- The sample: five processes of 128 MiB at most. -/
example (others : Int → Nat) (k : House)
    (hd : Dwells ⟨[⟨stateAtExec sampleConfig (sampleChild fun _ => false) sampleProc, 2000000⟩], others⟩ k) :
    (k.total : Int) ≤ 671088640 := by
  have hl := C14_limits _ _ _ _ sampleConfig_ok sampleConfig_range sample_started .as
  have := C109_together_partial _ _ 2000000 _ k judging_sample (by
    simp only [wantedLimit, sampleConfig] at hl
    simp only [sampleConfig] at *
    simp at hl
    rw [hl]; decide) (by decide) rfl (by decide) (by decide) hd
  simpa [sampleConfig] using this

/-- The bound of a single process is reached: as much as that can be mapped. -/
theorem C109_sharp (c : Config) (q : Proc) (space : Nat) (others : Int → Nat) (h : Judging c q) (h0 : c.memoryLimitCheckOnly = 0)
    (hm : c.maxMemory ≠ -1) : ∃ k, Dwells ⟨[⟨q, space⟩], others⟩ k ∧ ∃ x ∈ k.dwellers, (x.space : Int) = 2 * c.maxMemory := by
  obtain ⟨e, p, hs⟩ := h.started
  have hl := C14_limits c e p q h.ok h.range hs .as
  have hw : wantedLimit c .as = some (2 * c.maxMemory) := by simp [wantedLimit, h0, hm]
  rw [hw] at hl
  have h4 : 0 ≤ 2 * c.maxMemory := by
    rcases h.ok.2.2.1 with h' | h'
    · exact absurd h' hm
    · omega
  refine ⟨_, Dwells.maps (.start _) 0 ⟨q, space⟩ (2 * c.maxMemory).toNat rfl (.inl ?_), _, List.mem_singleton.2 rfl, ?_⟩
  · simp only [hl]; omega
  · simp only; omega

/-- With `memory_limit_check_only` the address space is not limited by the judger. -/
theorem C109_check_only (c : Config) (ce : ChildEnv) (p q : Proc) (space n : Nat) (others : Int → Nat) (hc : ConfigOk c) (hr : c.InRange)
    (hs : Started c ce p q) (h1 : c.memoryLimitCheckOnly ≠ 0) (hn : (n : Int) ≤ (p.limits .as).cur) :
    ∃ k, Dwells ⟨[⟨q, space⟩], others⟩ k ∧ ∃ x ∈ k.dwellers, x.space = n := by
  have hl := C14_limits c ce p q hc hr hs .as
  have hw : wantedLimit c .as = none := by simp [wantedLimit, h1]
  rw [hw] at hl
  refine ⟨_, Dwells.maps (.start _) 0 ⟨q, space⟩ n rfl (.inl ?_), _, List.mem_singleton.2 rfl, rfl⟩
  simp only [hl]
  exact hn

/-- C109 is false of the code: without a rule name no_new_privs is not set. -/
theorem C109_false : ¬C109_full := by
  intro hfull
  obtain ⟨q, hq, hn⟩ := judging_open
  have hl : (q.limits .as).cur = 134217728 := by
    obtain ⟨e, p, hs⟩ := hq.started
    have := C14_limits _ _ _ _ hq.ok hq.range hs .as
    simp only [wantedLimit, sampleConfig] at this
    simp at this
    rw [this]
  have h1 := Dwells.act (.start ⟨[⟨q, 0⟩], fun _ => 0⟩) 0 ⟨q, 0⟩ _ rfl (Act.execs q ⟨some 0, none⟩)
  have h2 := Dwells.limit h1 0 _ _ .as ⟨134217729, 134217729⟩ (List.mem_singleton.2 rfl) rfl (Int.le_refl _)
    (Or.inl (by simp [Proc.privileged, Ids.exec, hn]))
  have h3 := Dwells.maps h2 0 _ 134217729 rfl (.inl (by simp))
  have := (hfull _ q 0 _ _ hq (by rw [hl]; decide) rfl (by decide) (by decide) h3).1 _ (List.mem_singleton.2 rfl)
  have h4 : ((134217729 : Nat) : Int) ≤ 2 * 67108864 := this
  exact absurd h4 (by decide)

end Judger
