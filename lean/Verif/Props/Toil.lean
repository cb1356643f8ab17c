import Verif.Props.Life
import Verif.Props.Family
import Verif.Props.Ledger
import Verif.Spec.Toil

/-! # C117: how much CPU time the judged program and its descendants can use -/

set_option autoImplicit false

namespace Judger

open Judger.Spec

/-- C117, the full claim: with `max_cpu_time` given, the program and its descendants together never use more CPU time than that, one second and a tick. -/
def C117_full : Prop :=
  ∀ (tick : Nat) (c : Config) (q : Proc) (used : Nat) (k : Mill), Judging c q → c.maxCpuTime ≠ -1 → (used : Int) ≤ (c.maxCpuTime + 1000) * 1000 →
    Grinds tick ⟨[⟨q, used⟩], used⟩ k → (k.total : Int) ≤ (c.maxCpuTime + 1000) * 1000 + tick

theorem map_eraseIdx_proc (l : List Toiler) (i : Nat) : (l.eraseIdx i).map Toiler.proc = (l.map Toiler.proc).eraseIdx i := by
  induction l generalizing i with
  | nil => rfl
  | cons a l ih => cases i <;> simp [ih]

/-- What can happen in a mill can happen in a life. -/
theorem grinds_life {tick : Nat} {xs : List Toiler} {n : Nat} {k : Mill} (h : Grinds tick ⟨xs, n⟩ k) :
    Life ⟨xs.map Toiler.proc, fun _ => 0⟩ ⟨k.toilers.map Toiler.proc, fun _ => 0⟩ := by
  induction h with
  | start => exact .start _
  | act _ i x p' hx ha ih =>
    have := Life.act ih i x.proc p' (by simp [hx]) ha
    simpa [List.map_set] using this
  | limit _ i caller x r v hc hx hv ha ih =>
    have := Life.limit ih i caller.proc x.proc r v (List.mem_map_of_mem hc) (by simp [hx]) hv ha
    simpa [List.map_set] using this
  | @computes l _ i x n hx _ _ ih =>
    have : (l.toilers.map Toiler.proc).set i x.proc = l.toilers.map Toiler.proc := by
      apply List.ext_getElem?
      intro j
      rw [List.getElem?_set]
      split
      · next hj =>
        subst hj
        split
        · simp [hx]
        · next hl =>
          refine absurd ?_ hl
          rw [List.length_map]
          exact (List.getElem?_eq_some_iff.1 hx).1
      · rfl
    simpa [List.map_set, this] using ih
  | forks _ x r hx _ _ ih =>
    have := Life.forks ih x.proc (List.mem_map_of_mem hx)
    simpa using this
  | exits _ i ih =>
    have := Life.exits ih i
    dsimp only at this
    rw [← map_eraseIdx_proc] at this
    exact this

/-- The CPU limit of all of them. -/
theorem grinds_limit {tick : Nat} {c : Config} {q : Proc} {used n : Nat} {k : Mill} (h : Judging c q) (hn : c.seccompRuleName ≠ none)
    (ht : c.maxCpuTime ≠ -1) (hd : Grinds tick ⟨[⟨q, used⟩], n⟩ k) :
    ∀ x ∈ k.toilers, (x.proc.limits .cpu).max * 1000000 ≤ (c.maxCpuTime + 1000) * 1000 := by
  intro x hx
  have h1 := life_confined h (judging_noNewPrivs h hn) (grinds_life hd) x.proc (List.mem_map_of_mem hx)
  have h2 := (h1.1.wanted .cpu (c.maxCpuTime / 1000 + 1) (by simp [wantedLimit, ht])).2
  omega

/-- C117, each process: a seccomp rule name is given.  Missing: without one, a set-user-ID root file is honoured and can raise the limit. -/
theorem C117_each_partial (tick : Nat) (c : Config) (q : Proc) (used : Nat) (k : Mill) (h : Judging c q) (hn : c.seccompRuleName ≠ none)
    (ht : c.maxCpuTime ≠ -1) (hu : (used : Int) ≤ (c.maxCpuTime + 1000) * 1000) (hd : Grinds tick ⟨[⟨q, used⟩], used⟩ k) :
    ∀ x ∈ k.toilers, (x.used : Int) ≤ (c.maxCpuTime + 1000) * 1000 + tick := by
  have hpos : 1 ≤ c.maxCpuTime := by have := h.ok.1; simp only [LimitOk] at this; omega
  induction hd with
  | start => intro x hx; rw [List.mem_singleton.1 hx]; dsimp only; omega
  | act hl i x p' hx ha ih =>
    intro y hy
    rcases List.mem_or_eq_of_mem_set hy with hy | rfl
    · exact ih y hy
    · exact ih x (List.mem_of_getElem? hx)
  | limit hl i caller x r v hc hx hv ha ih =>
    intro y hy
    rcases List.mem_or_eq_of_mem_set hy with hy | rfl
    · exact ih y hy
    · exact ih x (List.mem_of_getElem? hx)
  | computes hl i x n hx hle hlim ih =>
    intro y hy
    rcases List.mem_or_eq_of_mem_set hy with hy | rfl
    · exact ih y hy
    · have h1 := grinds_limit h hn ht hl x (List.mem_of_getElem? hx)
      dsimp only
      omega
  | forks hl x r hx _ ha ih =>
    intro y hy
    rcases List.mem_append.1 hy with hy | hy
    · exact ih y hy
    · rw [List.mem_singleton.1 hy]; dsimp only; omega
  | exits hl i ih => intro y hy; exact ih y (List.mem_of_mem_eraseIdx hy)

theorem act_filters {p p' : Proc} {exe : BitVec 64} (ha : Act p p') (h : CppAmong exe p.filters) : CppAmong exe p'.filters := by
  cases ha with
  | filters f => exact h.imp (List.mem_cons_of_mem _) (List.mem_cons_of_mem _)
  | _ => exact h

/-- Under a C/C++ rule set there is one process, or none. -/
theorem grinds_alone {tick : Nat} {q : Proc} {exe : BitVec 64} {used : Nat} {k : Mill} (hu : CppAmong exe q.filters)
    (hd : Grinds tick ⟨[⟨q, used⟩], used⟩ k) : (∃ x, k.toilers = [x] ∧ x.used = k.total ∧ CppAmong exe x.proc.filters) ∨
      (k.toilers = [] ∧ ∃ l, Grinds tick ⟨[⟨q, used⟩], used⟩ l ∧ ∃ x, l.toilers = [x] ∧ x.used = k.total) := by
  induction hd with
  | start => exact .inl ⟨_, rfl, rfl, hu⟩
  | act hl i x p' hx ha ih =>
    rcases ih with ⟨y, hy, h1, h2⟩ | ⟨he, _⟩
    · left
      rw [hy] at hx ⊢
      cases i with
      | zero =>
        simp only [List.getElem?_cons_zero, Option.some.injEq] at hx
        subst hx
        exact ⟨_, rfl, h1, act_filters ha h2⟩
      | succ i => simp at hx
    · rw [he] at hx; simp at hx
  | limit hl i caller x r v hc hx hv ha ih =>
    rcases ih with ⟨y, hy, h1, h2⟩ | ⟨he, _⟩
    · left
      rw [hy] at hx ⊢
      cases i with
      | zero =>
        simp only [List.getElem?_cons_zero, Option.some.injEq] at hx
        subst hx
        exact ⟨_, rfl, h1, h2⟩
      | succ i => simp at hx
    · rw [he] at hx; simp at hx
  | computes hl i x n hx hle hlim ih =>
    rcases ih with ⟨y, hy, h1, h2⟩ | ⟨he, _⟩
    · left
      rw [hy] at hx ⊢
      cases i with
      | zero =>
        simp only [List.getElem?_cons_zero, Option.some.injEq] at hx
        subst hx
        exact ⟨_, rfl, by simp [h1], h2⟩
      | succ i => simp at hx
    · rw [he] at hx; simp at hx
  | forks hl x r hx hn ha ih =>
    rcases ih with ⟨y, hy, h1, h2⟩ | ⟨he, _⟩
    · rw [hy, List.mem_singleton] at hx
      subst hx
      exact absurd hn (cCpp_no_fork h2 ha)
    · rw [he] at hx; cases hx
  | @exits l hl i ih =>
    rcases ih with ⟨y, hy, h1, h2⟩ | ⟨he, hm⟩
    · cases i with
      | zero =>
        right
        exact ⟨by rw [hy]; rfl, l, hl, y, hy, h1⟩
      | succ i => left; exact ⟨y, by rw [hy]; rfl, h1, h2⟩
    · right; exact ⟨by rw [he]; rfl, hm⟩

/-- C117, all together: the rule sets `c_cpp` and `c_cpp_file_io`.  Missing: the others and none (`C117_witness`). -/
theorem C117_together_partial (tick : Nat) (c : Config) (q : Proc) (used : Nat) (k : Mill) (h : Judging c q)
    (hn : c.seccompRuleName = some c!"c_cpp" ∨ c.seccompRuleName = some c!"c_cpp_file_io") (ht : c.maxCpuTime ≠ -1)
    (hu : (used : Int) ≤ (c.maxCpuTime + 1000) * 1000) (hd : Grinds tick ⟨[⟨q, used⟩], used⟩ k) :
    (k.total : Int) ≤ (c.maxCpuTime + 1000) * 1000 + tick := by
  obtain ⟨e, p, hs⟩ := h.started
  have hprof := C23_profile_enforced c e p q hs
  have hf : CppAmong e.exeAddr q.filters := by
    rcases hn with hn | hn <;> rw [hn] at hprof <;>
      rcases hprof.2 with ⟨h1, h2⟩ | ⟨h1, h2⟩ | ⟨h1, h2⟩ | ⟨h1, h2⟩ | ⟨h1, h2⟩ <;>
      first
      | exact absurd h1 (by decide)
      | (left; rw [h2]; exact List.mem_cons_self)
      | (right; rw [h2]; exact List.mem_cons_self)
  have hne : c.seccompRuleName ≠ none := by rcases hn with hn | hn <;> rw [hn] <;> simp
  rcases grinds_alone hf hd with ⟨x, hx, h1, _⟩ | ⟨_, l, hl, x, hx, h1⟩
  · rw [← h1]
    exact C117_each_partial tick c q used k h hne ht hu hd x (by rw [hx]; exact List.mem_singleton.2 rfl)
  · rw [← h1]
    exact C117_each_partial tick c q used l h hne ht hu hl x (by rw [hx]; exact List.mem_singleton.2 rfl)

/-- The sample: a limit of one second, so two seconds and a tick of 4 ms at most. -/
example (k : Mill) (hd : Grinds 4000 ⟨[⟨stateAtExec sampleConfig (sampleChild fun _ => false) sampleProc, 300⟩], 300⟩ k) : k.total ≤ 2004000 := by
  have := C117_together_partial 4000 sampleConfig _ 300 k judging_sample (.inl rfl) (by decide) (by decide) hd
  have h1 : (sampleConfig.maxCpuTime + 1000) * 1000 + ((4000 : Nat) : Int) = 2004000 := by decide
  omega

/-- Under `general`, `golang`, `node`, and without a rule set: any amount of CPU time, by one process after the other, never more than two at a time. -/
theorem C117_witness (name : Option CStr) (hn : ∀ n, name = some n → n ∈ [c!"general", c!"golang", c!"node"]) :
    ∃ q, Judging { sampleConfig with seccompRuleName := name } q ∧ ∀ n, Grinds 1 ⟨[⟨q, 0⟩], 0⟩ ⟨[⟨q, 0⟩], n⟩ := by
  obtain ⟨q, hs, _⟩ := log_start name (fun n h => by
    have := hn n h
    simp only [List.mem_cons, List.not_mem_nil, or_false] at this
    rcases this with rfl | rfl | rfl <;> simp [profileNames])
  have hr : Config.InRange { sampleConfig with seccompRuleName := name } := by
    obtain ⟨h1, h2, h3, h4, h5, h6, h7, h8, h9⟩ := sampleConfig_range
    exact ⟨h1, h2, h3, h4, h5, h6, h7, h8, h9⟩
  have hj : Judging { sampleConfig with seccompRuleName := name } q :=
    ⟨sampleConfig_ok, hr, (by decide : sampleConfig.uid ≠ 0 ∧ sampleConfig.uid ≠ keepId), (by decide : sampleConfig.gid ≠ keepId), _, _, hs⟩
  have hf := C23_profile_enforced _ _ _ _ hs
  have ha : evalAll q.filters (Req.mk' 435 [0x1000, 88]) = .allow := by
    cases name with
    | none =>
      have h1 := hf.1
      rw [h1]
      decide
    | some n =>
      have := hn n rfl
      simp only [List.mem_cons, List.not_mem_nil, or_false] at this
      rcases this with rfl | rfl | rfl <;>
        rcases hf.2 with ⟨h1, h2⟩ | ⟨h1, h2⟩ | ⟨h1, h2⟩ | ⟨h1, h2⟩ | ⟨h1, h2⟩ <;>
        first
        | exact absurd h1 (by decide)
        | (rw [h2]; decide)
  have hl := C14_limits _ _ _ _ hj.ok hj.range hs .cpu
  simp only [wantedLimit, sampleConfig] at hl
  simp at hl
  refine ⟨q, hj, fun n => ?_⟩
  induction n with
  | zero => exact .start _
  | succ n ih =>
    have h1 := Grinds.forks ih ⟨q, 0⟩ (Req.mk' 435 [0x1000, 88]) (List.mem_singleton.2 rfl) (by decide) ha
    have h2 := Grinds.computes h1 1 ⟨q, 0⟩ 1 rfl (Nat.le_refl 1) (by dsimp only; rw [hl]; decide)
    exact Grinds.exits h2 1

/-- C117 is false of the code. -/
theorem C117_false : ¬C117_full := by
  intro h
  obtain ⟨q, hj, hw⟩ := C117_witness none (by simp)
  have := h 1 _ q 0 _ hj (by decide) (by decide) (hw 3000000)
  have h1 : ((3000000 : Nat) : Int) ≤ (sampleConfig.maxCpuTime + 1000) * 1000 + ((1 : Nat) : Int) := this
  exact absurd h1 (by decide)

end Judger
