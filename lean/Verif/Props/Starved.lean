import Verif.Props.Own
import Verif.Props.Child
import Verif.Spec.Starved

/-! # C138: a program that is refused memory is reported as MEMORY_LIMIT_EXCEEDED -/

set_option autoImplicit false

namespace Judger

open Judger.Spec

/-- A judging with a memory limit in force: the program starts with some address space, rents what it can, and ends by `t`, not by SIGUSR1 (C103), within the limits
on time. -/
structure Tenancy (c : Config) (e : RunEnv) (pid : Nat) (t : Termination) (setup : Nat) (x : Tenant) : Prop where
  ok : ConfigOk c
  range : c.InRange
  limit : c.maxMemory ≠ -1
  inForce : c.memoryLimitCheckOnly = 0
  lives : ∃ ce p q space here, Started c ce p q ∧ here ≤ space ∧ Rents (q.limits .as).cur (Tenant.initial space here) x
  completed : Completed c e pid t
  usage : e.usage.maxrss = x.reported setup
  notUsr1 : ∀ core, t ≠ .signaled 10 core
  cpu : Within c.maxCpuTime (usageOf e).cpuMs
  real : Within c.maxRealTime (usageOf e).realMs

/-- C138, the full claim. -/
def C138_full : Prop :=
  ∀ (c : Config) (prior : Result) (e : RunEnv) (pid : Nat) (t : Termination) (setup : Nat) (x : Tenant), Tenancy c e pid t setup x → x.refusals ≠ [] →
    ∃ r effs, run c prior e = .returned r effs ∧ r.result = 3

/-- What holds of every tenant. -/
structure Sane (top : Int) (x : Tenant) : Prop where
  here : x.here ≤ x.space
  peak : x.here ≤ x.peak
  refusals : ∀ r ∈ x.refusals, r.here ≤ r.space ∧ r.here ≤ x.peak ∧ ¬Fits top (r.space + r.asked)

theorem sane {top : Int} {x y : Tenant} (h : Rents top x y) (hx : Sane top x) : Sane top y := by
  induction h with
  | start => exact hx
  | maps _ n _ ih => exact ⟨Nat.le_trans ih.here (Nat.le_add_right _ _), ih.peak, ih.refusals⟩
  | refused _ n hn ih =>
    refine ⟨ih.here, ih.peak, fun r hr => ?_⟩
    rcases List.mem_cons.1 hr with rfl | hr
    · exact ⟨ih.here, ih.peak, hn⟩
    · exact ih.refusals r hr
  | uses _ n hn ih =>
    refine ⟨hn, Nat.le_max_right _ _, fun r hr => ?_⟩
    obtain ⟨h1, h2, h3⟩ := ih.refusals r hr
    exact ⟨h1, Nat.le_trans h2 (Nat.le_max_left _ _), h3⟩
  | unmaps _ n m hn hm hh ih => exact ⟨hm, Nat.le_trans hh ih.peak, ih.refusals⟩

theorem Tenancy.sane {c : Config} {e : RunEnv} {pid : Nat} {t : Termination} {setup : Nat} {x : Tenant} (h : Tenancy c e pid t setup x) :
    Sane (2 * c.maxMemory) x := by
  obtain ⟨ce, p, q, space, here, hs, hl, hr⟩ := h.lives
  obtain ⟨h1, _⟩ := C16_address_space c ce p q h.ok h.range h.inForce h.limit hs
  rw [h1] at hr
  exact Judger.sane hr ⟨hl, Nat.le_refl _, by simp [Tenant.initial]⟩

/-- C138, settled: the verdict is MEMORY_LIMIT_EXCEEDED exactly if more than `max_memory` was in memory at some time, be it of the program or of the judger before it
started the program (C92); whether something was refused does not matter. -/
theorem C138_exact (c : Config) (prior : Result) (e : RunEnv) (pid : Nat) (t : Termination) (setup : Nat) (x : Tenant) (h : Tenancy c e pid t setup x) :
    ∃ r effs, run c prior e = .returned r effs ∧ r.error = 0 ∧ (r.result = 3 ↔ c.maxMemory < 4096 * x.peak ∨ c.maxMemory < 1024 * setup) := by
  obtain ⟨r, effs, h1, h2, h3⟩ := C04_verdict c prior e pid t h.ok h.completed
  refine ⟨r, effs, h1, h2, ?_⟩
  have hm : (usageOf e).memBytes = (max setup (4 * x.peak) : Nat) * 1024 := by
    show e.usage.maxrss * 1024 = _
    rw [h.usage]
    rfl
  have hx : Exceeds c.maxMemory (usageOf e).memBytes ↔ c.maxMemory < 4096 * x.peak ∨ c.maxMemory < 1024 * setup := by
    rw [hm]
    unfold Exceeds
    have := h.limit
    omega
  have hcpu : ¬Exceeds c.maxCpuTime (usageOf e).cpuMs := by
    have := h.cpu
    unfold Within at this
    unfold Exceeds
    omega
  have hreal : ¬Exceeds c.maxRealTime (usageOf e).realMs := by
    have := h.real
    unfold Within at this
    unfold Exceeds
    omega
  rw [h3, ← hx]
  unfold verdict
  split
  · exact absurd rfl (h.notUsr1 _)
  · split <;> simp_all
  · rw [if_neg hcpu, if_neg hreal]
    split
    · simp_all
    · split <;> simp_all

/-- C138, the part that holds: a program that is refused no more than `max_memory` at once while all of its address space is in memory, and more generally one that
has more than `max_memory` in memory when it is refused something, is reported as MEMORY_LIMIT_EXCEEDED, whatever it does then.  Missing: memory asked for and not used
(`C138_witness`). -/
theorem C138_used_partial (c : Config) (prior : Result) (e : RunEnv) (pid : Nat) (t : Termination) (setup : Nat) (x : Tenant) (h : Tenancy c e pid t setup x)
    (r : Refusal) (hr : r ∈ x.refusals) (hu : (r.here = r.space ∧ (4096 * r.asked : Int) ≤ c.maxMemory) ∨ c.maxMemory < 4096 * r.here) :
    ∃ res effs, run c prior e = .returned res effs ∧ res.result = 3 := by
  obtain ⟨res, effs, h1, _, h3⟩ := C138_exact c prior e pid t setup x h
  refine ⟨res, effs, h1, h3.2 (.inl ?_)⟩
  obtain ⟨_, hp, hf⟩ := h.sane.refusals r hr
  unfold Fits at hf
  rcases hu with ⟨hu, ha⟩ | hu <;> omega

/-- C138, the other direction: nothing is refused that keeps the address space within twice `max_memory`. -/
theorem C138_room (c : Config) (e : RunEnv) (pid : Nat) (t : Termination) (setup : Nat) (x : Tenant) (h : Tenancy c e pid t setup x)
    (r : Refusal) (hr : r ∈ x.refusals) : 2 * c.maxMemory < 4096 * ((r.space + r.asked : Nat) : Int) := by
  obtain ⟨_, _, hf⟩ := h.sane.refusals r hr
  unfold Fits at hf
  omega

/-- A run that reports so many KiB and this termination. -/
def starvedEnv (t : Termination) (kib : Int) : RunEnv := { sampleEnv t.waitStatus with usage := ⟨⟨0, 12999⟩, kib⟩ }

theorem starved_times (t : Termination) (kib : Int) :
    (usageOf (starvedEnv t kib)).cpuMs ≤ sampleConfig.maxCpuTime ∧ (usageOf (starvedEnv t kib)).realMs ≤ sampleConfig.maxRealTime := by
  constructor <;> simp only [usageOf, starvedEnv, sampleEnv, sampleConfig] <;> decide +kernel

theorem starved_tenancy (t : Termination) (hv : t.Valid) (hn : ∀ core, t ≠ .signaled 10 core) (x : Tenant)
    (hr : Rents (2 * sampleConfig.maxMemory) (Tenant.initial 1000 500) x) : Tenancy sampleConfig (starvedEnv t (x.reported 1000)) 4242 t 1000 x :=
  ⟨sampleConfig_ok, sampleConfig_range, by decide, rfl,
    ⟨_, _, _, 1000, 500, sample_started, by decide, by
      rw [(C16_address_space _ _ _ _ sampleConfig_ok sampleConfig_range rfl (by decide) sample_started).1]; exact hr⟩,
    ⟨rfl, rfl, .inr rfl, rfl, hv, rfl, by simp [Normal, starvedEnv], by simp [Normal, starvedEnv, sampleEnv], by simp [Normal, starvedEnv, sampleEnv]⟩,
    rfl, hn, .inr (starved_times t _).1, .inr (starved_times t _).2⟩

/-- The sample program asks for 160 MB at once, under a limit of 64 MiB. -/
def greedy : Tenant := { Tenant.initial 1000 500 with refusals := [⟨1000, 500, 40000⟩] }

theorem greedy_rents : Rents (2 * sampleConfig.maxMemory) (Tenant.initial 1000 500) greedy :=
  .refused (.start _) 40000 (by unfold Fits; decide)

/-- It is refused, and reported as RUNTIME_ERROR if it gives up (here with exit code 1, or by SIGSEGV), and as accepted if it can do without. -/
theorem C138_witness (prior : Result) (t : Termination) (ht : t ∈ [.exited 0, .exited 1, .signaled 11 false]) :
    Tenancy sampleConfig (starvedEnv t 2000) 4242 t 1000 greedy ∧ greedy.refusals ≠ [] ∧
    ∃ r effs, run sampleConfig prior (starvedEnv t 2000) = .returned r effs ∧ r.error = 0 ∧ r.result = if t = .exited 0 then 0 else 4 := by
  have hv : t.Valid ∧ ∀ core, t ≠ .signaled 10 core := by
    simp only [List.mem_cons, List.not_mem_nil, or_false] at ht
    rcases ht with rfl | rfl | rfl
    · exact ⟨by decide, by simp⟩
    · exact ⟨by decide, by simp⟩
    · exact ⟨by decide, by simp⟩
  have hT : Tenancy sampleConfig (starvedEnv t 2000) 4242 t 1000 greedy := starved_tenancy t hv.1 hv.2 greedy greedy_rents
  refine ⟨hT, by decide, ?_⟩
  obtain ⟨r, effs, h1, h2, h3⟩ := C04_verdict sampleConfig prior _ 4242 t sampleConfig_ok hT.completed
  refine ⟨r, effs, h1, h2, ?_⟩
  rw [h3]
  simp only [List.mem_cons, List.not_mem_nil, or_false] at ht
  rcases ht with rfl | rfl | rfl <;> decide +kernel

/-- C138 is false of the code. -/
theorem C138_false : ¬C138_full := by
  intro h
  obtain ⟨hT, hr, r, effs, h1, _, h2⟩ := C138_witness (noResult 0) (.exited 1) (by decide)
  obtain ⟨r', effs', h3, h4⟩ := h _ (noResult 0) _ _ _ _ _ hT hr
  rw [h1] at h3
  cases h3
  rw [h2] at h4
  exact absurd h4 (by decide)

/-- `C138_used_partial` is not empty: a program that uses all it gets is refused 100 pages more when it has 32700, and dies of SIGSEGV or SIGABRT. -/
example (t : Termination) (ht : t ∈ [.signaled 11 false, .signaled 6 true]) : ∃ x, Tenancy sampleConfig (starvedEnv t (x.reported 1000)) 4242 t 1000 x ∧
    ∃ r ∈ x.refusals, r.here = r.space ∧ (4096 * r.asked : Int) ≤ sampleConfig.maxMemory := by
  have h1 : Rents (2 * sampleConfig.maxMemory) (Tenant.initial 1000 500) ⟨32700, 500, 500, []⟩ := .maps (.start _) 31700 (by unfold Fits; decide)
  have h2 : Rents (2 * sampleConfig.maxMemory) (Tenant.initial 1000 500) ⟨32700, 32700, 32700, []⟩ := .uses h1 32700 (Nat.le_refl _)
  have h3 : Rents (2 * sampleConfig.maxMemory) (Tenant.initial 1000 500) ⟨32700, 32700, 32700, [⟨32700, 32700, 100⟩]⟩ := .refused h2 100 (by unfold Fits; decide)
  have hv : t.Valid ∧ ∀ core, t ≠ .signaled 10 core := by
    simp only [List.mem_cons, List.not_mem_nil, or_false] at ht
    rcases ht with rfl | rfl
    · exact ⟨by decide, by simp⟩
    · exact ⟨by decide, by simp⟩
  exact ⟨_, starved_tenancy t hv.1 hv.2 _ h3, _, List.mem_singleton.2 rfl, rfl, by decide⟩

end Judger
