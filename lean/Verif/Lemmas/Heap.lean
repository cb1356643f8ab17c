import Verif.Spec.Heap

/-! # Running sequences of memory accesses -/

set_option autoImplicit false

namespace Judger

open Spec

/-- What lies where in which block. -/
def Layout := Nat → Nat → Option Nat

/-- The cells of a layout do not overlap. -/
def Layout.Apart (L : Layout) : Prop := ∀ b o n o' n', L b o = some n → L b o' = some n' → (o = o' ∧ n = n') ∨ o + n ≤ o' ∨ o' + n' ≤ o

/-- What has been written is where it belongs. -/
def InPlace (L : Layout) (h : Heap) : Prop := ∀ c ∈ h.cells, L c.1 c.2.1 = some c.2.2

/-- The access can be made now. -/
def Fits (L : Layout) (h : Heap) : MemEv → Prop
  | .write b off n => L b off = some n ∧ ∃ s, h.size b = some s ∧ off + n ≤ s ∧ aligned off n = true
  | .read b off n => (h.size b).isSome ∧ (b, off, n) ∈ h.cells
  | _ => False

/-- These steps lead from one heap to the other, neither allocating nor freeing. -/
structure Leads (L : Layout) (h : Heap) (es : List MemEv) (h' : Heap) : Prop where
  run : h.run es = some h'
  live : h'.live = h.live
  mono : ∀ c ∈ h.cells, c ∈ h'.cells
  writes : ∀ b o n, MemEv.write b o n ∈ es → (b, o, n) ∈ h'.cells
  place : InPlace L h → InPlace L h'

theorem Leads.size {L : Layout} {h h' : Heap} {es : List MemEv} (a : Leads L h es h') (b : Nat) : h'.size b = h.size b := by
  unfold Heap.size; rw [a.live]

theorem Fits.mono {L : Layout} {h h' : Heap} {e : MemEv} (hf : Fits L h e) (hs : ∀ b, h'.size b = h.size b) (hc : ∀ c ∈ h.cells, c ∈ h'.cells) : Fits L h' e := by
  cases e with
  | alloc b n => exact hf
  | free b => exact hf
  | write b o n => exact ⟨hf.1, hf.2.choose, by rw [hs]; exact hf.2.choose_spec.1, hf.2.choose_spec.2⟩
  | read b o n => exact ⟨by rw [hs]; exact hf.1, hc _ hf.2⟩

theorem run_append (h : Heap) (a b : List MemEv) : h.run (a ++ b) = (h.run a).bind (·.run b) := by
  induction a generalizing h with
  | nil => rfl
  | cons e a ih =>
    simp only [List.cons_append, Heap.run]
    cases h.step e with
    | none => rfl
    | some h' => exact ih h'

theorem Leads.nil {L : Layout} (h : Heap) : Leads L h [] h := ⟨rfl, rfl, fun _ hc => hc, (fun _ _ _ hw => by cases hw), fun hp => hp⟩

theorem Leads.append {L : Layout} {h h' h'' : Heap} {a b : List MemEv} (x : Leads L h a h') (y : Leads L h' b h'') : Leads L h (a ++ b) h'' where
  run := by rw [run_append, x.run]; exact y.run
  live := y.live.trans x.live
  mono := fun c hc => y.mono c (x.mono c hc)
  writes := fun b' o n hw => by
    rcases List.mem_append.1 hw with hw | hw
    · exact y.mono _ (x.writes _ _ _ hw)
    · exact y.writes _ _ _ hw
  place := fun hp => y.place (x.place hp)

theorem run_fits {L : Layout} (ha : L.Apart) (es : List MemEv) (h : Heap) (hp : InPlace L h) (hf : ∀ e ∈ es, Fits L h e) : ∃ h', Leads L h es h' := by
  induction es generalizing h with
  | nil => exact ⟨h, .nil h⟩
  | cons e es ih =>
    have h1 := hf e List.mem_cons_self
    have h2 : ∃ h1, Leads L h [e] h1 := by
      cases e with
      | alloc b n => exact h1.elim
      | free b => exact h1.elim
      | write b o n =>
        obtain ⟨hL, s, hs, hb⟩ := h1
        refine ⟨⟨h.live, (b, o, n) :: h.cells.filter (fun c => !overlaps c (b, o, n))⟩, ?_, rfl, ?_, ?_, ?_⟩
        · simp only [Heap.run, Heap.step, hs, if_pos hb]
        · intro c hc
          by_cases hv : overlaps c (b, o, n) = true
          · obtain ⟨b', o', n'⟩ := c
            simp only [overlaps, Bool.and_eq_true, decide_eq_true_eq] at hv
            obtain ⟨⟨h1, h2⟩, h3⟩ := hv
            subst h1
            have h4 := hp _ hc
            rcases ha _ _ _ _ _ h4 hL with ⟨h5, h6⟩ | h5 | h5
            · simp only at h5 h6
              subst h5 h6
              exact List.mem_cons_self
            · simp only at h5; omega
            · simp only at h5; omega
          · exact List.mem_cons_of_mem _ (List.mem_filter.2 ⟨hc, by simpa using hv⟩)
        · intro b' o' n' hw
          cases List.mem_singleton.1 hw
          exact List.mem_cons_self
        · intro _ c hc
          rcases List.mem_cons.1 hc with rfl | hc
          · exact hL
          · exact hp c (List.mem_filter.1 hc).1
      | read b o n =>
        refine ⟨h, ?_, rfl, fun c hc => hc, (fun b' o' n' hw => by cases List.mem_singleton.1 hw), fun hp => hp⟩
        simp only [Heap.run, Heap.step]
        rw [if_pos (show (h.size b).isSome = true ∧ (b, o, n) ∈ h.cells from h1)]
    obtain ⟨h1, a1⟩ := h2
    obtain ⟨h', a2⟩ := ih h1 (a1.place hp) fun x hx => (hf x (List.mem_cons_of_mem _ hx)).mono a1.size a1.mono
    exact ⟨h', a1.append a2⟩

/-- A block is allocated and written to. -/
theorem run_alloc {L : Layout} (ha : L.Apart) {h : Heap} (hp : InPlace L h) {b n : Nat} {es : List MemEv} (hb : h.size b = none)
    (he : ∀ e ∈ es, ∃ o k, e = .write b o k ∧ o + k ≤ n ∧ aligned o k = true ∧ L b o = some k) :
    ∃ h', h.run (.alloc b n :: es) = some h' ∧ h'.live = (b, n) :: h.live ∧ (∀ c ∈ h.cells, c.1 ≠ b → c ∈ h'.cells) ∧
      (∀ o k, MemEv.write b o k ∈ es → (b, o, k) ∈ h'.cells) ∧ InPlace L h' := by
  have hf : ∀ e ∈ es, Fits L ⟨(b, n) :: h.live, h.cells.filter (fun c => c.1 ≠ b)⟩ e := fun e hm => by
    obtain ⟨o, k, rfl, h1, h2, h3⟩ := he e hm
    exact ⟨h3, n, by simp [Heap.size, List.lookup], h1, h2⟩
  have hp' : InPlace L ⟨(b, n) :: h.live, h.cells.filter (fun c => c.1 ≠ b)⟩ := fun c hc => hp c (List.mem_filter.1 hc).1
  obtain ⟨h', a⟩ := run_fits ha es _ hp' hf
  refine ⟨h', ?_, a.live, ?_, a.writes b, a.place hp'⟩
  · have : h.step (.alloc b n) = some ⟨(b, n) :: h.live, h.cells.filter (fun c => c.1 ≠ b)⟩ := by
      simp only [Heap.step, hb, Option.isNone_none, if_true]
    simp only [Heap.run, this]
    exact a.run
  · intro c hc hn
    exact a.mono _ (List.mem_filter.2 ⟨hc, by simpa using hn⟩)

end Judger
