import Verif.Props.Logger

/-! # Exactly which processes keep each other's log entries whole (C45) -/

set_option autoImplicit false

namespace Judger

open Spec

/-- Two processes with one description mix their entries, although no `write` fails. -/
theorem LogShared.mix (ofd : Nat → Nat) (i j : Nat) (hne : i ≠ j) (ho : ofd i = ofd j) :
    ∃ w, LogReach ofd [] w ∧ w.faulty = false ∧ w.lock = none ∧ w.file = c!"acd\nb\n" ∧ w.finished = [c!"cd\n", c!"ab\n"] := by
  have hji : ¬ j = i := fun h => hne h.symm
  have s1 := (LogReach.init (ofd := ofd) (file := [])).step (.call _ i c!"ab\n" rfl)
  have s2 := s1.step (.call _ j c!"cd\n" (by simp [LogWorld.setPc, LogWorld.init]; exact fun h => absurd h hji))
  have s3 := s2.step (.lock _ i c!"ab\n" (by simp [LogWorld.setPc, hne]) (.inl rfl))
  have s4 := s3.step (.lock _ j c!"cd\n" (by simp [LogWorld.setPc, hji]) (.inr (by simp [ho])))
  have s5 := s4.step (.piece _ i c!"ab\n" c!"ab\n" 1 (by simp [LogWorld.setPc, hne]))
  have s6 := s5.step (.piece _ j c!"cd\n" c!"cd\n" 3 (by simp [LogWorld.setPc, hji]))
  have s7 := s6.step (.piece _ i c!"ab\n" c!"b\n" 2 (by simp [LogWorld.setPc, hne]))
  have s8 := s7.step (.writeDone _ j c!"cd\n" (by simp [LogWorld.setPc, hji]))
  have s9 := s8.step (.writeDone _ i c!"ab\n" (by simp [LogWorld.setPc, hne]))
  have s10 := s9.step (.unlock _ i (by simp [LogWorld.setPc]))
  exact ⟨_, s10, rfl, rfl, rfl, rfl⟩

/-- **C45**, settled for writes that neither fail nor fall short: the entries stay whole in every schedule exactly if no two processes share a
description. -/
theorem C45_exact (ofd : Nat → Nat) :
    (∀ (old : List Char) (w : LogWorld), LogReach ofd old w → w.faulty = false → WholeEntries old w) ↔ ∀ i j, ofd i = ofd j → i = j := by
  constructor
  · intro H i j ho
    refine Decidable.byContradiction fun hne => ?_
    obtain ⟨w, h1, h2, h3, h4, h5⟩ := LogShared.mix ofd i j hne ho
    have := (H [] w h1 h2).1 h3
    rw [h4, h5] at this
    revert this
    decide
  · intro hinj old w h hf
    exact C45_whole_entries_partial ofd hinj old w h hf

/-- Non-vacuous: processes that opened the log themselves, and a child that shares it. -/
example : (∀ i j, id i = id j → i = (j : Nat)) ∧ ¬∀ i j : Nat, (fun _ => 0 : Nat → Nat) i = (fun _ => 0) j → i = j :=
  ⟨fun _ _ h => h, fun h => by have := h 0 1 rfl; cases this⟩

end Judger
