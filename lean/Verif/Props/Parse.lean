import Verif.Lemmas.GetoptSafe

/-!
# C71: reordering the argument vector

The theorems hold for every argument vector, every option table, with and without POSIXLY_CORRECT, and for every number of calls of
getopt, also on command lines whose parse never ends.
-/

set_option autoImplicit false

namespace Judger

/-- The state of `arg_parse_tagged` after `n` calls of getopt; it stays where it is once getopt has returned -1. -/
def afterCalls (posix : Bool) (max : Nat) (table : List ArgEntry) (argv : List CStr) : Nat → PState
  | 0 => startState argv
  | n + 1 =>
    match taggedStep posix max table argv.length (afterCalls posix max table argv n) with
    | .inl p => p
    | .inr p => p

/-- What `arg_parse_tagged` ends with is one of these states. -/
theorem tagged_afterCalls {posix : Bool} {max : Nat} {table : List ArgEntry} {argv : List CStr} {p : PState} (fuel n : Nat)
    (h : tagged posix max table argv.length fuel (afterCalls posix max table argv n) = some p) :
    ∃ m, p = afterCalls posix max table argv m := by
  induction fuel generalizing n with
  | zero => simp [tagged] at h
  | succ fuel ih =>
    rw [tagged] at h
    split at h
    · rename_i p' hs
      refine ih (n + 1) ?_
      rw [afterCalls, hs]
      exact h
    · rename_i p' hs
      refine ⟨n + 1, ?_⟩
      rw [afterCalls, hs]
      simp only [Option.some.injEq] at h
      exact h.symm

theorem taggedStep_g {posix : Bool} {max : Nat} {table : List ArgEntry} {argc : Nat} {p p' : PState}
    (h : taggedStep posix max table argc p = .inl p' ∨ taggedStep posix max table argc p = .inr p') :
    p'.g = (getoptLong posix argc (shortOptions table) (longOptions table 0) p.g).2 := by
  unfold taggedStep at h
  simp only at h
  split at h
  · rename_i heq
    rcases h with h | h
    · cases h; exact handle_g heq
    · simp at h
  · rcases h with h | h
    · simp at h
    · cases h; rfl

theorem afterCalls_safe (posix : Bool) (max : Nat) (table : List ArgEntry) {argv : List CStr} (ha : argv ≠ []) (n : Nat) :
    Safe argv (beginCall (afterCalls posix max table argv n).g) ∧ Safe argv (afterCalls posix max table argv (n + 1)).g := by
  have key : ∀ n, Safe argv (beginCall (afterCalls posix max table argv n).g) →
      Safe argv (afterCalls posix max table argv (n + 1)).g := by
    intro n h
    have h2 := getoptLong_safe (posix := posix) (opts := shortOptions table) (L := longOptions table 0) h
    rw [afterCalls]
    split
    · rename_i p hs
      rw [taggedStep_g (.inl hs)]; exact h2
    · rename_i p hs
      rw [taggedStep_g (.inr hs)]; exact h2
  induction n with
  | zero => exact ⟨beginCall_start ha, key 0 (beginCall_start ha)⟩
  | succ n ih => exact ⟨beginCall_safe ih.2, key _ (beginCall_safe ih.2)⟩

/-- C71.  However many calls of getopt have been made, `permute_args` has neither divided by zero nor accessed anything outside the
argument vector, the vector holds the given words, each as often as it was given, and `argv[optind - 1]`, which the
error paths read, is inside it. -/
theorem C71_parsing_stays_inside_argv (posix : Bool) (max : Nat) (table : List ArgEntry) (argv : List CStr) (ha : argv ≠ []) (n : Nat) :
    (afterCalls posix max table argv n).g.fault = false ∧ (afterCalls posix max table argv n).g.argv.Perm argv ∧
      (0 < n → 0 < (afterCalls posix max table argv n).g.optind ∧
        (afterCalls posix max table argv n).g.optind ≤ (afterCalls posix max table argv n).g.argv.length) := by
  cases n with
  | zero => exact ⟨rfl, List.Perm.refl _, fun h => absurd h (by omega)⟩
  | succ n =>
    have h := (afterCalls_safe posix max table ha n).2
    exact ⟨h.ok, h.perm, fun _ => ⟨Nat.pos_of_ne_zero h.low, by rw [h.perm.length_eq]; exact h.high⟩⟩

/-- C71, one call: the two blocks are exchanged and each keeps its order. -/
theorem C71_blocks_exchanged (before nonopts opts after : List CStr) (h : opts ≠ []) :
    permuteArgs before.length (before.length + nonopts.length) (before.length + nonopts.length + opts.length)
        (before ++ nonopts ++ opts ++ after) = some (before ++ opts ++ nonopts ++ after) := by
  have := permuteArgs_blocks before nonopts opts after h
  simpa using this

/-- The call that would go wrong: no word between the two ends of the second block. -/
example : permuteArgs 1 2 2 [c!"judger", c!"x"] = none := by decide +kernel

/-- Six positional words and four options: two cycles of five rounds each. -/
example : permuteArgs 1 7 11 (c!"j" :: ([c!"1", c!"2", c!"3", c!"4", c!"5", c!"6"] ++ [c!"a", c!"b", c!"c", c!"d"])) =
    some (c!"j" :: ([c!"a", c!"b", c!"c", c!"d"] ++ [c!"1", c!"2", c!"3", c!"4", c!"5", c!"6"])) := by decide +kernel

/-- A command line on which getopt reorders, and one on which it never finishes. -/
example : (afterCalls false 20 [] [c!"judger", c!"x", c!"-y", c!"z"] 3).g.argv = [c!"judger", c!"-y", c!"x", c!"z"] := by
  decide +kernel

example : (afterCalls false 20 [] [c!"judger", c!"x", c!"-y-", c!"z"] 9).g.argv = [c!"judger", c!"x", c!"-y-", c!"z"] := by
  decide +kernel

end Judger
