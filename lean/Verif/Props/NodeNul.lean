import Verif.Props.NodeCall
import Verif.Spec.Pieces

/-!
# C62 for output with NUL bytes
-/

set_option autoImplicit false

namespace Judger

open Judger.Spec Judger.Spec.Node Judger.Spec.Pieces Judger.Node Judger.Report

theorem upToNul_eq (s : CStr) : s.takeWhile (· ≠ '\x00') = upToNul s := by
  induction s with
  | nil => rfl
  | cons c s ih =>
    rw [upToNul, List.takeWhile_cons]
    by_cases h : c = '\x00'
    · simp [h]
    · simp [h, ← ih]

theorem upToNul_noNul {s : CStr} (h : '\x00' ∉ s) : upToNul s = s := by rw [← upToNul_eq, takeWhile_noNul h]

theorem upToNul_nul {s : CStr} (h : '\x00' ∈ s) (t : CStr) : upToNul (s ++ t) = upToNul s := by
  induction s with
  | nil => simp at h
  | cons c s ih =>
    rw [List.cons_append, upToNul, upToNul]
    split
    · rfl
    · rename_i hc
      rw [ih]
      rcases List.mem_cons.1 h with h | h
      · exact absurd h.symm hc
      · exact h

theorem upToNul_sub (s : CStr) : ∀ c ∈ upToNul s, c ∈ s := by
  intro c hc
  rw [← upToNul_eq] at hc
  exact List.takeWhile_subset _ hc

theorem upToNul_length (s : CStr) : (upToNul s).length ≤ s.length := by
  rw [← upToNul_eq]
  exact (List.takeWhile_sublist _).length_le

/-- All of a text in pieces, the last perhaps unfinished. -/
def shownFrom (cur s : CStr) : CStr := (closed cur s).flatMap upToNul ++ upToNul (rest cur s)

theorem shownFrom_cons (cur : CStr) (c : Char) (r : CStr) : shownFrom cur (c :: r) =
    if c = '\n' ∨ cur.length = 253 then upToNul (cur ++ [c]) ++ shownFrom [] r else shownFrom (cur ++ [c]) r := by
  unfold shownFrom
  rw [closed, rest]
  split <;> simp

theorem shownFrom_nil (s : CStr) : shownFrom [] s = shown s := rfl

/-- One `fgets` is one piece. -/
theorem shownFrom_fgets (n : Nat) (cur : CStr) (c : Char) (s : CStr) (h : cur.length + (n + 1) = 254) :
    shownFrom cur (c :: s) = upToNul (cur ++ (fgets (n + 1) (c :: s)).1) ++ shown (fgets (n + 1) (c :: s)).2 := by
  induction n generalizing cur c s with
  | zero =>
    rw [shownFrom_cons, if_pos (Or.inr (by omega))]
    simp only [fgets]
    split <;> rfl
  | succ n ih =>
    rw [shownFrom_cons, fgets]
    by_cases hc : c = '\n'
    · rw [if_pos (Or.inl hc), if_pos hc]; rfl
    · rw [if_neg (by intro hx; rcases hx with hx | hx; exact hc hx; omega), if_neg hc]
      cases s with
      | nil => simp [shownFrom, closed, rest, fgets, shown, upToNul]
      | cons d s =>
        rw [ih (cur ++ [c]) d s (by simp; omega)]
        simp

theorem readResult_shown (k : Nat) (s : CStr) (hk : s.length ≤ k) : readResult k s = shown s := by
  induction k generalizing s with
  | zero =>
    have : s = [] := List.length_eq_zero_iff.mp (by omega)
    rw [this]; rfl
  | succ k ih =>
    cases s with
    | nil => rfl
    | cons c s =>
      have hlen : (fgets 254 (c :: s)).2.length ≤ s.length := fgets_progress 253 c s
      simp only [readResult]
      rw [upToNul_eq, ih _ (by simp at hk; omega), ← shownFrom_nil (c :: s), shownFrom_fgets 253 [] c s rfl]
      rfl

theorem shownFrom_append (cur a b : CStr) :
    shownFrom cur (a ++ b) = (closed cur a).flatMap upToNul ++ shownFrom (rest cur a) b := by
  induction a generalizing cur with
  | nil => simp [closed, rest]
  | cons c a ih =>
    rw [List.cons_append, shownFrom_cons, closed, rest]
    split
    · rw [ih]; simp
    · rw [ih]

theorem shownFrom_noNul (cur s : CStr) (h0 : '\x00' ∉ cur) (h1 : '\x00' ∉ s) : shownFrom cur s = cur ++ s := by
  induction s generalizing cur with
  | nil => simp [shownFrom, closed, rest, upToNul_noNul h0]
  | cons c s ih =>
    have hc : '\x00' ≠ c := fun h => h1 (List.mem_cons.2 (Or.inl h))
    have hs : '\x00' ∉ s := fun h => h1 (by simp [h])
    have h2 : '\x00' ∉ cur ++ [c] := by simp [h0, hc]
    rw [shownFrom_cons]
    split
    · rw [ih [] (by simp) hs, upToNul_noNul h2]; simp
    · rw [ih _ h2 hs]; simp

theorem shownFrom_sub (cur s : CStr) : ∀ c ∈ shownFrom cur s, c ∈ upToNul cur ∨ c ∈ cur ++ s := by
  induction s generalizing cur with
  | nil =>
    intro c hc
    simp [shownFrom, closed, rest] at hc
    exact Or.inl hc
  | cons d s ih =>
    intro c hc
    rw [shownFrom_cons] at hc
    refine Or.inr ?_
    split at hc
    · rcases List.mem_append.1 hc with h | h
      · have := upToNul_sub _ _ h
        simp at this ⊢
        rcases this with h | h <;> simp [h]
      · rcases ih _ _ h with h | h
        · simp [upToNul] at h
        · simp at h ⊢; simp [h]
    · rcases ih _ _ hc with h | h
      · have := upToNul_sub _ _ h
        simp at this ⊢
        rcases this with h | h <;> simp [h]
      · simpa using h

theorem shownFrom_nul (cur s : CStr) (h0 : '\x00' ∈ cur) : ∀ c ∈ shownFrom cur s, c ∈ upToNul cur ∨ c ∈ s := by
  induction s generalizing cur with
  | nil =>
    intro c hc
    simp [shownFrom, closed, rest] at hc
    exact Or.inl hc
  | cons d s ih =>
    intro c hc
    rw [shownFrom_cons] at hc
    split at hc
    · rw [upToNul_nul h0] at hc
      rcases List.mem_append.1 hc with h | h
      · exact Or.inl h
      · rcases shownFrom_sub _ _ _ h with h | h
        · simp [upToNul] at h
        · simp at h; exact Or.inr (by simp [h])
    · rcases ih _ (by simp [h0]) _ hc with h | h
      · rw [upToNul_nul h0] at h; exact Or.inl h
      · exact Or.inr (by simp [h])

theorem shownFrom_length (cur s : CStr) : (shownFrom cur s).length ≤ cur.length + s.length := by
  induction s generalizing cur with
  | nil =>
    have := upToNul_length cur
    simpa [shownFrom, closed, rest] using this
  | cons d s ih =>
    rw [shownFrom_cons]
    split
    · have h1 := upToNul_length (cur ++ [d])
      have h2 := ih []
      simp at h1 h2 ⊢
      omega
    · have := ih (cur ++ [d])
      simp at this ⊢
      omega

theorem handed_found {pr0 : CStr} {r : Result} {text : CStr} (h : readResult text.length text = pr0 ++ resultText r)
    (hl : ((pr0 ++ resultText r).length : Int) ≤ INT_MAX) : Node.handed text = some (pr0, resultText r) := by
  obtain ⟨t, ht, hnt⟩ := resultText_split r
  have hcast : castInt ((pr0 ++ resultText r).length : Int) = ((pr0 ++ resultText r).length : Int) :=
    castInt_id _ ⟨by unfold INT_MIN; omega, hl⟩
  have hbrace : lastBrace (pr0 ++ resultText r) (pr0 ++ resultText r).length = pr0.length := by
    rw [lastBrace_none (pr0.length + 1)]
    · rw [lastBrace, if_pos]
      rw [ht, List.getElem?_append_right (Nat.le_refl _)]
      simp
    · intro i h1 h2 hc
      rw [List.getElem?_append_right (by omega), ht] at hc
      have : i - pr0.length = (i - pr0.length - 1) + 1 := by omega
      rw [this, List.getElem?_cons_succ] at hc
      exact hnt (List.mem_of_getElem? hc)
    · rw [ht]; simp
  simp only [Node.handed, h, hcast, Int.toNat_natCast, hbrace]
  rw [if_neg (by omega), if_neg (by omega), List.drop_left]
  by_cases ho : pr0 = []
  · simp [ho]
  · have : ((pr0.length : Int) ≠ 0) := by
      have := List.length_pos_iff.mpr ho
      omega
    rw [if_pos this, List.take_left]

/-- C62, the part that holds for output with NUL bytes: if there is no NUL after the last piece that ends in the output, the result is found;
what is printed is the output without the ends of the pieces that have a NUL.  Missing: a NUL in the rest (`C62_nul_lost`), 2 GiB and more
(`C62_too_long`). -/
theorem C62_nul_partial (out : CStr) (r : Result) (h0 : '\x00' ∉ rest [] out) (hl : ((out ++ resultText r).length : Int) ≤ INT_MAX) :
    Node.finish (out ++ resultText r) =
      .returns (shown out) (.ofInts [(c!"cpu_time", r.cpuTime), (c!"real_time", r.realTime), (c!"memory", r.memory),
        (c!"signal", r.signal), (c!"exit_code", r.exitCode), (c!"error", r.error), (c!"result", r.result)]) := by
  have hpr : readResult (out ++ resultText r).length (out ++ resultText r) = shown out ++ resultText r := by
    rw [readResult_shown _ _ (Nat.le_refl _), ← shownFrom_nil, shownFrom_append, shownFrom_noNul _ _ h0 (resultText_noNul r), shown,
      upToNul_noNul h0, List.append_assoc]
  have hlen : (shown out).length ≤ out.length := by
    have := shownFrom_length [] out
    simpa [shownFrom_nil] using this
  refine finish_some (handed_found hpr ?_) (C58_parse _ r)
  simp only [List.length_append] at hl ⊢
  omega

/-- C62, how the rest fails: a NUL after the last piece that ends in an output without '{' makes the binding read before its buffer. -/
theorem C62_nul_lost (out : CStr) (r : Result) (h0 : '\x00' ∈ rest [] out) (hb : '{' ∉ out) : Node.finish (out ++ resultText r) = .ub := by
  obtain ⟨t, ht, hnt⟩ := resultText_split r
  have hsub : ∀ c ∈ shown out, c ∈ out := by
    intro c hc
    rcases shownFrom_sub [] out c hc with h | h
    · simp [upToNul] at h
    · simpa using h
  have hno : '{' ∉ readResult (out ++ resultText r).length (out ++ resultText r) := by
    rw [readResult_shown _ _ (Nat.le_refl _), ← shownFrom_nil, shownFrom_append, ht]
    intro hc
    rcases List.mem_append.1 hc with h | h
    · exact hb (hsub _ (by rw [shown]; exact List.mem_append_left _ h))
    · rw [shownFrom_cons] at h
      have hu : '{' ∉ upToNul (rest [] out ++ ['{']) := by
        rw [upToNul_nul h0]
        intro hx
        exact hb (hsub _ (by rw [shown]; exact List.mem_append_right _ hx))
      split at h
      · rcases List.mem_append.1 h with h | h
        · exact hu h
        · rcases shownFrom_sub _ _ _ h with h | h
          · simp [upToNul] at h
          · exact hnt (by simpa using h)
      · rcases shownFrom_nul _ _ (by simp [h0]) _ h with h | h
        · exact hu h
        · exact hnt h
  suffices hh : Node.handed (out ++ resultText r) = none from finish_none hh
  unfold Node.handed
  simp only
  have hn : ∀ k, lastBrace (readResult (out ++ resultText r).length (out ++ resultText r)) k = -1 := by
    intro k
    rw [lastBrace_none 0 _ (Nat.zero_le _)]
    · rfl
    · intro i _ _ hc
      exact hno (List.mem_of_getElem? hc)
  split
  · rfl
  · rw [hn, if_pos (by decide)]

/-- The two together: for less than 2 GiB without '{', exactly a NUL in the rest loses the result. -/
theorem C62_nul_exact (out : CStr) (r : Result) (hb : '{' ∉ out) (hl : ((out ++ resultText r).length : Int) ≤ INT_MAX) :
    Node.finish (out ++ resultText r) = .ub ↔ '\x00' ∈ rest [] out := by
  refine ⟨fun h => ?_, fun h => C62_nul_lost out r h hb⟩
  by_cases h0 : '\x00' ∈ rest [] out
  · exact h0
  · rw [C62_nul_partial out r h0 hl] at h
    cases h

/-- A NUL in a line that has ended costs the end of that line and nothing else. -/
example : Node.finish (c!"a\x00b\nc" ++ resultText ⟨1, 2, 3, 0, 0, 0, 0⟩) = .returns c!"ac"
    (.ofInts [(c!"cpu_time", 1), (c!"real_time", 2), (c!"memory", 3), (c!"signal", 0), (c!"exit_code", 0), (c!"error", 0), (c!"result", 0)]) := by
  refine C62_nul_partial c!"a\x00b\nc" _ (by decide) ?_
  have : resultText ⟨1, 2, 3, 0, 0, 0, 0⟩ = c!"{\n    \"cpu_time\": 1,\n    \"real_time\": 2,\n    \"memory\": 3,\n    \"signal\": 0,\n    \"exit_code\": 0,\n    \"error\": 0,\n    \"result\": 0\n}" := by
    simp [resultText, showInt, showNat, digitChar]
  rw [this]
  decide +kernel

/-- A NUL in an unfinished line of fewer than 254 characters loses the result. -/
example (r : Result) : Node.finish (c!"a\nb\x00c" ++ resultText r) = .ub := C62_nul_lost _ r (by decide) (by decide)

/-- 254 characters without a newline are a piece: a NUL among them does no harm. -/
example : '\x00' ∉ rest [] ('\x00' :: List.replicate 253 'a') := by decide +kernel

end Judger
