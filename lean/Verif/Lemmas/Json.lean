import Verif.Spec.Json
import Verif.Model.Main

/-! # The decimal text of an integer read as JSON; the printed result -/

set_option autoImplicit false

namespace Judger

open Spec.Json

theorem digit_digitChar (d : Nat) (h : d < 10) : digit (digitChar d) = some d := by
  have : ∀ d : Fin 10, digit (digitChar d) = some d.val := by decide
  exact this ⟨d, h⟩

theorem digits_append (a b : CStr) (acc : Nat) : digits acc (a ++ b) = (digits acc a).bind fun v => digits v b := by
  induction a generalizing acc with
  | nil => rfl
  | cons c r ih =>
    simp only [List.cons_append, digits]
    cases digit c with
    | none => rfl
    | some d => exact ih _

theorem showNat_small {n : Nat} (h : n < 10) : showNat n = [digitChar n] := by rw [showNat, if_pos h]

theorem showNat_big {n : Nat} (h : ¬n < 10) : showNat n = showNat (n / 10) ++ [digitChar (n % 10)] := by rw [showNat, if_neg h]

theorem digits_showNat (n : Nat) : digits 0 (showNat n) = some n := by
  induction n using Nat.strongRecOn with
  | ind n ih =>
    by_cases h : n < 10
    · rw [showNat_small h]
      simp [digits, digit_digitChar n h]
    · rw [showNat_big h, digits_append, ih (n / 10) (by omega)]
      simp only [Option.bind_some, digits, digit_digitChar (n % 10) (by omega), Option.some.injEq]
      omega

theorem showNat_ne_nil (n : Nat) : showNat n ≠ [] := by
  by_cases h : n < 10
  · rw [showNat_small h]; simp
  · rw [showNat_big h]; simp

/-- A positive number does not start with '0'. -/
theorem showNat_head (n : Nat) (hn : 0 < n) : (showNat n).head? ≠ some '0' := by
  induction n using Nat.strongRecOn with
  | ind n ih =>
    by_cases h : n < 10
    · rw [showNat_small h]
      have : ∀ d : Fin 10, 0 < d.val → ([digitChar d].head? ≠ some '0') := by decide
      exact this ⟨n, h⟩ hn
    · rw [showNat_big h]
      have h1 := ih (n / 10) (by omega) (by omega)
      have h2 := showNat_ne_nil (n / 10)
      cases hs : showNat (n / 10) with
      | nil => exact absurd hs h2
      | cons c r => rw [hs] at h1; exact h1

theorem jsonNat_showNat (n : Nat) : jsonNat (showNat n) = some n := by
  unfold jsonNat
  rw [if_neg, digits_showNat]
  rintro (h | ⟨h1, h2⟩)
  · exact showNat_ne_nil n h
  · by_cases hn : 0 < n
    · exact showNat_head n hn h1
    · have : n = 0 := by omega
      subst this
      exact h2 (by rw [showNat_small (by omega)]; rfl)

/-- All the characters are digits. -/
theorem showNat_digits (n : Nat) : ∀ c ∈ showNat n, (digit c).isSome = true := by
  induction n using Nat.strongRecOn with
  | ind n ih =>
    by_cases h : n < 10
    · rw [showNat_small h]
      intro c hc
      simp at hc
      rw [hc, digit_digitChar n h]; rfl
    · rw [showNat_big h]
      intro c hc
      simp only [List.mem_append, List.mem_singleton] at hc
      rcases hc with hc | hc
      · exact ih _ (by omega) c hc
      · rw [hc, digit_digitChar _ (by omega)]; rfl

theorem jsonInt_showInt (x : Int) : jsonInt (showInt x) = some x := by
  unfold showInt jsonInt
  by_cases h : x < 0
  · simp only [h, if_true, List.head?_cons, List.tail_cons, jsonNat_showNat]
    show some (-(x.natAbs : Int)) = some x
    congr 1; omega
  · simp only [h, if_false]
    rw [if_neg]
    · rw [jsonNat_showNat]
      show some (x.natAbs : Int) = some x
      congr 1; omega
    · intro hh
      have hd := showNat_digits x.natAbs
      cases hs : showNat x.natAbs with
      | nil => exact showNat_ne_nil _ hs
      | cons c r =>
        rw [hs] at hh hd
        simp at hh
        have := hd c (by simp)
        rw [hh] at this
        exact absurd this (by decide)

/-- Digits stay in the number. -/
theorem lex_digits (ds : CStr) (h : ∀ c ∈ ds, (digit c).isSome = true) (acc rest : CStr) :
    lex (.inNum acc) (ds ++ rest) = lex (.inNum (acc ++ ds)) rest := by
  induction ds generalizing acc with
  | nil => simp
  | cons c r ih =>
    have hc := h c (by simp)
    rw [List.cons_append, lex, if_pos hc, ih (fun c hc => h c (by simp [hc]))]
    simp

theorem start_digit {c : Char} (h : (digit c).isSome = true) : start c = some ([], .inNum [c]) := by
  unfold digit at h
  split at h <;> first | rfl | simp at h

/-- A number is one token. -/
theorem lex_showInt (x : Int) (c : Char) (rest : CStr) (hc : (digit c).isSome = false) (ts : List Tok) (st : LexState)
    (hs : start c = some (ts, st)) :
    lex .idle (showInt x ++ c :: rest) = (lex st rest).map (.num x :: ts ++ ·) := by
  have hj := jsonInt_showInt x
  have fin : lex (.inNum (showInt x)) (c :: rest) = (lex st rest).map (.num x :: ts ++ ·) := by
    rw [lex, if_neg (by simp [hc]), hj, hs]
  unfold showInt at *
  by_cases h : x < 0
  · simp only [h, if_true] at *
    rw [List.cons_append, lex]
    have : start '-' = some ([], .inNum ['-']) := rfl
    rw [this]
    simp only [List.nil_append, Option.map_id']
    rw [lex_digits _ (showNat_digits _)]
    exact fin
  · simp only [h, if_false] at *
    have hd := showNat_digits x.natAbs
    cases hn : showNat x.natAbs with
    | nil => exact absurd hn (showNat_ne_nil _)
    | cons d r =>
      rw [hn] at fin hd
      rw [List.cons_append, lex, start_digit (hd d (by simp))]
      simp only [List.nil_append, Option.map_id']
      rw [lex_digits r (fun c hc => hd c (by simp [hc]))]
      exact fin

end Judger
