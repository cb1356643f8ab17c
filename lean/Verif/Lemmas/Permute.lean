import Mathlib.Data.Int.GCD
import Verif.Model.Permute

/-!
# `permute_args` exchanges two adjacent blocks
-/

set_option autoImplicit false

namespace Judger

theorem cGcd_eq (a b : Nat) (hb : b ≠ 0) : cGcd a b = some (Nat.gcd a b) := by
  induction b using Nat.strongRecOn generalizing a with
  | ind b ih =>
    rw [cGcd, dif_neg hb]
    split
    · rename_i h
      rw [Nat.gcd_comm, Nat.gcd_eq_left (Nat.dvd_of_mod_eq_zero h)]
    · rename_i h
      rw [ih (a % b) (Nat.mod_lt _ (Nat.pos_of_ne_zero hb)) b h, Nat.gcd_comm b, ← Nat.gcd_rec, Nat.gcd_comm]

/-- The position after `t` rounds of cycle `i`, relative to the start of the first block (`a` and `b` are the block lengths). -/
def cpos (a b i t : Nat) : Nat := (a + i + t * b) % (a + b)

theorem cpos_succ (a b i t : Nat) (h : 0 < a + b) :
    cpos a b i (t + 1) = if cpos a b i t ≥ a then cpos a b i t - a else cpos a b i t + b := by
  have e : cpos a b i (t + 1) = (cpos a b i t + b) % (a + b) := by
    unfold cpos
    rw [Nat.mod_add_mod]; congr 1; rw [Nat.add_mul]; omega
  have hl : cpos a b i t < a + b := Nat.mod_lt _ h
  rw [e]
  split
  · rw [show cpos a b i t + b = (cpos a b i t - a) + (a + b) by omega, Nat.add_mod_right, Nat.mod_eq_of_lt (by omega)]
  · rw [Nat.mod_eq_of_lt (by omega)]

section
variable {a b : Nat} (hb : 0 < b)
include hb

theorem gcd_facts : 0 < Nat.gcd a b ∧ Nat.gcd a b ∣ a ∧ Nat.gcd a b ∣ b ∧ Nat.gcd a b ∣ a + b ∧ Nat.gcd a b ≤ b ∧
    0 < (a + b) / Nat.gcd a b ∧ Nat.Coprime (b / Nat.gcd a b) ((a + b) / Nat.gcd a b) := by
  have h1 := Nat.gcd_dvd_left a b
  have h2 := Nat.gcd_dvd_right a b
  have h0 : 0 < Nat.gcd a b := Nat.gcd_pos_of_pos_right a hb
  have h3 : Nat.gcd a b ∣ a + b := Nat.dvd_add h1 h2
  refine ⟨h0, h1, h2, h3, Nat.le_of_dvd hb h2, Nat.div_pos (Nat.le_of_dvd (by omega) h3) h0, ?_⟩
  have e : Nat.gcd b (a + b) = Nat.gcd a b := by simp [Nat.gcd_comm]
  have := Nat.coprime_div_gcd_div_gcd (m := b) (n := a + b) (by rw [e]; exact h0)
  rwa [e] at this

/-- Two rounds at the same place are a multiple of the cycle length apart. -/
theorem cpos_eq_dvd {i t k : Nat} (h : cpos a b i (t + k) = cpos a b i t) : (a + b) / Nat.gcd a b ∣ k := by
  obtain ⟨h0, h1, h2, h3, _, _, hc⟩ := gcd_facts (a := a) hb
  unfold cpos at h
  have h4 : (a + b) ∣ k * b := by
    have h5 := Nat.sub_mod_eq_zero_of_mod_eq h
    rw [show a + i + (t + k) * b - (a + i + t * b) = k * b by rw [Nat.add_mul]; omega] at h5
    exact Nat.dvd_of_mod_eq_zero h5
  obtain ⟨c, hc1⟩ := h3
  obtain ⟨d, hd1⟩ := h2
  generalize hg : Nat.gcd a b = g at *
  have e1 : (a + b) / g = c := by rw [hc1]; exact Nat.mul_div_cancel_left c h0
  have e2 : b / g = d := by rw [hd1]; exact Nat.mul_div_cancel_left d h0
  rw [e1, e2] at hc
  rw [e1]
  rw [hc1] at h4
  have h4' : g * c ∣ g * (k * d) := by
    have : k * b = g * (k * d) := by rw [hd1]; rw [Nat.mul_left_comm]
    rwa [this] at h4
  have h6 := Nat.dvd_of_mul_dvd_mul_left h0 h4'
  exact Nat.Coprime.dvd_of_dvd_mul_right hc.symm h6

theorem cpos_inj {i t t' : Nat} (ht : t < (a + b) / Nat.gcd a b) (ht' : t' < (a + b) / Nat.gcd a b)
    (h : cpos a b i t = cpos a b i t') : t = t' := by
  rcases Nat.le_total t t' with hle | hle
  · obtain ⟨k, rfl⟩ := Nat.exists_eq_add_of_le hle
    have := Nat.eq_zero_of_dvd_of_lt (cpos_eq_dvd hb h.symm) (by omega)
    omega
  · obtain ⟨k, rfl⟩ := Nat.exists_eq_add_of_le hle
    have := Nat.eq_zero_of_dvd_of_lt (cpos_eq_dvd hb h) (by omega)
    omega

theorem cpos_wrap {i : Nat} (hi : i < Nat.gcd a b) : cpos a b i ((a + b) / Nat.gcd a b) = a + i := by
  obtain ⟨h0, h1, h2, h3, h4, _, _⟩ := gcd_facts (a := a) hb
  unfold cpos
  obtain ⟨d, hd⟩ := h2
  have : (a + b) / Nat.gcd a b * b = (a + b) * d := by
    conv => lhs; rhs; rw [hd]
    rw [← Nat.mul_assoc, Nat.div_mul_cancel h3]
  rw [this, Nat.add_mul_mod_self_left, Nat.mod_eq_of_lt (by omega)]

theorem cpos_zero {i : Nat} (hi : i < Nat.gcd a b) : cpos a b i 0 = a + i := by
  obtain ⟨_, _, _, _, h4, _, _⟩ := gcd_facts (a := a) hb
  unfold cpos
  rw [Nat.zero_mul, Nat.add_zero, Nat.mod_eq_of_lt (by omega)]

theorem cpos_class {i t : Nat} (hi : i < Nat.gcd a b) : cpos a b i t % Nat.gcd a b = i := by
  obtain ⟨h0, h1, h2, h3, h4, _, _⟩ := gcd_facts (a := a) hb
  unfold cpos
  rw [Nat.mod_mod_of_dvd _ h3]
  obtain ⟨c, hc⟩ := h1
  obtain ⟨d, hd⟩ := h2
  have : a + i + t * b = i + Nat.gcd a b * (c + t * d) := by
    have e1 : t * b = Nat.gcd a b * (t * d) := by conv => lhs; rw [hd]
                                                  rw [Nat.mul_left_comm]
    rw [Nat.mul_add, ← hc, ← e1]; omega
  rw [this, Nat.add_mul_mod_self_left, Nat.mod_eq_of_lt hi]

theorem cpos_surj {i x : Nat} (hx : x < a + b) (hi : x % Nat.gcd a b = i) :
    ∃ t, t < (a + b) / Nat.gcd a b ∧ cpos a b i t = x := by
  obtain ⟨h0, h1, h2, h3, h4, hL, hc⟩ := gcd_facts (a := a) hb
  -- x + b - i is a multiple of the gcd
  have hxi : i ≤ x := by rw [← hi]; exact Nat.mod_le _ _
  obtain ⟨q, hq⟩ : Nat.gcd a b ∣ x - i := by
    rw [← hi]; exact Nat.dvd_sub_mod x
  obtain ⟨d, hd⟩ := h2
  obtain ⟨n', hn⟩ := h3
  generalize hg : Nat.gcd a b = g at *
  have e1 : (a + b) / g = n' := by rw [hn]; exact Nat.mul_div_cancel_left _ h0
  have e2 : b / g = d := by conv => lhs; rw [hd]
                            exact Nat.mul_div_cancel_left _ h0
  rw [e1, e2] at hc
  rw [e1] at hL ⊢
  obtain ⟨t, ht, htm⟩ := Nat.exists_mul_mod_eq_of_coprime (q + d) hc (by omega)
  refine ⟨t, ht, ?_⟩
  unfold cpos
  -- g * (d * t) ≡ g * (q + d) mod g * n'
  have h5 : g * (d * t) % (g * n') = g * (q + d) % (g * n') := by
    rw [Nat.mul_mod_mul_left, Nat.mul_mod_mul_left, htm]
  have h6 : t * b = g * (d * t) := by
    conv => lhs; rw [hd]
    rw [Nat.mul_comm t, Nat.mul_assoc]
  have h7 : (a + i + t * b) % (a + b) = (a + i + g * (q + d)) % (a + b) := by
    rw [h6, hn]
    rw [Nat.add_mod, h5, ← Nat.add_mod]
  rw [h7, Nat.mul_add, ← hq, ← hd, show a + i + (x - i + b) = x + (a + b) by omega, Nat.add_mod_right,
    Nat.mod_eq_of_lt hx]

end

/-- The place a round comes from. -/
theorem cpos_pred {a b i t : Nat} (h : 0 < a + b) :
    cpos a b i t = if cpos a b i (t + 1) < b then cpos a b i (t + 1) + a else cpos a b i (t + 1) - b := by
  have h1 := cpos_succ a b i t h
  have h2 : cpos a b i t < a + b := Nat.mod_lt _ h
  split at h1 <;> split <;> omega

/-- After `j < cyclelen` rounds of cycle `i` on `V`: the start holds the word the next round puts down. -/
structure InCycle (s a b i : Nat) (V w : List CStr) (j : Nat) : Prop where
  len : w.length = V.length
  start : w[s + (a + i)]? = V[s + cpos a b i j]?
  moved : ∀ t, t < j → w[s + cpos a b i (t + 1)]? = V[s + cpos a b i t]?
  other : ∀ x, (∀ t, t ≤ j → x ≠ s + cpos a b i t) → w[x]? = V[x]?

/-- After a whole cycle. -/
structure CycleDone (s a b i : Nat) (V w : List CStr) : Prop where
  len : w.length = V.length
  moved : ∀ t, t < (a + b) / Nat.gcd a b → w[s + cpos a b i (t + 1)]? = V[s + cpos a b i t]?
  other : ∀ x, (∀ t, t < (a + b) / Nat.gcd a b → x ≠ s + cpos a b i t) → w[x]? = V[x]?

theorem permuteCycle_run {s a b i : Nat} {V : List CStr} (hb : 0 < b) (hi : i < Nat.gcd a b) (hV : s + (a + b) ≤ V.length) :
    ∀ (k j : Nat) (w : List CStr), j + k + 1 = (a + b) / Nat.gcd a b → InCycle s a b i V w j →
      ∃ w', permuteCycle a b (s + a) (s + a + i) (k + 1) (s + cpos a b i j) w = some w' ∧ CycleDone s a b i V w' := by
  have hn : 0 < a + b := by omega
  have hlt : ∀ t, cpos a b i t < a + b := fun t => Nat.mod_lt _ hn
  have hle : Nat.gcd a b ≤ b := (gcd_facts (a := a) hb).2.2.2.2.1
  intro k
  induction k with
  | zero =>
    intro j w hj h
    have hnext := cpos_succ a b i j hn
    have hw := cpos_wrap (a := a) hb hi
    rw [← hj, Nat.add_zero] at hw
    have hpos : (if s + cpos a b i j ≥ s + a then s + cpos a b i j - a else s + cpos a b i j + b) = s + a + i := by
      have h2 := hlt j
      rw [hw] at hnext
      split at hnext <;> split <;> omega
    have hc : s + a + i < w.length := by rw [h.len]; omega
    refine ⟨w, ?_, h.len, ?_, ?_⟩
    · simp only [permuteCycle, hpos, List.getElem?_eq_getElem hc, List.set_getElem_self]
    · intro t ht
      by_cases he : t = j
      · subst he
        rw [hw, h.start]
      · exact h.moved t (by omega)
    · intro x hx
      exact h.other x fun t ht => hx t (by omega)
  | succ k ih =>
    intro j w hj h
    have hnext := cpos_succ a b i j hn
    have hpos : (if s + cpos a b i j ≥ s + a then s + cpos a b i j - a else s + cpos a b i j + b) = s + cpos a b i (j + 1) := by
      have h2 := hlt j
      split at hnext <;> split <;> omega
    have hc : s + a + i < w.length := by rw [h.len]; omega
    have hp : s + cpos a b i (j + 1) < w.length := by have := hlt (j + 1); rw [h.len]; omega
    have h0 := cpos_zero (a := a) hb hi
    have hne : ∀ t, t ≤ j → cpos a b i t ≠ cpos a b i (j + 1) := by
      intro t ht he
      have := cpos_inj (a := a) hb (by omega) (by omega) he
      omega
    have hne0 := hne 0 (by omega)
    rw [h0] at hne0
    rw [permuteCycle]
    simp only [hpos, List.getElem?_eq_getElem hc, List.getElem?_eq_getElem hp]
    refine ih (j + 1) _ (by omega) ⟨by simp [h.len], ?_, ?_, ?_⟩
    · rw [show s + (a + i) = s + a + i by omega, List.getElem?_set_self (by simpa using hc)]
      rw [← List.getElem?_eq_getElem hp]
      refine h.other _ fun t ht he => hne t ht (by omega)
    · intro t ht
      by_cases he : t = j
      · subst he
        rw [List.getElem?_set_ne (by omega), List.getElem?_set_self hp, ← List.getElem?_eq_getElem hc,
          show s + a + i = s + (a + i) by omega, h.start]
      · have h1 : cpos a b i (t + 1) ≠ cpos a b i (j + 1) := hne (t + 1) (by omega)
        have h2 : cpos a b i (t + 1) ≠ a + i := by
          intro h3
          rw [← h0] at h3
          have := cpos_inj (a := a) hb (by omega) (by omega) h3
          omega
        rw [List.getElem?_set_ne (by omega), List.getElem?_set_ne (by omega)]
        exact h.moved t (by omega)
    · intro x hx
      have h1 := hx (j + 1) (by omega)
      have h2 := hx 0 (by omega)
      rw [h0] at h2
      rw [List.getElem?_set_ne (by omega), List.getElem?_set_ne (by omega)]
      exact h.other x fun t ht => hx t (by omega)

/-- After the first `i` cycles on `V`. -/
structure Cycles (s a b : Nat) (V w : List CStr) (i : Nat) : Prop where
  len : w.length = V.length
  inside : ∀ r, r < a + b → w[s + r]? = if r % Nat.gcd a b < i then V[s + (if r < b then r + a else r - b)]? else V[s + r]?
  outside : ∀ x, x < s ∨ s + (a + b) ≤ x → w[x]? = V[x]?

theorem permuteCycles_run {s a b : Nat} {V : List CStr} (hb : 0 < b) (hV : s + (a + b) ≤ V.length) :
    ∀ (k i : Nat) (w : List CStr), i + k = Nat.gcd a b → Cycles s a b V w i →
      ∃ w', permuteCycles a b (s + a) ((a + b) / Nat.gcd a b) k i w = some w' ∧ Cycles s a b V w' (Nat.gcd a b) := by
  have hn : 0 < a + b := by omega
  obtain ⟨hg0, _, _, _, hle, hL, _⟩ := gcd_facts (a := a) hb
  intro k
  induction k with
  | zero =>
    intro i w hik h
    have : i = Nat.gcd a b := by omega
    subst this
    exact ⟨w, rfl, h⟩
  | succ k ih =>
    intro i w hik h
    have hi : i < Nat.gcd a b := by omega
    have h0 := cpos_zero (a := a) hb hi
    have hlt : ∀ t, cpos a b i t < a + b := fun t => Nat.mod_lt _ hn
    have hV' : s + (a + b) ≤ w.length := by rw [h.len]; exact hV
    obtain ⟨w', h1, h2⟩ := permuteCycle_run (V := w) hb hi hV' ((a + b) / Nat.gcd a b - 1) 0 w (by omega)
      ⟨rfl, by rw [h0], by intro t ht; omega, by intro x _; rfl⟩
    rw [h0, Nat.sub_add_cancel hL, ← Nat.add_assoc] at h1
    rw [permuteCycles, h1]
    simp only
    refine ih (i + 1) w' (by omega) ⟨by rw [h2.len, h.len], ?_, ?_⟩
    · intro r hr
      by_cases hc : r % Nat.gcd a b = i
      · obtain ⟨t, ht, htr⟩ := cpos_surj (a := a) hb hr hc
        obtain ⟨t', ht', hr'⟩ : ∃ t', t' < (a + b) / Nat.gcd a b ∧ cpos a b i (t' + 1) = r := by
          cases t with
          | zero =>
            refine ⟨(a + b) / Nat.gcd a b - 1, by omega, ?_⟩
            rw [Nat.sub_add_cancel hL, cpos_wrap hb hi, ← htr, h0]
          | succ t => exact ⟨t, by omega, htr⟩
        have h3 := h2.moved t' ht'
        rw [hr'] at h3
        have h4 := h.inside (cpos a b i t') (hlt t')
        rw [cpos_class hb hi, if_neg (by omega)] at h4
        rw [h3, h4, if_pos (by omega), cpos_pred hn, hr']
      · have h3 : w'[s + r]? = w[s + r]? := by
          refine h2.other _ fun t _ he => hc ?_
          rw [show r = cpos a b i t by omega, cpos_class hb hi]
        rw [h3, h.inside r hr]
        have e : (r % Nat.gcd a b < i + 1) = (r % Nat.gcd a b < i) := propext ⟨fun _ => by omega, fun _ => by omega⟩
        simp only [e]
    · intro x hx
      rw [← h.outside x hx]
      refine h2.other x fun t _ he => ?_
      have := hlt t
      omega

/-- `permute_args` exchanges the blocks, provided the second one is not empty. -/
theorem permuteArgs_blocks (A P B R : List CStr) (hB : B ≠ []) :
    permuteArgs A.length (A.length + P.length) (A.length + P.length + B.length) (A ++ (P ++ (B ++ R))) =
      some (A ++ (B ++ (P ++ R))) := by
  have hb : 0 < B.length := List.length_pos_iff.2 hB
  unfold permuteArgs
  simp only
  rw [show A.length + P.length - A.length = P.length by omega,
    show A.length + P.length + B.length - (A.length + P.length) = B.length by omega,
    show A.length + P.length + B.length - A.length = P.length + B.length by omega, cGcd_eq _ _ (by omega)]
  simp only
  obtain ⟨w', h1, h2⟩ := permuteCycles_run (s := A.length) (a := P.length) (b := B.length) (V := A ++ (P ++ (B ++ R))) hb
    (by simp) (Nat.gcd P.length B.length) 0 (A ++ (P ++ (B ++ R))) (by omega)
    ⟨rfl, by intro r _; simp, by intro x _; rfl⟩
  rw [h1]
  congr 1
  apply List.ext_getElem?
  intro x
  by_cases hx : x < A.length
  · rw [h2.outside x (Or.inl hx)]
    simp [List.getElem?_append, hx]
  · by_cases hx2 : A.length + (P.length + B.length) ≤ x
    · rw [h2.outside x (Or.inr hx2)]
      have e1 : ¬ x - A.length < P.length := by omega
      have e2 : ¬ x - A.length - P.length < B.length := by omega
      have e3 : ¬ x - A.length < B.length := by omega
      have e4 : ¬ x - A.length - B.length < P.length := by omega
      simp only [List.getElem?_append, hx, e1, e2, e3, e4, if_false]
      congr 1; omega
    · have h3 := h2.inside (x - A.length) (by omega)
      rw [if_pos (Nat.mod_lt _ (Nat.gcd_pos_of_pos_right _ hb)), show A.length + (x - A.length) = x by omega] at h3
      rw [h3]
      by_cases hxb : x - A.length < B.length
      · rw [if_pos hxb]
        have e1 : ¬ A.length + (x - A.length + P.length) < A.length := by omega
        have e2 : ¬ A.length + (x - A.length + P.length) - A.length < P.length := by omega
        have e3 : A.length + (x - A.length + P.length) - A.length - P.length < B.length := by omega
        simp only [List.getElem?_append, hx, hxb, e1, e2, e3, if_false, if_true]
        congr 1; omega
      · rw [if_neg hxb]
        have e1 : ¬ A.length + (x - A.length - B.length) < A.length := by omega
        have e2 : A.length + (x - A.length - B.length) - A.length < P.length := by omega
        have e3 : x - A.length - B.length < P.length := by omega
        simp only [List.getElem?_append, hx, hxb, e1, e2, e3, if_false, if_true]
        congr 1; omega

end Judger
