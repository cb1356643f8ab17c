import Verif.Model.ArgTable
import Verif.Spec.Cli

/-! # `arg_int_scanfn` accepts exactly the texts of `Spec.Cli.LooseIntText` in the range of `int` -/

set_option autoImplicit false

namespace Judger

open Spec.Cli

theorem char_ascii {P : Char → Prop} (h1 : ∀ n : Fin 128, P (Char.ofNat n)) (h2 : ∀ c : Char, 128 ≤ c.toNat → P c) (c : Char) : P c := by
  by_cases h : c.toNat < 128
  · have := h1 ⟨c.toNat, h⟩
    rwa [Char.ofNat_toNat] at this
  · exact h2 c (by omega)

theorem digit?_big (c : Char) (h : 128 ≤ c.toNat) : digit? c = none := by
  unfold digit?
  split <;> first | rfl | (exfalso; revert h; decide)

theorem digitValue_big (c : Char) (h : 128 ≤ c.toNat) : digitValue c = none := by
  unfold digitValue
  rw [if_neg (by omega), if_neg (by omega), if_neg (by omega)]

theorem digit_iff (base : Nat) (hb : base ≤ 16) (c : Char) (d : Nat) :
    (digitValue c = some d ∧ d < base) ↔ (digit? c = some d ∧ d < base) := by
  have key : ∀ c : Char, digit? c = (match digitValue c with | some d => if d < 16 then some d else none | none => none) := by
    refine char_ascii ?_ ?_
    · decide
    · intro c h; rw [digit?_big c h, digitValue_big c h]
  rw [key c]
  cases h : digitValue c with
  | none => simp
  | some e =>
    simp only [Option.some.injEq]
    by_cases he : e < 16
    · simp [he]
    · simp [he]; omega

theorem isDigitIn_iff {base : Nat} (hb : base ≤ 16) (c : Char) :
    isDigitIn base c = true ↔ ∃ d, digit? c = some d ∧ d < base := by
  unfold isDigitIn
  constructor
  · intro h
    cases hd : digitValue c with
    | none => simp [hd] at h
    | some d => simp [hd] at h; exact ⟨d, (digit_iff base hb c d).mp ⟨hd, h⟩⟩
  · rintro ⟨d, h⟩
    obtain ⟨h1, h2⟩ := (digit_iff base hb c d).mpr h
    simp [h1, h2]

theorem isSpaceC_iff (c : Char) : isSpaceC c = true ↔ c ∈ [' ', '\t', '\n', '\r', '\x0b', '\x0c'] := by
  revert c
  refine char_ascii ?_ ?_
  · decide
  · intro c h
    constructor
    · intro hs
      simp [isSpaceC] at hs
      exfalso
      rcases hs with ((((h' | h') | h') | h') | h') | h'
      · subst h'; revert h; decide
      · subst h'; revert h; decide
      · subst h'; revert h; decide
      · subst h'; revert h; decide
      · omega
      · omega
    · intro hm
      exfalso
      simp at hm
      rcases hm with rfl | rfl | rfl | rfl | rfl | rfl <;> revert h <;> decide

theorem blank_iff (s : CStr) : Blank s ↔ s.all isSpaceC = true := by
  simp only [Blank, List.all_eq_true, isSpaceC_iff]

theorem upper_big (c : Char) (h : 128 ≤ c.toNat) : toUpperC c = c := by
  unfold toUpperC; rw [if_neg (by omega)]

theorem upper_X (c : Char) : toUpperC c = toUpperC 'X' ↔ c = 'x' ∨ c = 'X' := by
  revert c
  refine char_ascii (by decide) ?_
  intro c h
  rw [upper_big c h]
  constructor
  · intro e; subst e; revert h; decide
  · rintro (rfl | rfl) <;> revert h <;> decide

theorem upper_O (c : Char) : toUpperC c = toUpperC 'O' ↔ c = 'o' ∨ c = 'O' := by
  revert c
  refine char_ascii (by decide) ?_
  intro c h
  rw [upper_big c h]
  constructor
  · intro e; subst e; revert h; decide
  · rintro (rfl | rfl) <;> revert h <;> decide

theorem upper_B (c : Char) : toUpperC c = toUpperC 'B' ↔ c = 'b' ∨ c = 'B' := by
  revert c
  refine char_ascii (by decide) ?_
  intro c h
  rw [upper_big c h]
  constructor
  · intro e; subst e; revert h; decide
  · rintro (rfl | rfl) <;> revert h <;> decide

theorem upper_K (c : Char) : toUpperC c = toUpperC 'K' ↔ c = 'k' ∨ c = 'K' := by
  revert c
  refine char_ascii (by decide) ?_
  intro c h
  rw [upper_big c h]
  constructor
  · intro e; subst e; revert h; decide
  · rintro (rfl | rfl) <;> revert h <;> decide

theorem upper_M (c : Char) : toUpperC c = toUpperC 'M' ↔ c = 'm' ∨ c = 'M' := by
  revert c
  refine char_ascii (by decide) ?_
  intro c h
  rw [upper_big c h]
  constructor
  · intro e; subst e; revert h; decide
  · rintro (rfl | rfl) <;> revert h <;> decide

theorem upper_G (c : Char) : toUpperC c = toUpperC 'G' ↔ c = 'g' ∨ c = 'G' := by
  revert c
  refine char_ascii (by decide) ?_
  intro c h
  rw [upper_big c h]
  constructor
  · intro e; subst e; revert h; decide
  · rintro (rfl | rfl) <;> revert h <;> decide

/-! ## Numerals -/

theorem digitsValue_append (base : Nat) (xs ys : CStr) (acc : Nat) :
    digitsValue base acc (xs ++ ys) = digitsValue base (digitsValue base acc xs) ys := by
  induction xs generalizing acc with
  | nil => rfl
  | cons c r ih => simp [digitsValue, ih]

theorem numeral_iff {base : Nat} (hb : base ≤ 16) (ds : CStr) (m : Nat) :
    Numeral base ds m ↔ ds ≠ [] ∧ ds.all (isDigitIn base) = true ∧ digitsValue base 0 ds = m := by
  constructor
  · intro h
    induction h with
    | one c d h1 h2 =>
      have := (digit_iff base hb c d).mpr ⟨h1, h2⟩
      refine ⟨by simp, ?_, ?_⟩
      · simp [isDigitIn, this.1, h2]
      · simp [digitsValue, this.1]
    | more ds n c d _ h1 h2 ih =>
      have := (digit_iff base hb c d).mpr ⟨h1, h2⟩
      refine ⟨by simp, ?_, ?_⟩
      · rw [List.all_append, ih.2.1]; simp [isDigitIn, this.1, h2]
      · rw [digitsValue_append, ih.2.2]; simp [digitsValue, this.1]
  · have main : ∀ (n : Nat) (ds : CStr) (m : Nat), ds.length = n →
        (ds ≠ [] ∧ ds.all (isDigitIn base) = true ∧ digitsValue base 0 ds = m) → Numeral base ds m := by
      intro n
      induction n with
      | zero =>
        intro ds m hl h
        exact absurd (List.length_eq_zero_iff.mp hl) h.1
      | succ n ih =>
        intro ds m hl ⟨hne, hall, hv⟩
        obtain ⟨xs, c, rfl⟩ : ∃ xs c, ds = xs ++ [c] := ⟨ds.dropLast, ds.getLast hne, (List.dropLast_concat_getLast hne).symm⟩
        rw [List.all_append] at hall
        simp only [Bool.and_eq_true, List.all_cons, List.all_nil, and_true] at hall
        obtain ⟨hx, hc⟩ := hall
        obtain ⟨d, h1, h2⟩ := (isDigitIn_iff hb c).mp hc
        have hd := (digit_iff base hb c d).mpr ⟨h1, h2⟩
        rw [digitsValue_append] at hv
        simp [digitsValue, hd.1] at hv
        by_cases hxs : xs = []
        · subst hxs
          simp [digitsValue] at hv
          subst hv
          exact .one c d h1 h2
        · subst hv
          exact .more xs _ c d (ih xs _ (by simp at hl; exact hl) ⟨hxs, hx, rfl⟩) h1 h2
    exact main ds.length ds m rfl

/-! ## `strtol` -/

theorem dropWhile_append {p : Char → Bool} {a b : CStr} (ha : a.all p = true) (hb : ∀ c r, b = c :: r → p c = false) :
    (a ++ b).dropWhile p = b := by
  induction a with
  | nil =>
    cases b with
    | nil => rfl
    | cons c r => simp [hb c r rfl]
  | cons c r ih =>
    simp only [List.all_cons, Bool.and_eq_true] at ha
    rw [List.cons_append, List.dropWhile_cons, if_pos ha.1, ih ha.2]

theorem takeWhile_append {p : Char → Bool} {a b : CStr} (ha : a.all p = true) (hb : ∀ c r, b = c :: r → p c = false) :
    (a ++ b).takeWhile p = a := by
  induction a with
  | nil =>
    cases b with
    | nil => rfl
    | cons c r => simp [hb c r rfl]
  | cons c r ih =>
    simp only [List.all_cons, Bool.and_eq_true] at ha
    rw [List.cons_append, List.takeWhile_cons, if_pos ha.1, ih ha.2]

/-- Leading white space and a sign, taken off. -/
def lead (s : CStr) : Bool × CStr := takeSign (s.dropWhile isSpaceC)

/-- The sign's factor. -/
def sgn (neg : Bool) : Int := if neg then -1 else 1

theorem takeSign_of {sg rest : CStr} {k : Int} (h : Sign sg k) (hr : ∀ c r, rest = c :: r → c ≠ '-' ∧ c ≠ '+') :
    ∃ neg, takeSign (sg ++ rest) = (neg, rest) ∧ k = sgn neg := by
  rcases h with ⟨rfl, rfl⟩ | ⟨rfl, rfl⟩ | ⟨rfl, rfl⟩
  · refine ⟨false, ?_, rfl⟩
    cases rest with
    | nil => rfl
    | cons c r =>
      have := hr c r rfl
      simp only [List.nil_append]
      unfold takeSign
      split
      · rename_i heq; simp at heq; exact absurd heq.1 this.1
      · rename_i heq; simp at heq; exact absurd heq.1 this.2
      · rfl
  · exact ⟨false, rfl, rfl⟩
  · exact ⟨true, rfl, rfl⟩

theorem takeSign_spec (s : CStr) : ∃ sg, Sign sg (sgn (takeSign s).1) ∧ s = sg ++ (takeSign s).2 := by
  unfold takeSign
  split
  · exact ⟨['-'], Or.inr (Or.inr ⟨rfl, rfl⟩), rfl⟩
  · exact ⟨['+'], Or.inr (Or.inl ⟨rfl, rfl⟩), rfl⟩
  · exact ⟨[], Or.inl ⟨rfl, rfl⟩, rfl⟩

theorem all_takeWhile (p : Char → Bool) (s : CStr) : (s.takeWhile p).all p = true := by
  induction s with
  | nil => rfl
  | cons c r ih =>
    rw [List.takeWhile_cons]
    split
    · rename_i h; simp [h, ih]
    · rfl

theorem lead_spec (s : CStr) : ∃ pre sg, Blank pre ∧ Sign sg (sgn (lead s).1) ∧ s = pre ++ (sg ++ (lead s).2) := by
  obtain ⟨sg, h1, h2⟩ := takeSign_spec (s.dropWhile isSpaceC)
  refine ⟨s.takeWhile isSpaceC, sg, ?_, h1, ?_⟩
  · rw [blank_iff]; exact all_takeWhile _ _
  · unfold lead
    rw [← h2, List.takeWhile_append_dropWhile]

/-- A character that starts neither white space nor a sign. -/
def Plain (s : CStr) : Prop := ∃ c r, s = c :: r ∧ isSpaceC c = false ∧ c ≠ '-' ∧ c ≠ '+'

theorem lead_of {pre sg rest : CStr} {k : Int} (hp : Blank pre) (hs : Sign sg k) (hr : Plain rest) :
    ∃ neg, lead (pre ++ (sg ++ rest)) = (neg, rest) ∧ k = sgn neg := by
  obtain ⟨c, r, rfl, h1, h2, h3⟩ := hr
  have hd : (pre ++ (sg ++ c :: r)).dropWhile isSpaceC = sg ++ c :: r := by
    apply dropWhile_append ((blank_iff _).mp hp)
    intro c' r' he
    rcases hs with ⟨rfl, _⟩ | ⟨rfl, _⟩ | ⟨rfl, _⟩
    · simp at he; rw [← he.1]; exact h1
    · simp at he; rw [← he.1]; decide
    · simp at he; rw [← he.1]; decide
  obtain ⟨neg, h4, h5⟩ := takeSign_of (rest := c :: r) hs (by intro c' r' he; simp at he; rw [← he.1]; exact ⟨h2, h3⟩)
  exact ⟨neg, by rw [lead, hd, h4], h5⟩

theorem plain_digit {base : Nat} (hb : base ≤ 16) {ds e : CStr} {m : Nat} (h : Numeral base ds m) : Plain (ds ++ e) := by
  obtain ⟨h1, h2, _⟩ := (numeral_iff hb ds m).mp h
  cases ds with
  | nil => exact absurd rfl h1
  | cons c r =>
    simp only [List.all_cons, Bool.and_eq_true] at h2
    have hd := (isDigitIn_iff hb c).mp h2.1
    refine ⟨c, r ++ e, rfl, ?_, ?_, ?_⟩
    · apply Bool.eq_false_iff.mpr
      intro hs
      rw [isSpaceC_iff] at hs
      obtain ⟨d, hd, _⟩ := hd
      simp at hs
      rcases hs with rfl | rfl | rfl | rfl | rfl | rfl <;> simp [digit?] at hd
    · rintro rfl; obtain ⟨d, hd, _⟩ := hd; simp [digit?] at hd
    · rintro rfl; obtain ⟨d, hd, _⟩ := hd; simp [digit?] at hd

/-- The optional prefix `strtol` skips in base 16. -/
def Second (base : Nat) (pf : CStr) : Prop := pf = [] ∨ (base = 16 ∧ pf ∈ [c!"0x", c!"0X"])

theorem skipHexPrefix_spec (base : Nat) (s : CStr) : ∃ pf, Second base pf ∧ s = pf ++ skipHexPrefix base s := by
  unfold skipHexPrefix
  split
  · rename_i x d r
    split
    · rename_i h
      obtain ⟨h1, h2, _⟩ := h
      rcases h2 with rfl | rfl
      · exact ⟨['0', 'x'], Or.inr ⟨h1, by decide⟩, rfl⟩
      · exact ⟨['0', 'X'], Or.inr ⟨h1, by decide⟩, rfl⟩
    · exact ⟨[], Or.inl rfl, rfl⟩
  · exact ⟨[], Or.inl rfl, rfl⟩

theorem strtol_lead (s : CStr) (base : Nat) : strtol s base =
    (let t := skipHexPrefix base (lead s).2
     if t.takeWhile (isDigitIn base) = [] then none
     else some (clampLong (if (lead s).1 then -(digitsValue base 0 (t.takeWhile (isDigitIn base)) : Int)
       else (digitsValue base 0 (t.takeWhile (isDigitIn base)) : Int)), t.dropWhile (isDigitIn base))) := rfl

theorem sgn_mul (neg : Bool) (v : Int) : (if neg then -v else v) = sgn neg * v := by
  cases neg <;> simp [sgn]

theorem strtol_spec {base : Nat} (hb : base ≤ 16) {s e : CStr} {v : Int} (h : strtol s base = some (v, e)) :
    ∃ pre sg pf ds k m, s = pre ++ (sg ++ (pf ++ (ds ++ e))) ∧ Blank pre ∧ Sign sg k ∧ Second base pf ∧
      Numeral base ds m ∧ v = clampLong (k * m) := by
  obtain ⟨pre, sg, h1, h2, h3⟩ := lead_spec s
  obtain ⟨pf, h4, h5⟩ := skipHexPrefix_spec base (lead s).2
  rw [strtol_lead] at h
  simp only at h
  split at h
  · simp at h
  · rename_i hne
    simp only [Option.some.injEq, Prod.mk.injEq] at h
    refine ⟨pre, sg, pf, (skipHexPrefix base (lead s).2).takeWhile (isDigitIn base), _,
      digitsValue base 0 ((skipHexPrefix base (lead s).2).takeWhile (isDigitIn base)), ?_, h1, h2, h4, ?_, ?_⟩
    · rw [← h.2, List.takeWhile_append_dropWhile, ← h5, ← h3]
    · rw [numeral_iff hb]
      exact ⟨hne, all_takeWhile _ _, rfl⟩
    · rw [← h.1, sgn_mul]

/-- What may follow the digits. -/
def Ends (e : CStr) : Prop := ∀ c r, e = c :: r → isDigitIn 16 c = false ∧ c ≠ 'x' ∧ c ≠ 'X' ∧ c ≠ 'o' ∧ c ≠ 'O' ∧ c ≠ 'b' ∧ c ≠ 'B'

theorem isDigitIn_mono {a b : Nat} (h : a ≤ b) (c : Char) (hc : isDigitIn a c = true) : isDigitIn b c = true := by
  unfold isDigitIn at *
  split at hc
  · simp at hc ⊢; omega
  · simp at hc

theorem Ends.notDigit {e : CStr} (h : Ends e) {base : Nat} (hb : base ≤ 16) : ∀ c r, e = c :: r → isDigitIn base c = false := by
  intro c r he
  apply Bool.eq_false_iff.mpr
  intro hc
  have := isDigitIn_mono hb c hc
  rw [(h c r he).1] at this
  simp at this

theorem skipHexPrefix_of {base : Nat} (hb : base ≤ 16) {pf ds e : CStr} {m : Nat} (hp : Second base pf) (hd : Numeral base ds m)
    (he : Ends e) : skipHexPrefix base (pf ++ (ds ++ e)) = ds ++ e := by
  obtain ⟨h1, h2, _⟩ := (numeral_iff hb ds m).mp hd
  rcases hp with rfl | ⟨rfl, hp⟩
  · simp only [List.nil_append]
    unfold skipHexPrefix
    split
    · rename_i x d r heq
      rw [if_neg]
      rintro ⟨h16, hx, _⟩
      subst h16
      cases ds with
      | nil => exact absurd rfl h1
      | cons c1 r1 =>
        simp at heq
        cases r1 with
        | nil =>
          simp at heq
          have := he x (d :: r) heq.2
          rcases hx with rfl | rfl
          · exact this.2.1 rfl
          · exact this.2.2.1 rfl
        | cons c2 r2 =>
          simp at heq h2
          rw [heq.2.1] at h2
          rcases hx with rfl | rfl
          · exact absurd h2.2.1 (by decide)
          · exact absurd h2.2.1 (by decide)
    · rfl
  · cases ds with
    | nil => exact absurd rfl h1
    | cons c1 r1 =>
      simp only [List.all_cons, Bool.and_eq_true] at h2
      simp at hp
      rcases hp with rfl | rfl
      · simp [skipHexPrefix, h2.1]
      · simp [skipHexPrefix, h2.1]

theorem second_plain {base : Nat} (hb : base ≤ 16) {pf ds e : CStr} {m : Nat} (hp : Second base pf) (hd : Numeral base ds m) :
    Plain (pf ++ (ds ++ e)) := by
  rcases hp with rfl | ⟨_, hp⟩
  · exact plain_digit (e := e) hb hd
  · simp at hp
    rcases hp with rfl | rfl
    · exact ⟨'0', _, rfl, by decide, by decide, by decide⟩
    · exact ⟨'0', _, rfl, by decide, by decide, by decide⟩

theorem strtol_of {base : Nat} (hb : base ≤ 16) {pre sg pf ds e : CStr} {k : Int} {m : Nat} (h1 : Blank pre) (h2 : Sign sg k)
    (h3 : Second base pf) (h4 : Numeral base ds m) (h5 : Ends e) :
    strtol (pre ++ (sg ++ (pf ++ (ds ++ e)))) base = some (clampLong (k * m), e) := by
  obtain ⟨neg, hl, rfl⟩ := lead_of h1 h2 (second_plain (e := e) hb h3 h4)
  obtain ⟨h6, h7, h8⟩ := (numeral_iff hb ds m).mp h4
  rw [strtol_lead, hl]
  simp only [skipHexPrefix_of hb h3 h4 h5]
  rw [takeWhile_append h7 (h5.notDigit hb), dropWhile_append h7 (h5.notDigit hb), if_neg h6, h8, sgn_mul]

/-! ## `strtol0X` -/

/-- A prefix "0x", "0X" and so on, for `X` a capital letter. -/
def IsPrefix (X : Char) (pf : CStr) : Prop := ∃ x, pf = ['0', x] ∧ toUpperC x = toUpperC X

theorem strtol0X_lead (s : CStr) (X : Char) (base : Nat) : strtol0X s X base =
    (match (lead s).2 with
     | '0' :: x :: r =>
       if toUpperC x = toUpperC X then
         match strtol r base with
         | some (v, e) => some (castLong (if (lead s).1 then -1 * v else v), e)
         | none => none
       else none
     | _ => none) := rfl

theorem strtol0X_spec {s e : CStr} {X : Char} {base : Nat} {v : Int} (h : strtol0X s X base = some (v, e)) :
    ∃ pre sg pf r k v', s = pre ++ (sg ++ (pf ++ r)) ∧ Blank pre ∧ Sign sg k ∧ IsPrefix X pf ∧ strtol r base = some (v', e) ∧
      v = castLong (k * v') := by
  obtain ⟨pre, sg, h1, h2, h3⟩ := lead_spec s
  rw [strtol0X_lead] at h
  split at h
  · rename_i x r heq
    split at h
    · rename_i hx
      split at h
      · rename_i v' e' hst
        simp only [Option.some.injEq, Prod.mk.injEq] at h
        obtain ⟨rfl, rfl⟩ := h
        refine ⟨pre, sg, ['0', x], r, _, v', by rw [h3, heq]; rfl, h1, h2, ⟨x, rfl, hx⟩, hst, ?_⟩
        cases (lead s).1 <;> simp [sgn]
      · simp at h
    · simp at h
  · simp at h

theorem strtol0X_of {X : Char} {base : Nat} {pre sg pf r e : CStr} {k v : Int} (h1 : Blank pre) (h2 : Sign sg k)
    (h3 : IsPrefix X pf) (h4 : strtol r base = some (v, e)) :
    strtol0X (pre ++ (sg ++ (pf ++ r))) X base = some (castLong (k * v), e) := by
  obtain ⟨x, rfl, hx⟩ := h3
  obtain ⟨neg, hl, rfl⟩ := lead_of (rest := ['0', x] ++ r) h1 h2 ⟨'0', x :: r, rfl, by decide, by decide, by decide⟩
  rw [strtol0X_lead, hl]
  simp only [List.cons_append, List.nil_append, hx, if_true, h4]
  cases neg <;> simp [sgn]

theorem strtol0X_other {X : Char} {base : Nat} {pre sg r : CStr} {x : Char} {k : Int} (h1 : Blank pre) (h2 : Sign sg k)
    (hx : toUpperC x ≠ toUpperC X) : strtol0X (pre ++ (sg ++ (['0', x] ++ r))) X base = none := by
  obtain ⟨neg, hl, _⟩ := lead_of (rest := ['0', x] ++ r) h1 h2 ⟨'0', x :: r, rfl, by decide, by decide, by decide⟩
  rw [strtol0X_lead, hl]
  simp [hx]

theorem strtol0X_decimal {X : Char} {base : Nat} {pre sg ds e : CStr} {k : Int} {m : Nat} (h1 : Blank pre) (h2 : Sign sg k)
    (h3 : Numeral 10 ds m) (h4 : Ends e) (hX : X = 'X' ∨ X = 'O' ∨ X = 'B') :
    strtol0X (pre ++ (sg ++ (ds ++ e))) X base = none := by
  obtain ⟨neg, hl, _⟩ := lead_of h1 h2 (plain_digit (e := e) (by decide) h3)
  obtain ⟨h6, h7, h8⟩ := (numeral_iff (by decide) ds m).mp h3
  rw [strtol0X_lead, hl]
  simp only
  split
  · rename_i x r heq
    rw [if_neg]
    intro hx
    cases ds with
    | nil => exact absurd rfl h6
    | cons c1 r1 =>
      simp only [List.cons_append, List.cons.injEq] at heq
      cases r1 with
      | nil =>
        have := h4 x r heq.2
        rcases hX with rfl | rfl | rfl
        · rcases (upper_X x).mp hx with rfl | rfl <;> simp_all
        · rcases (upper_O x).mp hx with rfl | rfl <;> simp_all
        · rcases (upper_B x).mp hx with rfl | rfl <;> simp_all
      | cons c2 r2 =>
        simp only [List.cons_append, List.cons.injEq] at heq
        simp only [List.all_cons, Bool.and_eq_true] at h7
        rw [heq.2.1] at h7
        rcases hX with rfl | rfl | rfl
        · rcases (upper_X x).mp hx with rfl | rfl
          · exact absurd h7.2.1 (by decide)
          · exact absurd h7.2.1 (by decide)
        · rcases (upper_O x).mp hx with rfl | rfl
          · exact absurd h7.2.1 (by decide)
          · exact absurd h7.2.1 (by decide)
        · rcases (upper_B x).mp hx with rfl | rfl
          · exact absurd h7.2.1 (by decide)
          · exact absurd h7.2.1 (by decide)
  · rfl

/-! ## Suffixes -/

theorem detectsuffix_nil (e : CStr) : detectsuffix e [] = true ↔ Blank e := by
  rw [blank_iff]
  cases e <;> simp [detectsuffix]

theorem detectsuffix_two (a b : Char) (e : CStr) : detectsuffix e [a, b] = true ↔
    ∃ x y post, e = x :: y :: post ∧ toUpperC x = toUpperC a ∧ toUpperC y = toUpperC b ∧ Blank post := by
  cases e with
  | nil => simp [detectsuffix]
  | cons x r =>
    cases r with
    | nil => simp [detectsuffix]
    | cons y post =>
      simp only [detectsuffix]
      by_cases h1 : toUpperC x = toUpperC a
      · by_cases h2 : toUpperC y = toUpperC b
        · simp only [h1, h2, if_true, detectsuffix_nil]
          constructor
          · intro hp; exact ⟨x, y, post, rfl, h1, h2, hp⟩
          · rintro ⟨_, _, _, he, _, _, hp⟩
            simp only [List.cons.injEq] at he
            rw [he.2.2]; exact hp
        · simp only [h1, h2, if_true, if_false]
          constructor
          · intro hp; simp at hp
          · rintro ⟨_, _, _, he, _, h, _⟩
            simp only [List.cons.injEq] at he
            exact absurd (he.2.1 ▸ h) h2
      · simp only [h1, if_false]
        constructor
        · intro hp; simp at hp
        · rintro ⟨_, _, _, he, h, _, _⟩
          simp only [List.cons.injEq] at he
          exact absurd (he.1 ▸ h) h1

theorem suffix_KB (e : CStr) : detectsuffix e c!"KB" = true ↔
    ∃ sf post, e = sf ++ post ∧ sf ∈ [c!"KB", c!"Kb", c!"kB", c!"kb"] ∧ Blank post := by
  rw [detectsuffix_two]
  constructor
  · rintro ⟨x, y, post, rfl, hx, hy, hp⟩
    refine ⟨[x, y], post, rfl, ?_, hp⟩
    rcases (upper_K x).mp hx with rfl | rfl <;> rcases (upper_B y).mp hy with rfl | rfl <;> decide
  · rintro ⟨sf, post, rfl, hs, hp⟩
    simp at hs
    rcases hs with rfl | rfl | rfl | rfl <;> exact ⟨_, _, post, rfl, by decide, by decide, hp⟩

theorem suffix_MB (e : CStr) : detectsuffix e c!"MB" = true ↔
    ∃ sf post, e = sf ++ post ∧ sf ∈ [c!"MB", c!"Mb", c!"mB", c!"mb"] ∧ Blank post := by
  rw [detectsuffix_two]
  constructor
  · rintro ⟨x, y, post, rfl, hx, hy, hp⟩
    refine ⟨[x, y], post, rfl, ?_, hp⟩
    rcases (upper_M x).mp hx with rfl | rfl <;> rcases (upper_B y).mp hy with rfl | rfl <;> decide
  · rintro ⟨sf, post, rfl, hs, hp⟩
    simp at hs
    rcases hs with rfl | rfl | rfl | rfl <;> exact ⟨_, _, post, rfl, by decide, by decide, hp⟩

theorem suffix_GB (e : CStr) : detectsuffix e c!"GB" = true ↔
    ∃ sf post, e = sf ++ post ∧ sf ∈ [c!"GB", c!"Gb", c!"gB", c!"gb"] ∧ Blank post := by
  rw [detectsuffix_two]
  constructor
  · rintro ⟨x, y, post, rfl, hx, hy, hp⟩
    refine ⟨[x, y], post, rfl, ?_, hp⟩
    rcases (upper_G x).mp hx with rfl | rfl <;> rcases (upper_B y).mp hy with rfl | rfl <;> decide
  · rintro ⟨sf, post, rfl, hs, hp⟩
    simp at hs
    rcases hs with rfl | rfl | rfl | rfl <;> exact ⟨_, _, post, rfl, by decide, by decide, hp⟩

/-- Which multiplier the text after the digits selects. -/
def sufFactor (e : CStr) : Option Int :=
  if detectsuffix e c!"KB" then some 1024 else if detectsuffix e c!"MB" then some 1048576
  else if detectsuffix e c!"GB" then some 1073741824 else if detectsuffix e [] then some 1 else none

theorem sufFactor_spec {e : CStr} {f : Int} (h : sufFactor e = some f) : ∃ sf post, e = sf ++ post ∧ Suffix sf f ∧ Blank post := by
  unfold sufFactor at h
  split at h
  · rename_i hk
    obtain ⟨sf, post, h1, h2, h3⟩ := (suffix_KB e).mp hk
    simp only [Option.some.injEq] at h
    exact ⟨sf, post, h1, Or.inr (Or.inl ⟨h2, h.symm⟩), h3⟩
  · split at h
    · rename_i hk
      obtain ⟨sf, post, h1, h2, h3⟩ := (suffix_MB e).mp hk
      simp only [Option.some.injEq] at h
      exact ⟨sf, post, h1, Or.inr (Or.inr (Or.inl ⟨h2, h.symm⟩)), h3⟩
    · split at h
      · rename_i hk
        obtain ⟨sf, post, h1, h2, h3⟩ := (suffix_GB e).mp hk
        simp only [Option.some.injEq] at h
        exact ⟨sf, post, h1, Or.inr (Or.inr (Or.inr ⟨h2, h.symm⟩)), h3⟩
      · split at h
        · rename_i hk
          simp only [Option.some.injEq] at h
          exact ⟨[], e, rfl, Or.inl ⟨rfl, h.symm⟩, (detectsuffix_nil e).mp hk⟩
        · simp at h

theorem sufFactor_of {sf post : CStr} {f : Int} (h : Suffix sf f) (hp : Blank post) : sufFactor (sf ++ post) = some f := by
  have clash : ∀ (a b c : Char) (r : CStr), toUpperC c ≠ toUpperC a → detectsuffix (c :: r) [a, b] = false := by
    intro a b c r hc; simp [detectsuffix, hc]
  rcases h with ⟨rfl, rfl⟩ | ⟨h, rfl⟩ | ⟨h, rfl⟩ | ⟨h, rfl⟩
  · simp only [List.nil_append]
    unfold sufFactor
    have : ∀ a b, toUpperC a ∉ [' ', '\t', '\n', '\r', '\x0b', '\x0c'] → detectsuffix post [a, b] = false := by
      intro a b ha
      cases post with
      | nil => rfl
      | cons c r =>
        apply clash
        intro he
        have hc : c ∈ [' ', '\t', '\n', '\r', '\x0b', '\x0c'] := hp c (by simp)
        apply ha
        rw [← he]
        have : toUpperC c = c := by
          simp at hc
          rcases hc with rfl | rfl | rfl | rfl | rfl | rfl <;> decide
        rwa [this]
    rw [this 'K' 'B' (by decide), this 'M' 'B' (by decide), this 'G' 'B' (by decide)]
    simp [(detectsuffix_nil post).mpr hp]
  · unfold sufFactor
    rw [if_pos ((suffix_KB _).mpr ⟨sf, post, rfl, h, hp⟩)]
  · unfold sufFactor
    have hk : detectsuffix (sf ++ post) c!"KB" = false := by
      simp at h
      rcases h with rfl | rfl | rfl | rfl <;> exact clash _ _ _ _ (by decide)
    rw [hk, if_pos ((suffix_MB _).mpr ⟨sf, post, rfl, h, hp⟩)]
    rfl
  · unfold sufFactor
    have hk : detectsuffix (sf ++ post) c!"KB" = false := by
      simp at h
      rcases h with rfl | rfl | rfl | rfl <;> exact clash _ _ _ _ (by decide)
    have hm : detectsuffix (sf ++ post) c!"MB" = false := by
      simp at h
      rcases h with rfl | rfl | rfl | rfl <;> exact clash _ _ _ _ (by decide)
    rw [hk, hm, if_pos ((suffix_GB _).mpr ⟨sf, post, rfl, h, hp⟩)]
    rfl

theorem suffix_ends {sf post : CStr} {f : Int} (h : Suffix sf f) (hp : Blank post) : Ends (sf ++ post) := by
  intro c r he
  have blank : ∀ c ∈ [' ', '\t', '\n', '\r', '\x0b', '\x0c'],
      isDigitIn 16 c = false ∧ c ≠ 'x' ∧ c ≠ 'X' ∧ c ≠ 'o' ∧ c ≠ 'O' ∧ c ≠ 'b' ∧ c ≠ 'B' := by decide
  rcases h with ⟨rfl, rfl⟩ | ⟨h, rfl⟩ | ⟨h, rfl⟩ | ⟨h, rfl⟩
  · simp at he
    exact blank c (hp c (by simp [he]))
  · simp at h
    rcases h with rfl | rfl | rfl | rfl <;> simp at he <;> rw [← he.1] <;> decide
  · simp at h
    rcases h with rfl | rfl | rfl | rfl <;> simp at he <;> rw [← he.1] <;> decide
  · simp at h
    rcases h with rfl | rfl | rfl | rfl <;> simp at he <;> rw [← he.1] <;> decide

/-! ## Arithmetic -/

theorem scanIntText_eq (t : CStr) : scanIntText t =
    (match convertInt t with
     | none => .error .badint
     | some (v, e) =>
       match sufFactor e with
       | none => .error .badint
       | some f => if f = 1 then (if IsInt v then .ok v else .error .overflow)
         else if IsInt (v * f) ∧ IsInt v then .ok (v * f) else .error .overflow) := by
  unfold scanIntText
  cases convertInt t with
  | none => rfl
  | some r =>
    obtain ⟨v, e⟩ := r
    have cast : ∀ x, IsInt x → castInt x = x := by
      intro x hx
      unfold IsInt INT_MIN INT_MAX at hx
      unfold castInt
      omega
    simp only [sufFactor]
    have big : (v > INT_MAX ∨ v < INT_MIN) ↔ ¬IsInt v := by unfold IsInt; omega
    have suf : ∀ m : Int, m = 1024 ∨ m = 1048576 ∨ m = 1073741824 →
        (match applySuffix v m with
          | .error c => .error c
          | .ok v' => if v > INT_MAX ∨ v < INT_MIN then .error .overflow else .ok (castInt v')) =
        (if IsInt (v * m) ∧ IsInt v then (.ok (v * m) : Except ErrCode Int) else .error .overflow) := by
      intro m hm
      unfold applySuffix
      by_cases hb : v > Int.tdiv INT_MAX m ∨ v < Int.tdiv INT_MIN m
      · rw [if_pos hb, if_neg]
        unfold IsInt INT_MIN INT_MAX
        rcases hm with rfl | rfl | rfl
        · have : v > 2097151 ∨ v < -2097152 := hb
          omega
        · have : v > 2047 ∨ v < -2048 := hb
          omega
        · have : v > 1 ∨ v < -2 := hb
          omega
      · rw [if_neg hb]
        have hr : IsInt (v * m) ∧ IsInt v := by
          unfold IsInt INT_MIN INT_MAX
          rcases hm with rfl | rfl | rfl
          · have : ¬(v > 2097151 ∨ v < -2097152) := hb
            omega
          · have : ¬(v > 2047 ∨ v < -2048) := hb
            omega
          · have : ¬(v > 1 ∨ v < -2) := hb
            omega
        rw [if_pos hr]
        simp only
        rw [if_neg (by rw [big]; simp [hr.2]), cast _ hr.1]
    by_cases h1 : detectsuffix e c!"KB" = true
    · simp only [h1, if_true]; exact (suf 1024 (Or.inl rfl)).trans (by simp)
    · simp only [h1]
      by_cases h2 : detectsuffix e c!"MB" = true
      · simp only [h2, if_true]; rw [if_neg (by simp)]; exact (suf 1048576 (Or.inr (Or.inl rfl))).trans (by simp)
      · simp only [h2]
        by_cases h3 : detectsuffix e c!"GB" = true
        · simp only [h3, if_true]; simp only [if_neg (show ¬(false = true) by simp)]; exact (suf 1073741824 (Or.inr (Or.inr rfl))).trans (by simp)
        · simp only [h3]
          by_cases h4 : detectsuffix e [] = true
          · simp only [h4]
            simp only [if_neg (show ¬(false = true) by simp), Bool.not_true, if_true]
            by_cases hv : IsInt v
            · rw [if_pos hv, if_neg (by rw [big]; simp [hv]), cast v hv]
            · rw [if_neg hv, if_pos (big.mpr hv)]
          · simp [h4]

theorem clamp_isInt (x : Int) : IsInt (clampLong x) ↔ IsInt x := by
  unfold IsInt clampLong INT_MIN INT_MAX LONG_MIN LONG_MAX
  split
  · omega
  · split <;> omega

theorem clamp_of_isInt {x : Int} (h : IsInt x) : clampLong x = x := by
  revert h
  unfold IsInt clampLong INT_MIN INT_MAX LONG_MIN LONG_MAX
  intro h
  rw [if_neg (by omega), if_neg (by omega)]

theorem cast_clamp_isInt {k x : Int} (hk : k = 1 ∨ k = -1) (h : IsInt (castLong (k * clampLong x))) :
    castLong (k * clampLong x) = k * x ∧ IsInt (k * x) := by
  revert h
  unfold IsInt castLong clampLong INT_MIN INT_MAX LONG_MIN LONG_MAX
  rcases hk with rfl | rfl
  · split
    · omega
    · split <;> omega
  · split
    · omega
    · split <;> omega

theorem cast_clamp_of {k x : Int} (hk : k = 1 ∨ k = -1) (h : IsInt (k * x)) : castLong (k * clampLong x) = k * x := by
  revert h
  unfold IsInt castLong clampLong INT_MIN INT_MAX LONG_MIN LONG_MAX
  rcases hk with rfl | rfl
  · split
    · omega
    · split <;> omega
  · split
    · omega
    · split <;> omega

theorem sign_val {sg : CStr} {k : Int} (h : Sign sg k) : k = 1 ∨ k = -1 := by
  rcases h with ⟨_, rfl⟩ | ⟨_, rfl⟩ | ⟨_, rfl⟩ <;> simp

theorem suffix_val {sf : CStr} {f : Int} (h : Suffix sf f) : f = 1 ∨ f = 1024 ∨ f = 1048576 ∨ f = 1073741824 := by
  rcases h with ⟨_, rfl⟩ | ⟨_, rfl⟩ | ⟨_, rfl⟩ | ⟨_, rfl⟩ <;> simp

theorem isInt_of_mul {x f : Int} (hf : f = 1 ∨ f = 1024 ∨ f = 1048576 ∨ f = 1073741824) (h : IsInt (x * f)) : IsInt x := by
  revert h
  unfold IsInt INT_MIN INT_MAX
  rcases hf with rfl | rfl | rfl | rfl <;> omega

theorem of_scanIntText_ok {t : CStr} {n : Int} (h : scanIntText t = .ok n) :
    ∃ v e f, convertInt t = some (v, e) ∧ sufFactor e = some f ∧ IsInt v ∧ IsInt n ∧ n = v * f := by
  rw [scanIntText_eq] at h
  split at h
  · simp at h
  · rename_i v e hc
    split at h
    · simp at h
    · rename_i f hf
      split at h
      · rename_i h1
        subst h1
        split at h
        · rename_i hv
          simp only [Except.ok.injEq] at h
          subst h
          exact ⟨v, e, 1, hc, hf, hv, hv, by simp⟩
        · simp at h
      · split at h
        · rename_i hv
          simp only [Except.ok.injEq] at h
          subst h
          exact ⟨v, e, f, hc, hf, hv.2, hv.1, rfl⟩
        · simp at h

/-- The text is read by one of the prefixed conversions, or as a decimal. -/
theorem convertInt_cases {t e : CStr} {v : Int} (h : convertInt t = some (v, e)) :
    (∃ X base, ((X = 'X' ∧ base = 16) ∨ (X = 'O' ∧ base = 8) ∨ (X = 'B' ∧ base = 2)) ∧ strtol0X t X base = some (v, e)) ∨
      strtol t 10 = some (v, e) := by
  unfold convertInt at h
  split at h
  · rename_i r hr
    exact Or.inl ⟨'X', 16, Or.inl ⟨rfl, rfl⟩, by rw [hr, h]⟩
  · split at h
    · rename_i r hr
      exact Or.inl ⟨'O', 8, Or.inr (Or.inl ⟨rfl, rfl⟩), by rw [hr, h]⟩
    · split at h
      · rename_i r hr
        exact Or.inl ⟨'B', 2, Or.inr (Or.inr ⟨rfl, rfl⟩), by rw [hr, h]⟩
      · exact Or.inr h

theorem prefix_of {X : Char} {base : Nat} {pf : CStr} (hX : (X = 'X' ∧ base = 16) ∨ (X = 'O' ∧ base = 8) ∨ (X = 'B' ∧ base = 2))
    (h : IsPrefix X pf) : Prefix pf base ∧ pf ≠ [] := by
  obtain ⟨x, rfl, hx⟩ := h
  refine ⟨?_, by simp⟩
  rcases hX with ⟨rfl, rfl⟩ | ⟨rfl, rfl⟩ | ⟨rfl, rfl⟩
  · right; left; rcases (upper_X x).mp hx with rfl | rfl <;> simp
  · right; right; left; rcases (upper_O x).mp hx with rfl | rfl <;> simp
  · right; right; right; rcases (upper_B x).mp hx with rfl | rfl <;> simp

theorem scanIntText_sound {t : CStr} {n : Int} (h : scanIntText t = .ok n) : LooseIntText t n ∧ IsInt n := by
  obtain ⟨v, e, f, h1, h2, h3, h4, h5⟩ := of_scanIntText_ok h
  obtain ⟨sf, post, he, hsf, hpost⟩ := sufFactor_spec h2
  refine ⟨?_, h4⟩
  rcases convertInt_cases h1 with ⟨X, base, hX, h6⟩ | h6
  · have hb : base ≤ 16 := by rcases hX with ⟨_, rfl⟩ | ⟨_, rfl⟩ | ⟨_, rfl⟩ <;> decide
    obtain ⟨pre, sg, pf, r, k, v', g1, g2, g3, g4, g5, g6⟩ := strtol0X_spec h6
    obtain ⟨pre', sg', pf', ds, k', m, g7, g8, g9, g10, g11, g12⟩ := strtol_spec hb g5
    obtain ⟨hp1, hp2⟩ := prefix_of hX g4
    right
    refine ⟨pre, sg, pf, pre', sg', pf', ds, sf, post, k, k', base, m, f, ?_, g2, g8, hpost, g3, g9, hp1, hp2, g10, g11, hsf, ?_⟩
    · rw [g1, g7, he]
    · rw [g6, g12] at h3
      obtain ⟨c1, c2⟩ := cast_clamp_isInt (sign_val g3) h3
      rw [h5, g6, g12, c1]
  · obtain ⟨pre, sg, pf, ds, k, m, g1, g2, g3, g4, g5, g6⟩ := strtol_spec (by decide) h6
    left
    have : pf = [] := by
      rcases g4 with h | ⟨h, _⟩
      · exact h
      · exact absurd h (by decide)
    subst this
    refine ⟨pre, sg, [], ds, sf, post, k, 10, m, f, ?_, g2, hpost, g3, Or.inl ⟨rfl, rfl⟩, g5, hsf, ?_⟩
    · rw [g1, he]
    · rw [g6, clamp_isInt] at h3
      rw [h5, g6, clamp_of_isInt h3]

/-- The value in range, or "overflow". -/
def inRange (n : Int) : Except ErrCode Int := if IsInt n then .ok n else .error .overflow

theorem scanIntText_of {t e : CStr} {v f x : Int} (h1 : convertInt t = some (v, e)) (h2 : sufFactor e = some f)
    (hf : f = 1 ∨ f = 1024 ∨ f = 1048576 ∨ f = 1073741824) (h3 : IsInt v → v = x) (h4 : IsInt x → v = x) :
    scanIntText t = inRange (x * f) := by
  by_cases hv : IsInt v
  · have hx := h3 hv
    subst hx
    unfold inRange
    rw [scanIntText_eq, h1]
    simp only [h2]
    by_cases h1' : f = 1
    · subst h1'; simp
    · rw [if_neg h1']
      by_cases hp : IsInt (v * f)
      · rw [if_pos ⟨hp, hv⟩, if_pos hp]
      · rw [if_neg (fun h => hp h.1), if_neg hp]
  · have hx : ¬IsInt x := fun hx => hv (h4 hx ▸ hx)
    have hxf : ¬IsInt (x * f) := fun h => hx (isInt_of_mul hf h)
    unfold inRange
    rw [if_neg hxf, scanIntText_eq, h1]
    simp only [h2]
    split
    · rfl
    · rw [if_neg (fun h => hv h.2)]

theorem scanIntText_prefixed {pre sg pf pre' sg' pf' ds sf post : CStr} {k k' : Int} {base m : Nat} {f : Int}
    (h1 : Blank pre) (h2 : Blank pre') (h3 : Blank post) (h4 : Sign sg k) (h5 : Sign sg' k') (h6 : Prefix pf base) (h7 : pf ≠ [])
    (h8 : Second base pf') (h9 : Numeral base ds m) (h10 : Suffix sf f) :
    scanIntText (pre ++ (sg ++ (pf ++ (pre' ++ (sg' ++ (pf' ++ (ds ++ (sf ++ post)))))))) = inRange (k * (k' * m) * f) := by
  have hends := suffix_ends h10 h3
  have fin : convertInt (pre ++ (sg ++ (pf ++ (pre' ++ (sg' ++ (pf' ++ (ds ++ (sf ++ post)))))))) =
      some (castLong (k * clampLong (k' * m)), sf ++ post) := by
    rcases h6 with ⟨rfl, _⟩ | ⟨hp, rfl⟩ | ⟨hp, rfl⟩ | ⟨hp, rfl⟩
    · exact absurd rfl h7
    · have hs := strtol_of (by decide) h2 h5 h8 h9 hends
      have hP : IsPrefix 'X' pf := by
        simp at hp
        rcases hp with rfl | rfl <;> exact ⟨_, rfl, by decide⟩
      have := strtol0X_of h1 h4 hP hs
      unfold convertInt
      rw [this]
    · have hs := strtol_of (by decide) h2 h5 h8 h9 hends
      have hP : IsPrefix 'O' pf := by
        simp at hp
        rcases hp with rfl | rfl <;> exact ⟨_, rfl, by decide⟩
      have h0 : strtol0X (pre ++ (sg ++ (pf ++ (pre' ++ (sg' ++ (pf' ++ (ds ++ (sf ++ post)))))))) 'X' 16 = none := by
        simp at hp
        rcases hp with rfl | rfl <;> exact strtol0X_other h1 h4 (by decide)
      have := strtol0X_of h1 h4 hP hs
      unfold convertInt
      rw [h0]
      simp only
      rw [this]
    · have hs := strtol_of (by decide) h2 h5 h8 h9 hends
      have hP : IsPrefix 'B' pf := by
        simp at hp
        rcases hp with rfl | rfl <;> exact ⟨_, rfl, by decide⟩
      have h0 : strtol0X (pre ++ (sg ++ (pf ++ (pre' ++ (sg' ++ (pf' ++ (ds ++ (sf ++ post)))))))) 'X' 16 = none := by
        simp at hp
        rcases hp with rfl | rfl <;> exact strtol0X_other h1 h4 (by decide)
      have h0' : strtol0X (pre ++ (sg ++ (pf ++ (pre' ++ (sg' ++ (pf' ++ (ds ++ (sf ++ post)))))))) 'O' 8 = none := by
        simp at hp
        rcases hp with rfl | rfl <;> exact strtol0X_other h1 h4 (by decide)
      have := strtol0X_of h1 h4 hP hs
      unfold convertInt
      rw [h0]
      simp only
      rw [h0']
      simp only
      rw [this]
  exact scanIntText_of fin (sufFactor_of h10 h3) (suffix_val h10) (fun h => (cast_clamp_isInt (sign_val h4) h).1)
    (fun h => cast_clamp_of (sign_val h4) h)

/-- A text that denotes `n` gives `n`, or "overflow" when `n` is not an `int`. -/
theorem scanIntText_loose {t : CStr} {n : Int} (h : LooseIntText t n) : scanIntText t = inRange n := by
  rcases h with h | h
  · obtain ⟨pre, sg, pf, ds, sf, post, k, base, m, f, rfl, h1, h2, h3, h4, h5, h6, rfl⟩ := h
    by_cases hp : pf = []
    · have hbase : base = 10 := by
        rcases h4 with ⟨_, h⟩ | ⟨h, _⟩ | ⟨h, _⟩ | ⟨h, _⟩
        · exact h
        · rw [hp] at h; exact absurd h (by decide)
        · rw [hp] at h; exact absurd h (by decide)
        · rw [hp] at h; exact absurd h (by decide)
      subst hp
      subst hbase
      have hends := suffix_ends h6 h2
      have hs := strtol_of (base := 10) (pf := []) (by decide) h1 h3 (Or.inl rfl) h5 hends
      simp only [List.nil_append] at hs ⊢
      have hc : convertInt (pre ++ (sg ++ (ds ++ (sf ++ post)))) = some (clampLong (k * m), sf ++ post) := by
        unfold convertInt
        rw [strtol0X_decimal h1 h3 h5 hends (Or.inl rfl)]
        simp only
        rw [strtol0X_decimal h1 h3 h5 hends (Or.inr (Or.inl rfl))]
        simp only
        rw [strtol0X_decimal h1 h3 h5 hends (Or.inr (Or.inr rfl))]
        simp only
        rw [hs]
      exact scanIntText_of hc (sufFactor_of h6 h2) (suffix_val h6) (fun h => clamp_of_isInt ((clamp_isInt _).mp h)) clamp_of_isInt
    · have := scanIntText_prefixed (pre' := []) (sg' := []) (pf' := []) (k' := 1) h1 (by intro c hc; simp at hc) h2 h3
        (Or.inl ⟨rfl, rfl⟩) h4 hp (Or.inl rfl) h5 h6
      simpa using this
  · obtain ⟨pre, sg, pf, pre', sg', pf', ds, sf, post, k, k', base, m, f, rfl, h1, h2, h3, h4, h5, h6, h7, h8, h9, h10, rfl⟩ := h
    exact scanIntText_prefixed h1 h2 h3 h4 h5 h6 h7 h8 h9 h10

theorem scanIntText_complete {t : CStr} {n : Int} (h : LooseIntText t n) (hn : IsInt n) : scanIntText t = .ok n := by
  rw [scanIntText_loose h, inRange, if_pos hn]

/-- Exactly the integers in range, and only the number they denote. -/
theorem scanIntText_iff (t : CStr) (n : Int) : scanIntText t = .ok n ↔ LooseIntText t n ∧ IsInt n :=
  ⟨scanIntText_sound, fun h => scanIntText_complete h.1 h.2⟩

/-- A text in range denotes one number only. -/
theorem loose_unique {t : CStr} {n m : Int} (h : LooseIntText t n) (hn : IsInt n) (h' : LooseIntText t m) : m = n := by
  have h1 := scanIntText_complete h hn
  rw [scanIntText_loose h', inRange] at h1
  split at h1
  · simp only [Except.ok.injEq] at h1; exact h1
  · simp at h1

end Judger
