import Verif.Lemmas.Json
import Verif.Spec.JsonText

/-! # JSON texts that end with the lines of a result -/

set_option autoImplicit false

namespace Judger.Spec.JsonText

variable {lax : Bool}

/-! ## Tokens -/

/-- The characters numbers are made of. -/
def numChar (c : Char) : Bool := (Json.digit c).isSome || c == '-' || c == '+' || c == '.' || c == 'e' || c == 'E'

theorem numText_chars {t : CStr} (h : NumText t) : ∀ c ∈ t, numChar c = true := by
  obtain ⟨sign, int, frac, exp, rfl, hs, hi, hf, he⟩ := h
  have hd : ∀ c, (Json.digit c).isSome = true → numChar c = true := fun c hc => by simp [numChar, hc]
  intro c hc
  simp only [List.mem_append] at hc
  rcases hc with hc | hc | hc | hc
  · rcases hs with rfl | rfl
    · cases hc
    · rw [List.mem_singleton.1 hc]; decide
  · rcases hi with rfl | ⟨_, _, _, _, h⟩
    · rw [List.mem_singleton.1 hc]; decide
    · exact hd c (h c hc)
  · rcases hf with rfl | ⟨ds, rfl, _, h⟩
    · cases hc
    · rcases List.mem_cons.1 hc with rfl | hc
      · decide
      · exact hd c (h c hc)
  · rcases he with rfl | ⟨e, s, ds, rfl, h1, h2, _, h⟩
    · cases hc
    · rcases List.mem_cons.1 hc with rfl | hc
      · rcases h1 with rfl | rfl <;> decide
      · rcases List.mem_append.1 hc with hc | hc
        · rcases h2 with rfl | rfl | rfl
          · cases hc
          · rw [List.mem_singleton.1 hc]; decide
          · rw [List.mem_singleton.1 hc]; decide
        · exact hd c (h c hc)

theorem numText_ne_nil {t : CStr} (h : NumText t) : t ≠ [] := by
  obtain ⟨sign, int, frac, exp, rfl, _, hi, _, _⟩ := h
  rcases hi with rfl | ⟨d, ds, rfl, _⟩ <;> simp

/-- The texts of the three words. -/
theorem word_chars {t : CStr} (h : IsWord lax t) : ' ' ∉ t ∧ ∃ c r, t = c :: r ∧ c ∈ c!"tfnNI-" ∧ (c = '-' → r.head? = some 'I') := by
  have h' : t ∈ [c!"true", c!"false", c!"null", c!"NaN", c!"Infinity", c!"-Infinity"] := by
    rcases h with h | ⟨_, h⟩
    · exact List.mem_append_left [c!"NaN", c!"Infinity", c!"-Infinity"] h
    · exact List.mem_append_right [c!"true", c!"false", c!"null"] h
  simp only [List.mem_cons, List.not_mem_nil, or_false] at h'
  rcases h' with rfl | rfl | rfl | rfl | rfl | rfl <;> exact ⟨by decide, _, _, rfl, by decide, by decide⟩

/-- What a text that is not empty can begin with. -/
theorem lexes_cons {c : Char} {r : CStr} {ts : List Tok} (h : Lexes lax (c :: r) ts) :
    (c ∈ c!" \t\n\r" ∧ Lexes lax r ts) ∨
    (∃ t ts', punct c = some t ∧ ts = t :: ts' ∧ Lexes lax r ts') ∨
    (c = '"' ∧ ∃ body r' ts', r = body ++ '"' :: r' ∧ StrBody body ∧ ts = .str body :: ts' ∧ Lexes lax r' ts') ∨
    (numChar c = true ∧ ∃ t r' ts', c :: r = t ++ r' ∧ NumText t ∧ (∀ c ∈ r'.head?, goesOn c = false) ∧ ts = .num t :: ts' ∧ Lexes lax r' ts') ∨
    (c ∈ c!"tfnNI-" ∧ ∃ t r' ts', c :: r = t ++ r' ∧ t ≠ [] ∧ ' ' ∉ t ∧ ts = .word t :: ts' ∧ Lexes lax r' ts' ∧ (c = '-' → r.head? = some 'I')) := by
  generalize hx : c :: r = x at h
  cases h with
  | nil => cases hx
  | blank c' r' _ hc hr => cases hx; exact .inl ⟨hc, hr⟩
  | punct c' t r' ts' hp hr => cases hx; exact .inr (.inl ⟨t, ts', hp, rfl, hr⟩)
  | str body r' ts' hb hr => cases hx; exact .inr (.inr (.inl ⟨rfl, body, r', ts', rfl, hb, rfl, hr⟩))
  | num t r' ts' hn hm hr =>
    refine .inr (.inr (.inr (.inl ⟨?_, t, r', ts', rfl, hn, hm, rfl, hr⟩)))
    cases t with
    | nil => exact absurd rfl (numText_ne_nil hn)
    | cons d t => cases hx; exact numText_chars hn _ (by simp)
  | word t r' ts' hw hr =>
    obtain ⟨h1, d, t', rfl, h2, h3⟩ := word_chars hw
    refine .inr (.inr (.inr (.inr ⟨?_, _, r', ts', rfl, by simp, h1, rfl, hr, fun e => ?_⟩)))
    · cases hx; exact h2
    · cases hx
      have := h3 e
      cases t' with
      | nil => cases this
      | cons => exact this

theorem lexes_nil {ts : List Tok} (h : Lexes lax [] ts) : ts = [] := by
  generalize hx : ([] : CStr) = x at h
  cases h with
  | nil => rfl
  | num t r _ hn _ _ => exact absurd (List.append_eq_nil_iff.1 hx.symm).1 (numText_ne_nil hn)
  | word t r _ hw _ =>
    obtain ⟨_, _, _, h, _⟩ := word_chars hw
    rw [(List.append_eq_nil_iff.1 hx.symm).1] at h; cases h
  | _ => cases hx

theorem lexes_blank {c : Char} {r : CStr} {ts : List Tok} (hc : c = ' ' ∨ c = '\n') (h : Lexes lax (c :: r) ts) : Lexes lax r ts := by
  rcases lexes_cons h with ⟨_, h⟩ | ⟨t, _, h1, _⟩ | ⟨rfl, _⟩ | ⟨h1, _⟩ | ⟨h1, _⟩
  · exact h
  · rcases hc with rfl | rfl <;> cases h1
  · exact absurd hc (by decide)
  · rcases hc with rfl | rfl <;> exact absurd h1 (by decide)
  · rcases hc with rfl | rfl <;> exact absurd h1 (by decide)

theorem lexes_punct {c : Char} {t : Tok} {r : CStr} {ts : List Tok} (hc : punct c = some t) (hm : c ∈ c!"{}[],:") (h : Lexes lax (c :: r) ts) :
    ∃ ts', ts = t :: ts' ∧ Lexes lax r ts' := by
  rcases lexes_cons h with ⟨h1, _⟩ | ⟨t', ts', h1, rfl, h2⟩ | ⟨rfl, _⟩ | ⟨h1, _⟩ | ⟨h1, _⟩
  · exact absurd h1 ((by decide : ∀ c ∈ c!"{}[],:", c ∉ c!" \t\n\r") c hm)
  · rw [hc] at h1; cases h1; exact ⟨ts', rfl, h2⟩
  · cases hc
  · exact absurd h1 ((by decide : ∀ c ∈ c!"{}[],:", ¬numChar c = true) c hm)
  · exact absurd h1 ((by decide : ∀ c ∈ c!"{}[],:", c ∉ c!"tfnNI-") c hm)

/-- A name of letters and underscores. -/
def PlainName (k : CStr) : Prop := ∀ c ∈ k, c ≠ '"' ∧ c ≠ '\\'

theorem strBody_plain {k body r r' : CStr} (hk : PlainName k) (hb : StrBody body) (h : k ++ '"' :: r = body ++ '"' :: r') : body = k ∧ r' = r := by
  induction k generalizing body with
  | nil =>
    cases hb with
    | nil => simpa using h.symm
    | plain c b h1 _ _ _ => simp only [List.nil_append, List.cons_append, List.cons.injEq] at h; exact absurd h.1.symm h1
    | escape c b _ _ => simp at h
    | unicode a b c d b' _ _ => simp at h
  | cons c k ih =>
    have hc := hk c (by simp)
    cases hb with
    | nil => simp only [List.nil_append, List.cons_append, List.cons.injEq] at h; exact absurd h.1 hc.1
    | plain c' b h1 _ _ hb' =>
      simp only [List.cons_append, List.cons.injEq] at h
      obtain ⟨h2, h3⟩ := ih (fun x hx => hk x (by simp [hx])) hb' h.2
      exact ⟨by rw [h.1, h2], h3⟩
    | escape c' b _ _ => simp only [List.cons_append, List.cons.injEq] at h; exact absurd h.1 hc.2
    | unicode a b c' d b' _ _ => simp only [List.cons_append, List.cons.injEq] at h; exact absurd h.1 hc.2

theorem lexes_name {k r : CStr} {ts : List Tok} (hk : PlainName k) (h : Lexes lax ('"' :: (k ++ '"' :: r)) ts) :
    ∃ ts', ts = .str k :: ts' ∧ Lexes lax r ts' := by
  rcases lexes_cons h with ⟨h1, _⟩ | ⟨t', ts', h1, _⟩ | ⟨_, body, r', ts', h1, h2, rfl, h3⟩ | ⟨h1, _⟩ | ⟨h1, _⟩
  · exact absurd h1 (by decide)
  · cases h1
  · obtain ⟨rfl, rfl⟩ := strBody_plain hk h2 h1
    exact ⟨ts', rfl, h3⟩
  · exact absurd h1 (by decide)
  · exact absurd h1 (by decide)

theorem showInt_chars (n : Int) : (∀ c ∈ showInt n, numChar c = true) ∧ ∃ c r, showInt n = c :: r ∧ (c = '-' ∨ (Json.digit c).isSome = true) := by
  have hd : ∀ c, (Json.digit c).isSome = true → numChar c = true := fun c hc => by simp [numChar, hc]
  have hs : ∀ m : Nat, ∃ c r, showNat m = c :: r ∧ (Json.digit c).isSome = true := by
    intro m
    cases hx : showNat m with
    | nil => exact absurd hx (showNat_ne_nil m)
    | cons c r => exact ⟨c, r, rfl, showNat_digits m c (by rw [hx]; simp)⟩
  unfold showInt
  split
  · refine ⟨fun c hc => ?_, '-', _, rfl, .inl rfl⟩
    rcases List.mem_cons.1 hc with rfl | hc
    · decide
    · exact hd c (showNat_digits _ c hc)
  · obtain ⟨c, r, h1, h2⟩ := hs n.natAbs
    exact ⟨fun c hc => hd c (showNat_digits _ c hc), c, r, h1, .inr h2⟩

theorem showInt_tail (n : Int) : ∀ c ∈ (showInt n).tail, (Json.digit c).isSome = true := by
  unfold showInt
  split
  · exact showNat_digits _
  · exact fun c hc => showNat_digits _ c (List.mem_of_mem_tail hc)

theorem showInt_neg (n : Int) (h : (showInt n).head? = some '-') : (showInt n).tail ≠ [] := by
  unfold showInt at *
  split
  · exact showNat_ne_nil _
  · rename_i hn
    rw [if_neg hn] at h
    cases hs : showNat n.natAbs with
    | nil => exact absurd hs (showNat_ne_nil _)
    | cons c r =>
      rw [hs] at h
      cases h
      exact absurd (showNat_digits n.natAbs '-' (by rw [hs]; simp)) (by decide)

theorem lexes_int {n : Int} {r : CStr} {ts : List Tok} (hr : ∀ c ∈ r.head?, numChar c = false) (h : Lexes lax (showInt n ++ r) ts) :
    ∃ ts', ts = .num (showInt n) :: ts' ∧ Lexes lax r ts' := by
  obtain ⟨h0, c, t, hc, hd⟩ := showInt_chars n
  have hd' : c ∈ c!"-0123456789" := by
    rcases hd with rfl | hd
    · decide
    · unfold Json.digit at hd
      split at hd <;> simp_all
  have hx : Lexes lax (c :: (t ++ r)) ts := by rw [hc] at h; exact h
  rcases lexes_cons hx with ⟨h1, _⟩ | ⟨t', ts', h1, _⟩ | ⟨h1, _⟩ | ⟨_, t', r', ts', h1, h2, h3, rfl, h4⟩ | ⟨h1, _, _, _, _, _, _, _, _, h2⟩
  · exact absurd h1 ((by decide : ∀ c ∈ c!"-0123456789", c ∉ c!" \t\n\r") c hd')
  · exfalso; revert h1; clear hx h hd hc
    have : ∀ c ∈ c!"-0123456789", punct c = none := by decide
    rw [this c hd']; exact fun h => nomatch h
  · exact absurd h1 ((by decide : ∀ c ∈ c!"-0123456789", ¬c = '"') c hd')
  · have he : showInt n ++ r = t' ++ r' := by rw [hc]; exact h1
    rcases List.append_eq_append_iff.1 he with ⟨a, h5, h6⟩ | ⟨a, h5, h6⟩
    · cases a with
      | nil =>
        rw [List.append_nil] at h5
        exact ⟨ts', by rw [h5], by rw [List.nil_append] at h6; rw [h6]; exact h4⟩
      | cons d a =>
        have h7 := hr d (by rw [h6]; rfl)
        rw [numText_chars h2 d (by rw [h5]; simp)] at h7
        cases h7
    · cases a with
      | nil =>
        rw [List.append_nil] at h5
        exact ⟨ts', by rw [h5], by rw [List.nil_append] at h6; rw [← h6]; exact h4⟩
      | cons d a =>
        have h7 := h3 d (by rw [h6]; rfl)
        have h8 := showInt_tail n d (by
          rw [h5]
          cases t' with
          | nil => exact absurd rfl (numText_ne_nil h2)
          | cons x t' => simp)
        simp [goesOn, h8] at h7
  · exfalso
    by_cases hm : c = '-'
    · have h9 := h2 hm
      have h8 := showInt_tail n
      have h7 := showInt_neg n (by rw [hc, hm]; rfl)
      rw [hc] at h7 h8
      cases t with
      | nil => exact h7 rfl
      | cons d t =>
        cases h9
        exact absurd (h8 'I' (by simp)) (by decide)
    · exact absurd h1 ((by decide : ∀ c ∈ c!"-0123456789", c ≠ '-' → c ∉ c!"tfnNI-") c hd' hm)

/-! ## The lines of a result -/

/-- The lines of members, and the closing brace. -/
def lines : List (CStr × Int) → CStr
  | [] => []
  | [(k, n)] => c!"    " ++ ('"' :: (k ++ '"' :: ':' :: ' ' :: (showInt n ++ c!"\n}")))
  | (k, n) :: ms => c!"    " ++ ('"' :: (k ++ '"' :: ':' :: ' ' :: (showInt n ++ ',' :: '\n' :: lines ms)))

def toks : List (CStr × Int) → List Tok
  | [] => []
  | [(k, n)] => [.str k, .colon, .num (showInt n)]
  | (k, n) :: ms => .str k :: .colon :: .num (showInt n) :: .comma :: toks ms

theorem lexes_lines {ms : List (CStr × Int)} {ts : List Tok} (hne : ms ≠ []) (hk : ∀ m ∈ ms, PlainName m.1) (h : Lexes lax (lines ms) ts) :
    ts = toks ms ++ [.rbrace] := by
  induction ms generalizing ts with
  | nil => exact absurd rfl hne
  | cons m ms ih =>
    obtain ⟨k, n⟩ := m
    have hkk : PlainName k := hk (k, n) (by simp)
    have step : ∀ {r : CStr}, (∀ c ∈ r.head?, numChar c = false) →
        Lexes lax (c!"    " ++ ('"' :: (k ++ '"' :: ':' :: ' ' :: (showInt n ++ r)))) ts →
        ∃ ts', ts = .str k :: .colon :: .num (showInt n) :: ts' ∧ Lexes lax r ts' := by
      intro r hr h
      have h1 := lexes_blank (.inl rfl) (lexes_blank (.inl rfl) (lexes_blank (.inl rfl) (lexes_blank (.inl rfl) h)))
      obtain ⟨t1, e1, h2⟩ := lexes_name hkk h1
      obtain ⟨t2, e2, h3⟩ := lexes_punct (t := .colon) rfl (by decide) h2
      obtain ⟨t3, e3, h4⟩ := lexes_int hr (lexes_blank (.inl rfl) h3)
      exact ⟨t3, by rw [e1, e2, e3], h4⟩
    cases ms with
    | nil =>
      obtain ⟨t, e1, h1⟩ := step (r := c!"\n}") (by decide) h
      obtain ⟨t', e2, h2⟩ := lexes_punct (t := .rbrace) rfl (by decide) (lexes_blank (.inr rfl) h1)
      rw [e1, e2, lexes_nil h2]
      rfl
    | cons m' ms =>
      obtain ⟨t, e1, h1⟩ := step (r := ',' :: '\n' :: lines (m' :: ms)) (by intro c hc; cases hc; decide) h
      obtain ⟨t', e2, h2⟩ := lexes_punct (t := .comma) rfl (by decide) h1
      rw [e1, e2, ih (by simp) (fun m hm => hk m (by simp [hm])) (lexes_blank (.inr rfl) h2)]
      rfl

/-- No quotation mark stands after a blank inside a string. -/
theorem strBody_blank {x y : CStr} (h : StrBody (x ++ ' ' :: '"' :: y)) : False := by
  generalize hb : x ++ ' ' :: '"' :: y = b at h
  induction h generalizing x with
  | nil => simp at hb
  | plain c r h1 h2 h3 hr ih =>
    cases x with
    | nil =>
      simp only [List.nil_append, List.cons.injEq] at hb
      obtain ⟨_, rfl⟩ := hb
      cases hr with
      | plain _ _ h _ _ _ => exact h rfl
    | cons d x => simp only [List.cons_append, List.cons.injEq] at hb; exact ih hb.2
  | escape c r hc hr ih =>
    rcases x with _ | ⟨d, _ | ⟨d', x⟩⟩
    · simp at hb
    · simp only [List.cons_append, List.nil_append, List.cons.injEq] at hb
      rw [← hb.2.1] at hc
      exact absurd hc (by decide)
    · simp only [List.cons_append, List.cons.injEq] at hb
      exact ih hb.2.2
  | unicode a b c d r hx hr ih =>
    have h0 : hexDigit ' ' = false := by decide
    have h1 : hexDigit '"' = false := by decide
    simp only [List.mem_cons, List.not_mem_nil, or_false, forall_eq_or_imp, forall_eq] at hx
    rcases x with _ | ⟨d1, _ | ⟨d2, _ | ⟨d3, _ | ⟨d4, _ | ⟨d5, _ | ⟨d6, x⟩⟩⟩⟩⟩⟩ <;>
      simp only [List.cons_append, List.nil_append, List.cons.injEq] at hb
    · exact absurd hb.1 (by decide)
    · exact absurd hb.2.1 (by decide)
    · rw [← hb.2.2.1, h0] at hx; cases hx.1
    · rw [← hb.2.2.2.1, h0] at hx; cases hx.2.1
    · rw [← hb.2.2.2.2.1, h0] at hx; cases hx.2.2.1
    · rw [← hb.2.2.2.2.2.1, h0] at hx; cases hx.2.2.2
    · exact ih hb.2.2.2.2.2.2

/-- A first name whose first letter begins no token. -/
def SafeStart (ms : List (CStr × Int)) : Prop := ∃ k n ms', ms = (k, n) :: ms' ∧ k.head? = some 'c'

theorem lines_start {ms : List (CStr × Int)} (h : SafeStart ms) : ∃ r, lines ms = ' ' :: ' ' :: ' ' :: ' ' :: '"' :: 'c' :: r := by
  obtain ⟨k, n, ms', rfl, hk⟩ := h
  cases k with
  | nil => cases hk
  | cons c k => cases hk; cases ms' <;> exact ⟨_, rfl⟩

/-- Whatever comes before the lines of a result, in a text that can be taken apart into tokens they are the tokens they are meant to be. -/
theorem lexes_before {ms : List (CStr × Int)} (hk : ∀ m ∈ ms, PlainName m.1) (hs : SafeStart ms) (s : CStr) (ts : List Tok)
    (h : Lexes lax (s ++ lines ms) ts) : ∃ ts', ts = ts' ++ (toks ms ++ [.rbrace]) := by
  obtain ⟨l, hl⟩ := lines_start hs
  induction hn : s.length using Nat.strongRecOn generalizing s ts with
  | ind n ih =>
    cases s with
    | nil =>
      refine ⟨[], lexes_lines ?_ hk h⟩
      obtain ⟨_, _, _, rfl, _⟩ := hs
      simp
    | cons c s =>
      have again : ∀ s' ts', s'.length < (c :: s).length → Lexes lax (s' ++ lines ms) ts' → ∃ ts'', ts' = ts'' ++ (toks ms ++ [.rbrace]) :=
        fun s' ts' hlt h' => ih _ (by rw [← hn]; exact hlt) s' ts' h' rfl
      have inside : ∀ t r', c :: (s ++ lines ms) = t ++ r' → ' ' ∉ t → t ≠ [] → ∃ s', r' = s' ++ lines ms ∧ s'.length < (c :: s).length := by
        intro t r' he h1 h2
        rw [← List.cons_append] at he
        rcases List.append_eq_append_iff.1 he with ⟨a, h3, h4⟩ | ⟨a, h3, h4⟩
        · cases a with
          | nil => exact ⟨[], by simpa using h4.symm, by simp⟩
          | cons d a =>
            rw [hl] at h4
            simp only [List.cons_append, List.cons.injEq] at h4
            exact absurd (by rw [h3, ← h4.1]; simp) h1
        · refine ⟨a, h4, ?_⟩
          rw [h3, List.length_append]
          have := List.length_pos_iff.2 h2
          omega
      rcases lexes_cons h with ⟨_, h1⟩ | ⟨t, ts', _, rfl, h1⟩ | ⟨rfl, body, r', ts', h1, h2, rfl, h3⟩ | ⟨_, t, r', ts', h1, h2, _, rfl, h3⟩ |
        ⟨_, t, r', ts', h1, h2, h4, rfl, h3, _⟩
      · exact again s ts (by simp) h1
      · obtain ⟨u, rfl⟩ := again s ts' (by simp) h1
        exact ⟨t :: u, rfl⟩
      · rcases List.append_eq_append_iff.1 h1 with ⟨a, h4, h5⟩ | ⟨a, h4, h5⟩
        · exfalso
          rw [hl] at h5
          rcases a with _ | ⟨d1, _ | ⟨d2, _ | ⟨d3, _ | ⟨d4, _ | ⟨d5, a⟩⟩⟩⟩⟩ <;>
            simp only [List.cons_append, List.nil_append, List.cons.injEq] at h5
          · exact absurd h5.1 (by decide)
          · exact absurd h5.2.1 (by decide)
          · exact absurd h5.2.2.1 (by decide)
          · exact absurd h5.2.2.2.1 (by decide)
          · rw [← h5.2.2.2.2.2] at h3
            rcases lexes_cons h3 with ⟨h6, _⟩ | ⟨_, _, h6, _⟩ | ⟨h6, _⟩ | ⟨h6, _⟩ | ⟨h6, _⟩
            · exact absurd h6 (by decide)
            · cases h6
            · exact absurd h6 (by decide)
            · exact absurd h6 (by decide)
            · exact absurd h6 (by decide)
          · obtain ⟨rfl, rfl, rfl, rfl, rfl, _⟩ := h5
            rw [h4] at h2
            have e : s ++ ' ' :: ' ' :: ' ' :: ' ' :: '"' :: a = (s ++ c!"   ") ++ ' ' :: '"' :: a := by simp
            rw [e] at h2
            exact strBody_blank h2
        · cases a with
          | nil =>
            rw [hl] at h5
            simp at h5
          | cons d a =>
            simp only [List.cons_append, List.cons.injEq] at h5
            obtain ⟨u, rfl⟩ := again a ts' (by rw [h4]; simp; omega) (h5.2 ▸ h3)
            exact ⟨.str body :: u, rfl⟩
      · obtain ⟨s', rfl, hlt⟩ := inside t r' h1 (fun hm => absurd (numText_chars h2 _ hm) (by decide)) (numText_ne_nil h2)
        obtain ⟨u, rfl⟩ := again s' ts' hlt h3
        exact ⟨.num t :: u, rfl⟩
      · obtain ⟨s', rfl, hlt⟩ := inside t r' h1 h4 h2
        obtain ⟨u, rfl⟩ := again s' ts' hlt h3
        exact ⟨.word t :: u, rfl⟩

/-! ## Values -/

theorem value_num_first {t : CStr} {ts : List Tok} {v : Value} (h : IsValue (.num t :: ts) v) : ts = [] ∧ v = .num t := by
  cases h; exact ⟨rfl, rfl⟩

theorem value_num_last {t : CStr} {ts : List Tok} {v : Value} (h : IsValue (ts ++ [.num t]) v) : ts = [] := by
  generalize hx : ts ++ [.num t] = x at h
  have last : ∀ {a b : List Tok} {y z : Tok}, a ++ [y] = b ++ [z] → y = z := fun h => by simpa using (List.append_inj' h rfl).2
  have one : ∀ {y : Tok}, ts ++ [Tok.num t] = [y] → ts = [] := fun {y} h => by
    have := congrArg List.length h
    simpa using this
  cases h with
  | word => exact one hx
  | num => exact one hx
  | str => exact one hx
  | arrEmpty => cases last (a := ts) (b := [.lbrack]) hx
  | objEmpty => cases last (a := ts) (b := [.lbrace]) hx
  | arr us vs h => rw [← List.cons_append] at hx; cases last hx
  | obj us ms h => rw [← List.cons_append] at hx; cases last hx

/-- The members as a value shows them (`Value.ofInts`). -/
def shown (ms : List (CStr × Int)) : List (CStr × Value) := ms.map fun m => (m.1, .num (showInt m.2))

theorem toks_cons {k : CStr} {n : Int} {ms : List (CStr × Int)} :
    toks ((k, n) :: ms) = .str k :: .colon :: .num (showInt n) :: (if ms = [] then [] else .comma :: toks ms) := by
  cases ms <;> simp [toks]

theorem toks_members {ms : List (CStr × Int)} {vs : List (CStr × Value)} (h : AreMembers (toks ms) vs) : vs = shown ms := by
  induction ms generalizing vs with
  | nil => cases h
  | cons m ms ih =>
    obtain ⟨k, n⟩ := m
    rw [toks_cons] at h
    generalize hx : Tok.str k :: .colon :: .num (showInt n) :: (if ms = [] then [] else .comma :: toks ms) = x at h
    cases h with
    | one k' ts v h =>
      cases hx
      obtain ⟨h1, rfl⟩ := value_num_first h
      cases ms with
      | nil => rfl
      | cons m ms => simp at h1
    | more k' ts us v vs h hr =>
      simp only [List.cons.injEq, Tok.str.injEq] at hx
      obtain ⟨rfl, _, hx⟩ := hx
      cases ts with
      | nil => cases h
      | cons t ts =>
        simp only [List.cons_append, List.cons.injEq] at hx
        obtain ⟨rfl, hx⟩ := hx
        obtain ⟨rfl, rfl⟩ := value_num_first h
        split at hx
        · cases hx
        · cases hx
          rw [ih hr]
          rfl

/-- Before every comma, and at the end, stands a number. -/
theorem toks_split {ms : List (CStr × Int)} {a b : List Tok} (h : toks ms = a ++ b) (hb : b = [] ∨ ∃ us, b = .comma :: us) (ha : a ≠ []) :
    ∃ a' t, a = a' ++ [.num t] := by
  induction ms generalizing a with
  | nil => cases a with
    | nil => exact absurd rfl ha
    | cons => cases h
  | cons m ms ih =>
    obtain ⟨k, n⟩ := m
    rw [toks_cons] at h
    rcases a with _ | ⟨a1, _ | ⟨a2, _ | ⟨a3, a⟩⟩⟩
    · exact absurd rfl ha
    · simp only [List.cons_append, List.nil_append, List.cons.injEq] at h
      rcases hb with rfl | ⟨us, rfl⟩
      · cases h.2
      · cases h.2
    · simp only [List.cons_append, List.nil_append, List.cons.injEq] at h
      rcases hb with rfl | ⟨us, rfl⟩
      · cases h.2.2
      · cases h.2.2
    · simp only [List.cons_append, List.cons.injEq] at h
      obtain ⟨rfl, rfl, rfl, h⟩ := h
      cases a with
      | nil => exact ⟨[.str k, .colon], _, rfl⟩
      | cons c a =>
        split at h
        · cases h
        · simp only [List.cons_append, List.cons.injEq] at h
          obtain ⟨rfl, h⟩ := h
          cases a with
          | nil =>
            rcases hb with rfl | ⟨us, rfl⟩
            · rename_i hne
              cases ms with
              | nil => exact absurd rfl hne
              | cons m ms => obtain ⟨k', n'⟩ := m; rw [toks_cons] at h; cases h
            · cases ms with
              | nil => cases h
              | cons m ms => obtain ⟨k', n'⟩ := m; rw [toks_cons] at h; cases h
          | cons d a =>
            obtain ⟨a', t, e⟩ := ih h (by simp)
            exact ⟨.str k :: .colon :: .num (showInt n) :: .comma :: a', t, by rw [e]; rfl⟩

theorem toks_head {ms : List (CStr × Int)} (h : ms ≠ []) : ∃ k ts, toks ms = .str k :: ts := by
  cases ms with
  | nil => exact absurd rfl h
  | cons m ms => obtain ⟨k, n⟩ := m; rw [toks_cons]; exact ⟨_, _, rfl⟩

/-- Members whose tokens end with those of `ms` end with `ms`. -/
theorem members_suffix {ms : List (CStr × Int)} (hne : ms ≠ []) (ts us : List Tok) (vs : List (CStr × Value)) (h : AreMembers us vs)
    (he : us = ts ++ toks ms) : shown ms <:+ vs := by
  obtain ⟨k0, ts0, h0⟩ := toks_head hne
  induction hn : us.length using Nat.strongRecOn generalizing ts us vs with
  | ind n ih =>
    rcases ts with _ | ⟨x, _ | ⟨y, ts⟩⟩
    · rw [he, List.nil_append] at h
      rw [toks_members h]
      exact List.suffix_refl _
    · cases h <;> · rw [h0] at he; cases he
    · cases h with
      | one k vt v h =>
        exfalso
        simp only [List.cons_append, List.cons.injEq] at he
        obtain ⟨a', t, e⟩ := toks_split (ms := ms) (a := toks ms) (b := []) (by simp) (.inl rfl) (by rw [h0]; simp)
        rw [he.2.2, e, ← List.append_assoc] at h
        have h1 := (List.append_eq_nil_iff.1 (value_num_last h)).2
        rw [h1, h0] at e
        cases e
      | more k vt us v vs h hr =>
        simp only [List.cons_append, List.cons.injEq] at he
        rcases List.append_eq_append_iff.1 he.2.2 with ⟨a, h1, h2⟩ | ⟨a, h1, h2⟩
        · cases a with
          | nil => rw [h0] at h2; cases h2
          | cons c a =>
            simp only [List.cons_append, List.cons.injEq] at h2
            exact (ih us.length (by rw [← hn]; simp; omega) a us vs hr h2.2 rfl).trans (List.suffix_cons _ _)
        · exfalso
          cases a with
          | nil => rw [h0] at h2; cases h2
          | cons c a =>
            obtain ⟨a', t, e⟩ := toks_split h2 (.inr ⟨us, rfl⟩) (by simp)
            rw [h1, e, ← List.append_assoc] at h
            have h3 := (List.append_eq_nil_iff.1 (value_num_last h)).2
            rw [h3] at e
            rw [h0, e] at h2
            cases h2

/-- A JSON text that ends with the lines of `ms` denotes an object whose last members are `ms`. -/
theorem denotes_lines {ms : List (CStr × Int)} (hk : ∀ m ∈ ms, PlainName m.1) (hs : SafeStart ms) (s : CStr) (v : Value)
    (h : Denotes lax (s ++ lines ms) v) : ∃ vs, v = .obj vs ∧ shown ms <:+ vs := by
  obtain ⟨ts, h1, h2⟩ := h
  obtain ⟨us, rfl⟩ := lexes_before hk hs s ts h1
  have hne : ms ≠ [] := by
    obtain ⟨_, _, _, rfl, _⟩ := hs
    simp
  obtain ⟨k0, ts0, h0⟩ := toks_head hne
  generalize hx : us ++ (toks ms ++ [.rbrace]) = x at h2
  rw [← List.append_assoc] at hx
  have last : ∀ {a b : List Tok} {y z : Tok}, a ++ [y] = b ++ [z] → a = b ∧ y = z := fun h => by
    have := List.append_inj' h rfl
    exact ⟨this.1, by simpa using this.2⟩
  have one : ∀ {y : Tok}, us ++ toks ms ++ [Tok.rbrace] = [y] → False := fun {y} h => by
    have := congrArg List.length h
    rw [h0] at this
    simp at this
    omega
  cases h2 with
  | word => exact (one hx).elim
  | num => exact (one hx).elim
  | str => exact (one hx).elim
  | arrEmpty => cases (last (b := [.lbrack]) hx).2
  | objEmpty =>
    have h3 := (last (b := [.lbrace]) hx).1
    rw [h0] at h3
    cases us with
    | nil => cases h3
    | cons u us => simp at h3
  | arr ts vs h => rw [← List.cons_append] at hx; cases (last hx).2
  | obj ts vs h =>
    rw [← List.cons_append] at hx
    have h3 := (last hx).1
    cases us with
    | nil => rw [h0] at h3; cases h3
    | cons u us =>
      simp only [List.cons_append, List.cons.injEq] at h3
      exact ⟨vs, rfl, members_suffix hne us ts vs h h3.2.symm⟩

/-! ## A whole object of integers -/

theorem numText_showInt (n : Int) : NumText (showInt n) := by
  have h : ∀ m : Nat, showNat m = ['0'] ∨ ∃ d ds, showNat m = d :: ds ∧ d ≠ '0' ∧ ∀ c ∈ showNat m, (Json.digit c).isSome = true := by
    intro m
    by_cases hm : m = 0
    · subst hm
      exact .inl (by rw [showNat_small (by omega)]; rfl)
    · refine .inr ?_
      have h1 := showNat_head m (by omega)
      cases hs : showNat m with
      | nil => exact absurd hs (showNat_ne_nil m)
      | cons d ds =>
        rw [hs] at h1
        exact ⟨d, ds, rfl, fun e => h1 (by rw [e]; rfl), by rw [← hs]; exact showNat_digits m⟩
  unfold showInt
  split
  · exact ⟨['-'], showNat n.natAbs, [], [], by simp, .inr rfl, h _, .inl rfl, .inl rfl⟩
  · exact ⟨[], showNat n.natAbs, [], [], by simp, .inl rfl, h _, .inl rfl, .inl rfl⟩

/-- A name of printable characters. -/
def GoodName (k : CStr) : Prop := ∀ c ∈ k, c ≠ '"' ∧ c ≠ '\\' ∧ 32 ≤ c.toNat

theorem GoodName.plain {k : CStr} (h : GoodName k) : PlainName k := fun c hc => ⟨(h c hc).1, (h c hc).2.1⟩

theorem strBody_good {k : CStr} (h : GoodName k) : StrBody k := by
  induction k with
  | nil => exact .nil
  | cons c k ih =>
    obtain ⟨h1, h2, h3⟩ := h c (by simp)
    exact .plain c k h1 h2 h3 (ih fun x hx => h x (by simp [hx]))

theorem lines_lex {ms : List (CStr × Int)} (hne : ms ≠ []) (hk : ∀ m ∈ ms, GoodName m.1) : Lexes lax (lines ms) (toks ms ++ [.rbrace]) := by
  induction ms with
  | nil => exact absurd rfl hne
  | cons m ms ih =>
    obtain ⟨k, n⟩ := m
    have step : ∀ (r : CStr) (ts : List Tok), (∀ c ∈ r.head?, goesOn c = false) → Lexes lax r ts →
        Lexes lax (c!"    " ++ ('"' :: (k ++ '"' :: ':' :: ' ' :: (showInt n ++ r)))) (.str k :: .colon :: .num (showInt n) :: ts) := by
      intro r ts h1 h2
      refine .blank _ _ _ (by decide) (.blank _ _ _ (by decide) (.blank _ _ _ (by decide) (.blank _ _ _ (by decide) ?_)))
      refine .str k _ _ (strBody_good (hk (k, n) (by simp))) (.punct ':' .colon _ _ rfl (.blank _ _ _ (by decide) ?_))
      exact .num _ _ _ (numText_showInt n) h1 h2
    cases ms with
    | nil => exact step c!"\n}" [.rbrace] (by decide) (.blank _ _ _ (by decide) (.punct '}' .rbrace _ _ rfl .nil))
    | cons m' ms =>
      refine step (',' :: '\n' :: lines (m' :: ms)) (.comma :: (toks (m' :: ms) ++ [.rbrace])) (by intro c hc; cases hc; decide) ?_
      exact .punct ',' .comma _ _ rfl (.blank _ _ _ (by decide) (ih (by simp) fun m hm => hk m (by simp [hm])))

theorem members_toks {ms : List (CStr × Int)} (hne : ms ≠ []) : AreMembers (toks ms) (shown ms) := by
  induction ms with
  | nil => exact absurd rfl hne
  | cons m ms ih =>
    obtain ⟨k, n⟩ := m
    cases ms with
    | nil => exact .one k _ _ (.num _)
    | cons m' ms => exact .more k [.num (showInt n)] _ _ _ (.num _) (ih (by simp))

/-- The lines of `ms` between braces denote the object of `ms`, and nothing else. -/
theorem denotes_object {ms : List (CStr × Int)} (hne : ms ≠ []) (hk : ∀ m ∈ ms, GoodName m.1) (v : Value) :
    Denotes lax ('{' :: '\n' :: lines ms) v ↔ v = .ofInts ms := by
  constructor
  · rintro ⟨ts, h1, h2⟩
    obtain ⟨us, rfl, h3⟩ := lexes_punct (t := .lbrace) rfl (by decide) h1
    have h4 := lexes_lines hne (fun m hm => (hk m hm).plain) (lexes_blank (.inr rfl) h3)
    subst h4
    obtain ⟨k0, ts0, h0⟩ := toks_head hne
    generalize hx : Tok.lbrace :: (toks ms ++ [.rbrace]) = x at h2
    cases h2 with
    | objEmpty => rw [h0] at hx; simp at hx
    | obj ts vs h =>
      rw [← List.cons_append, ← List.cons_append] at hx
      have := (List.append_inj' hx rfl).1
      simp only [List.cons.injEq, true_and] at this
      rw [← this] at h
      rw [toks_members h]
      rfl
    | _ => cases hx
  · rintro rfl
    exact ⟨_, .punct '{' .lbrace _ _ rfl (.blank _ _ _ (by decide) (lines_lex hne hk)), .obj _ _ (members_toks hne)⟩

theorem parse_object {ms : List (CStr × Int)} (hne : ms ≠ []) (hk : ∀ m ∈ ms, GoodName m.1) :
    parse lax ('{' :: '\n' :: lines ms) = some (.ofInts ms) := by
  have h : ∃ v, Denotes lax ('{' :: '\n' :: lines ms) v := ⟨_, (denotes_object hne hk _).2 rfl⟩
  rw [parse, dif_pos h, (denotes_object hne hk _).1 h.choose_spec]

theorem parse_some {t : CStr} {v : Value} (h : parse lax t = some v) : Denotes lax t v := by
  unfold parse at h
  split at h
  · rename_i h'
    cases h
    exact h'.choose_spec
  · cases h

/-- A text whose first character begins no value is no JSON. -/
theorem parse_none {c : Char} {r : CStr} (h : c ∉ c!" \t\n\r{}[],:\"tfnNI-+.eE0123456789") : parse lax (c :: r) = none := by
  cases hp : parse lax (c :: r) with
  | none => rfl
  | some v =>
    exfalso
    obtain ⟨ts, h1, _⟩ := parse_some hp
    rcases lexes_cons h1 with ⟨h2, _⟩ | ⟨t, _, h2, _⟩ | ⟨rfl, _⟩ | ⟨h2, _⟩ | ⟨h2, _⟩
    · exact h ((by decide : ∀ c ∈ c!" \t\n\r", c ∈ c!" \t\n\r{}[],:\"tfnNI-+.eE0123456789") c h2)
    · unfold punct at h2
      split at h2 <;> first | exact absurd h (by decide) | cases h2
    · exact absurd h (by decide)
    · simp only [numChar, Bool.or_eq_true, beq_iff_eq] at h2
      unfold Json.digit at h2
      split at h2 <;> simp_all
    · exact h ((by decide : ∀ c ∈ c!"tfnNI-", c ∈ c!" \t\n\r{}[],:\"tfnNI-+.eE0123456789") c h2)

/-- Of several members with the same name the last counts. -/
theorem get_suffix {ms : List (CStr × Int)} {vs : List (CStr × Value)} {k : CStr} (h : shown ms <:+ vs) (hk : ∃ m ∈ ms, m.1 = k) :
    (Value.obj vs).get k = (Value.ofInts ms).get k := by
  obtain ⟨us, rfl⟩ := h
  have hf : ((shown ms).reverse.find? (·.1 = k)).isSome = true := by
    obtain ⟨m, h1, h2⟩ := hk
    rw [List.find?_isSome]
    exact ⟨(m.1, .num (showInt m.2)), by simp only [List.mem_reverse, shown, List.mem_map]; exact ⟨m, h1, rfl⟩, by simp [h2]⟩
  obtain ⟨x, hx⟩ := Option.isSome_iff_exists.1 hf
  have e : Value.ofInts ms = .obj (shown ms) := rfl
  rw [e]
  simp only [Value.get, List.reverse_append, List.find?_append, hx, Option.some_or]

theorem takeWhile_all {p : Char → Bool} {t : CStr} (h : ∀ c ∈ t, p c = true) : t.takeWhile p = t := by
  induction t with
  | nil => rfl
  | cons c t ih => rw [List.takeWhile_cons, if_pos (h c (by simp)), ih fun x hx => h x (by simp [hx])]

theorem zeroText_showInt (n : Int) : zeroText (showInt n) = true ↔ n = 0 := by
  constructor
  · intro h
    have he : ∀ c ∈ showInt n, (c != 'e' && c != 'E') = true := by
      intro c hc
      unfold showInt at hc
      have hd : (Json.digit c).isSome = true ∨ c = '-' := by
        split at hc
        · rcases List.mem_cons.1 hc with rfl | hc
          · exact .inr rfl
          · exact .inl (showNat_digits _ c hc)
        · exact .inl (showNat_digits _ c hc)
      rcases hd with hd | rfl
      · unfold Json.digit at hd
        split at hd <;> first | decide | cases hd
      · decide
    unfold zeroText at h
    rw [takeWhile_all he, List.all_eq_true] at h
    have hz : ∀ m : Nat, (∀ c ∈ showNat m, c = '0') → m = 0 := by
      intro m hm
      by_cases h0 : 0 < m
      · have h1 := showNat_head m h0
        cases hs : showNat m with
        | nil => exact absurd hs (showNat_ne_nil m)
        | cons c r =>
          rw [hs] at h1
          exact absurd (by rw [hm c (by rw [hs]; simp)]; rfl) h1
      · omega
    have hm : n.natAbs = 0 := by
      refine hz _ fun c hc => ?_
      have h1 := h c (by unfold showInt; split <;> simp [hc])
      have h2 := showNat_digits _ c hc
      simp only [Bool.or_eq_true, beq_iff_eq] at h1
      rcases h1 with (rfl | rfl) | rfl
      · exact absurd h2 (by decide)
      · exact absurd h2 (by decide)
      · rfl
    omega
  · rintro rfl
    simp [showInt, showNat, digitChar, zeroText]

end Judger.Spec.JsonText
