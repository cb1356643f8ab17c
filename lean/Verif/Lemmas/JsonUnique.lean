import Verif.Lemmas.JsonText

/-! # A JSON text denotes one value; what may stand around an object -/

set_option autoImplicit false

namespace Judger.Spec.JsonText

variable {lax : Bool}

/-! ## Tokens -/

def isSign (c : Char) : Bool := c == '+' || c == '-'

/-- A sign stands only after 'e' or 'E'. -/
def signsOk : CStr → Bool
  | c :: d :: r => (!isSign d || c == 'e' || c == 'E') && signsOk (d :: r)
  | _ => true

theorem signsOk_none {c : Char} {t : CStr} (h : ∀ d ∈ t, isSign d = false) : signsOk (c :: t) = true := by
  induction t generalizing c with
  | nil => rfl
  | cons d t ih => simp [signsOk, h d (by simp), ih fun x hx => h x (by simp [hx])]

theorem signsOk_append {a b : CStr} (ha : signsOk a = true) (hb : signsOk b = true) (hh : ∀ d ∈ b.head?, isSign d = false) :
    signsOk (a ++ b) = true := by
  induction a with
  | nil => exact hb
  | cons c a ih =>
    cases a with
    | nil =>
      cases b with
      | nil => rfl
      | cons d b => simp [signsOk, hh d rfl, hb]
    | cons d a =>
      simp only [signsOk, List.cons_append, Bool.and_eq_true] at ha ⊢
      exact ⟨ha.1, ih ha.2⟩

theorem digit_notSign {c : Char} (h : (Json.digit c).isSome = true) : isSign c = false := by
  unfold Json.digit at h
  split at h <;> first | decide | cases h

theorem numText_signs {t : CStr} (h : NumText t) : signsOk t = true := by
  obtain ⟨sign, int, frac, exp, rfl, hs, hi, hf, he⟩ := h
  have hint : signsOk int = true ∧ ∀ d ∈ int.head?, isSign d = false := by
    rcases hi with rfl | ⟨d, ds, rfl, _, h⟩
    · decide
    · exact ⟨signsOk_none fun x hx => digit_notSign (h x (by simp [hx])), fun x hx => by cases hx; exact digit_notSign (h _ (by simp))⟩
  have hfrac : signsOk frac = true ∧ ∀ d ∈ frac.head?, isSign d = false := by
    rcases hf with rfl | ⟨ds, rfl, _, h⟩
    · decide
    · exact ⟨signsOk_none fun x hx => digit_notSign (h x hx), fun x hx => by cases hx; decide⟩
  have hexp : signsOk exp = true ∧ ∀ d ∈ exp.head?, isSign d = false := by
    rcases he with rfl | ⟨e, s, ds, rfl, h1, h2, _, h⟩
    · decide
    · have h3 : ∀ d ∈ ds, isSign d = false := fun d hd => digit_notSign (h d hd)
      refine ⟨?_, fun x hx => by cases hx; rcases h1 with rfl | rfl <;> decide⟩
      rcases h2 with rfl | rfl | rfl
      · exact signsOk_none h3
      · rcases h1 with rfl | rfl <;> simp [signsOk, signsOk_none h3]
      · rcases h1 with rfl | rfl <;> simp [signsOk, signsOk_none h3]
  have h1 : signsOk (frac ++ exp) = true ∧ ∀ d ∈ (frac ++ exp).head?, isSign d = false :=
    ⟨signsOk_append hfrac.1 hexp.1 hexp.2, fun d hd => by
      cases frac with
      | nil => exact hexp.2 d hd
      | cons => exact hfrac.2 d hd⟩
  have h2 : signsOk (int ++ (frac ++ exp)) = true ∧ ∀ d ∈ (int ++ (frac ++ exp)).head?, isSign d = false :=
    ⟨signsOk_append hint.1 h1.1 h1.2, fun d hd => by
      cases int with
      | nil => exact h1.2 d hd
      | cons => exact hint.2 d hd⟩
  refine signsOk_append ?_ h2.1 h2.2
  rcases hs with rfl | rfl <;> rfl

/-- The last character of a number is a digit. -/
theorem numText_last {t : CStr} (h : NumText t) : ∃ a d, t = a ++ [d] ∧ (Json.digit d).isSome = true := by
  have hd : ∀ {ds : CStr}, ds ≠ [] → (∀ c ∈ ds, (Json.digit c).isSome = true) → ∃ a d, ds = a ++ [d] ∧ (Json.digit d).isSome = true := by
    intro ds h1 h2
    exact ⟨ds.dropLast, ds.getLast h1, (List.dropLast_concat_getLast h1).symm, h2 _ (List.getLast_mem h1)⟩
  obtain ⟨sign, int, frac, exp, rfl, hs, hi, hf, he⟩ := h
  rcases he with rfl | ⟨e, s, ds, rfl, h1, h2, h3, h⟩
  · rcases hf with rfl | ⟨ds, rfl, h3, h⟩
    · have hi' : ∃ a d, int = a ++ [d] ∧ (Json.digit d).isSome = true := by
        rcases hi with rfl | ⟨d, ds, rfl, _, h⟩
        · exact ⟨[], '0', rfl, by decide⟩
        · exact hd (by simp) h
      obtain ⟨a, d, rfl, h4⟩ := hi'
      exact ⟨sign ++ a, d, by simp, h4⟩
    · obtain ⟨a, d, rfl, h4⟩ := hd h3 h
      exact ⟨sign ++ (int ++ '.' :: a), d, by simp, h4⟩
  · obtain ⟨a, d, rfl, h4⟩ := hd h3 h
    exact ⟨sign ++ (int ++ (frac ++ e :: (s ++ a))), d, by simp, h4⟩

theorem signsOk_suffix {a b : CStr} (h : signsOk (a ++ b) = true) : signsOk b = true := by
  induction a with
  | nil => exact h
  | cons c a ih =>
    refine ih ?_
    cases hx : a ++ b with
    | nil => rfl
    | cons d r =>
      rw [List.cons_append, hx] at h
      simp only [signsOk, Bool.and_eq_true] at h
      exact h.2

/-- A number is not the beginning of a longer number unless it can go on. -/
theorem numText_stops {t a : CStr} {d : Char} (h : NumText t) (h' : NumText (t ++ d :: a)) : goesOn d = true := by
  obtain ⟨b, x, rfl, hx⟩ := numText_last h
  have h1 := numText_chars h' d (by simp)
  have h2 := numText_signs h'
  rw [List.append_assoc] at h2
  have h3 := signsOk_suffix h2
  simp only [List.cons_append, List.nil_append, signsOk, Bool.and_eq_true] at h3
  have hs : isSign d = false := by
    have h4 := h3.1
    simp only [Bool.or_eq_true, Bool.not_eq_true', beq_iff_eq] at h4
    rcases h4 with (h4 | rfl) | rfl
    · exact h4
    · exact absurd hx (by decide)
    · exact absurd hx (by decide)
  simp only [isSign, Bool.or_eq_false_iff, beq_eq_false_iff_ne] at hs
  simp only [numChar, goesOn, Bool.or_eq_true, beq_iff_eq] at h1 ⊢
  grind

theorem numText_unique {t t' r r' : CStr} (h : NumText t) (h' : NumText t') (hr : ∀ c ∈ r.head?, goesOn c = false)
    (hr' : ∀ c ∈ r'.head?, goesOn c = false) (he : t ++ r = t' ++ r') : t = t' ∧ r = r' := by
  rcases List.append_eq_append_iff.1 he with ⟨a, h1, h2⟩ | ⟨a, h1, h2⟩
  · cases a with
    | nil => exact ⟨by simpa using h1.symm, by simpa using h2⟩
    | cons d a =>
      have := numText_stops h (h1 ▸ h')
      rw [hr d (by rw [h2]; rfl)] at this
      cases this
  · cases a with
    | nil => exact ⟨by simpa using h1, by simpa using h2.symm⟩
    | cons d a =>
      have := numText_stops h' (h1 ▸ h)
      rw [hr' d (by rw [h2]; rfl)] at this
      cases this

theorem strBody_unique {b b' r r' : CStr} (h : StrBody b) (h' : StrBody b') (he : b ++ '"' :: r = b' ++ '"' :: r') : b = b' ∧ r = r' := by
  induction h generalizing b' with
  | nil =>
    cases h' with
    | nil => simpa using he
    | plain c x h1 _ _ _ => simp only [List.nil_append, List.cons_append, List.cons.injEq] at he; exact absurd he.1.symm h1
    | escape => simp at he
    | unicode => simp at he
  | plain c x h1 h2 h3 hr ih =>
    cases h' with
    | nil => simp only [List.nil_append, List.cons_append, List.cons.injEq] at he; exact absurd he.1 h1
    | plain c' x' _ _ _ hr' =>
      simp only [List.cons_append, List.cons.injEq] at he
      obtain ⟨rfl, rfl⟩ := ih hr' he.2
      exact ⟨by rw [he.1], rfl⟩
    | escape => simp only [List.cons_append, List.cons.injEq] at he; exact absurd he.1 h2
    | unicode => simp only [List.cons_append, List.cons.injEq] at he; exact absurd he.1 h2
  | escape c x hc hr ih =>
    cases h' with
    | nil => simp at he
    | plain c' x' _ h2 _ _ => simp only [List.cons_append, List.cons.injEq] at he; exact absurd he.1.symm h2
    | escape c' x' _ hr' =>
      simp only [List.cons_append, List.cons.injEq, true_and] at he
      obtain ⟨rfl, rfl⟩ := ih hr' he.2
      exact ⟨by rw [he.1], rfl⟩
    | unicode =>
      simp only [List.cons_append, List.cons.injEq, true_and] at he
      rw [he.1] at hc
      exact absurd hc (by decide)
  | unicode a1 a2 a3 a4 x hx hr ih =>
    cases h' with
    | nil => simp at he
    | plain c' x' _ h2 _ _ => simp only [List.cons_append, List.cons.injEq] at he; exact absurd he.1.symm h2
    | escape c' x' hc' hr' =>
      simp only [List.cons_append, List.cons.injEq, true_and] at he
      rw [← he.1] at hc'
      exact absurd hc' (by decide)
    | unicode b1 b2 b3 b4 x' _ hr' =>
      simp only [List.cons_append, List.cons.injEq, true_and] at he
      obtain ⟨rfl, rfl⟩ := ih hr' he.2.2.2.2
      exact ⟨by rw [he.1, he.2.1, he.2.2.1, he.2.2.2.1], rfl⟩

theorem word_unique {t t' r r' : CStr} (h : IsWord lax t) (h' : IsWord lax t') (he : t ++ r = t' ++ r') : t = t' ∧ r = r' := by
  have all : ∀ {t}, IsWord lax t → t ∈ [c!"true", c!"false", c!"null", c!"NaN", c!"Infinity", c!"-Infinity"] := by
    intro t h
    rcases h with h | ⟨_, h⟩
    · exact List.mem_append_left [c!"NaN", c!"Infinity", c!"-Infinity"] h
    · exact List.mem_append_right [c!"true", c!"false", c!"null"] h
  have h1 := all h
  have h2 := all h'
  simp only [List.mem_cons, List.not_mem_nil, or_false] at h1 h2
  have ht : t = t' := by
    rcases h1 with rfl | rfl | rfl | rfl | rfl | rfl <;> rcases h2 with rfl | rfl | rfl | rfl | rfl | rfl <;>
      first | rfl | (simp only [List.cons_append, List.cons.injEq] at he; exact absurd he.1 (by decide)) | (simp only [List.cons_append, List.cons.injEq] at he; exact absurd he.2.1 (by decide))
  subst ht
  exact ⟨rfl, List.append_cancel_left he⟩

/-- The five kinds of token, and blanks, begin differently. -/
inductive Kind where
  | blank | punct | str | num | word
  deriving DecidableEq

/-- How a text that is not empty begins. -/
inductive Begins (lax : Bool) (c : Char) (r : CStr) : Kind → List Tok → Prop
  | blank (ts : List Tok) : c ∈ c!" \t\n\r" → Lexes lax r ts → Begins lax c r .blank ts
  | punct (t : Tok) (ts : List Tok) : JsonText.punct c = some t → Lexes lax r ts → Begins lax c r .punct (t :: ts)
  | str (body r' : CStr) (ts : List Tok) : c = '"' → r = body ++ '"' :: r' → StrBody body → Lexes lax r' ts → Begins lax c r .str (.str body :: ts)
  | num (t r' : CStr) (ts : List Tok) : c :: r = t ++ r' → NumText t → (∀ c ∈ r'.head?, goesOn c = false) → Lexes lax r' ts →
      Begins lax c r .num (.num t :: ts)
  | word (t r' : CStr) (ts : List Tok) : c :: r = t ++ r' → IsWord lax t → Lexes lax r' ts → Begins lax c r .word (.word t :: ts)

theorem lexes_begins {c : Char} {r : CStr} {ts : List Tok} (h : Lexes lax (c :: r) ts) : ∃ k, Begins lax c r k ts := by
  generalize hx : c :: r = x at h
  cases h with
  | nil => cases hx
  | blank c' r' _ hc hr => cases hx; exact ⟨_, .blank _ hc hr⟩
  | punct c' t r' ts' hp hr => cases hx; exact ⟨_, .punct _ _ hp hr⟩
  | str body r' ts' hb hr => cases hx; exact ⟨_, .str _ _ _ rfl rfl hb hr⟩
  | num t r' ts' hn hm hr => exact ⟨_, .num _ _ _ hx hn hm hr⟩
  | word t r' ts' hw hr => exact ⟨_, .word _ _ _ hx hw hr⟩

/-- The first character of a number, and for '-' the second. -/
theorem numText_first {c : Char} {r t r' : CStr} (h : NumText t) (he : c :: r = t ++ r') :
    (Json.digit c).isSome = true ∨ (c = '-' ∧ ∃ d r'', r = d :: r'' ∧ (Json.digit d).isSome = true) := by
  obtain ⟨sign, int, frac, exp, rfl, hs, hi, _, _⟩ := h
  have hi' : ∃ d ds, int = d :: ds ∧ (Json.digit d).isSome = true := by
    rcases hi with rfl | ⟨d, ds, rfl, _, h⟩
    · exact ⟨_, _, rfl, by decide⟩
    · exact ⟨d, ds, rfl, h d (by simp)⟩
  obtain ⟨d, ds, rfl, hd⟩ := hi'
  rcases hs with rfl | rfl
  · simp only [List.nil_append, List.cons_append, List.cons.injEq] at he
    rw [he.1]; exact .inl hd
  · simp only [List.nil_append, List.cons_append, List.cons.injEq] at he
    exact .inr ⟨he.1, d, _, he.2, hd⟩

/-- The kind the first characters tell. -/
def kindOf (c : Char) (r : CStr) : Option Kind :=
  if c ∈ c!" \t\n\r" then some .blank
  else if (punct c).isSome then some .punct
  else if c = '"' then some .str
  else if (Json.digit c).isSome then some .num
  else if c = '-' then (if r.head? = some 'I' then some .word else some .num)
  else some .word

theorem begins_kind {c : Char} {r : CStr} {k : Kind} {ts : List Tok} (h : Begins lax c r k ts) : kindOf c r = some k := by
  cases h with
  | blank _ h _ => unfold kindOf; rw [if_pos h]
  | punct t ts h _ =>
    unfold punct at h
    split at h <;> cases h <;> rfl
  | str body r' ts h _ _ _ => subst h; rfl
  | num t r' ts he h _ _ =>
    rcases numText_first h he with h1 | ⟨rfl, d, r'', rfl, h1⟩
    · have : c ∈ c!"0123456789" := by
        unfold Json.digit at h1
        split at h1 <;> first | decide | cases h1
      unfold kindOf
      rw [if_neg ((by decide : ∀ c ∈ c!"0123456789", c ∉ c!" \t\n\r") c this),
        if_neg ((by decide : ∀ c ∈ c!"0123456789", ¬(JsonText.punct c).isSome = true) c this),
        if_neg ((by decide : ∀ c ∈ c!"0123456789", ¬c = '"') c this), if_pos h1]
    · have hd : d ≠ 'I' := fun e => by rw [e] at h1; exact absurd h1 (by decide)
      unfold kindOf
      rw [if_neg (by decide), if_neg (by decide), if_neg (by decide), if_neg (by decide), if_pos rfl, if_neg (by simpa using hd)]
  | word t r' ts he h _ =>
    obtain ⟨_, d, t', rfl, h2, h3⟩ := word_chars h
    simp only [List.cons_append, List.cons.injEq] at he
    obtain ⟨rfl, rfl⟩ := he
    unfold kindOf
    rw [if_neg ((by decide : ∀ c ∈ c!"tfnNI-", c ∉ c!" \t\n\r") c h2),
      if_neg ((by decide : ∀ c ∈ c!"tfnNI-", ¬(JsonText.punct c).isSome = true) c h2),
      if_neg ((by decide : ∀ c ∈ c!"tfnNI-", ¬c = '"') c h2), if_neg ((by decide : ∀ c ∈ c!"tfnNI-", ¬(Json.digit c).isSome = true) c h2)]
    split
    · rename_i hc
      have := h3 hc
      cases t' with
      | nil => cases this
      | cons x t' => exact if_pos this
    · rfl

/-- A text can be taken apart in one way only. -/
theorem lexes_unique {s : CStr} {ts us : List Tok} (h : Lexes lax s ts) (h' : Lexes lax s us) : ts = us := by
  induction hn : s.length using Nat.strongRecOn generalizing s ts us with
  | ind n ih =>
    cases s with
    | nil => rw [lexes_nil h, lexes_nil h']
    | cons c r =>
      have again : ∀ {r' : CStr} {ts us : List Tok}, r'.length < (c :: r).length → Lexes lax r' ts → Lexes lax r' us → ts = us :=
        fun hlt h h' => ih _ (by rw [← hn]; exact hlt) h h' rfl
      obtain ⟨k, h1⟩ := lexes_begins h
      obtain ⟨k', h2⟩ := lexes_begins h'
      obtain rfl : k = k' := by
        have := (begins_kind h1).symm.trans (begins_kind h2)
        simpa using this
      cases h1 with
      | blank _ _ h1 =>
        cases h2 with
        | blank _ _ h2 => exact again (by simp) h1 h2
      | punct t ts e1 h1 =>
        cases h2 with
        | punct t' us e2 h2 =>
          rw [e1] at e2
          cases e2
          rw [again (by simp) h1 h2]
      | str b r1 ts _ e1 b1 h1 =>
        cases h2 with
        | str b' r2 us _ e2 b2 h2 =>
          obtain ⟨rfl, rfl⟩ := strBody_unique b1 b2 (e1.symm.trans e2)
          rw [again (by rw [e1]; simp; omega) h1 h2]
      | num t r1 ts e1 n1 g1 h1 =>
        cases h2 with
        | num t' r2 us e2 n2 g2 h2 =>
          obtain ⟨rfl, rfl⟩ := numText_unique n1 n2 g1 g2 (e1.symm.trans e2)
          have := List.length_pos_iff.2 (numText_ne_nil n1)
          rw [again (by rw [e1]; simp; omega) h1 h2]
      | word t r1 ts e1 n1 h1 =>
        cases h2 with
        | word t' r2 us e2 n2 h2 =>
          obtain ⟨rfl, rfl⟩ := word_unique n1 n2 (e1.symm.trans e2)
          obtain ⟨_, d, t', rfl, _⟩ := word_chars n1
          rw [again (by rw [e1]; simp; omega) h1 h2]

/-! ## Brackets -/

def depth : Tok → Int
  | .lbrace | .lbrack => 1
  | .rbrace | .rbrack => -1
  | _ => 0

def bal : List Tok → Int
  | [] => 0
  | t :: ts => depth t + bal ts

theorem bal_append (a b : List Tok) : bal (a ++ b) = bal a + bal b := by
  induction a with
  | nil => simp [bal]
  | cons t a ih => simp only [List.cons_append, bal, ih]; omega

/-- Brackets are closed, and none before it was opened. -/
def Closed (ts : List Tok) : Prop := bal ts = 0 ∧ ∀ a b, ts = a ++ b → 0 ≤ bal a

theorem Closed.append {x y : List Tok} (hx : Closed x) (hy : Closed y) : Closed (x ++ y) := by
  refine ⟨by rw [bal_append, hx.1, hy.1]; rfl, fun a b h => ?_⟩
  rcases List.append_eq_append_iff.1 h with ⟨c, h1, h2⟩ | ⟨c, h1, h2⟩
  · rw [h1, bal_append, hx.1]
    have := hy.2 c b h2
    omega
  · exact hx.2 a c h1

theorem closed_one {t : Tok} (h : depth t = 0) : Closed [t] := by
  refine ⟨by simp [bal, h], fun a b e => ?_⟩
  cases a with
  | nil => simp [bal]
  | cons x a =>
    simp only [List.cons_append, List.cons.injEq] at e
    obtain ⟨rfl, e⟩ := e
    have := (List.append_eq_nil_iff.1 e.symm).1
    subst this
    simp [bal, h]

theorem closed_between {l r : Tok} (hl : depth l = 1) (hr : depth r = -1) {ts : List Tok} (h : Closed ts) : Closed (l :: (ts ++ [r])) := by
  refine ⟨by simp [bal, bal_append, hl, hr, h.1], fun a b e => ?_⟩
  cases a with
  | nil => simp [bal]
  | cons x a =>
    simp only [List.cons_append, List.cons.injEq] at e
    obtain ⟨rfl, e⟩ := e
    simp only [bal, hl]
    rcases List.append_eq_append_iff.1 e with ⟨c, h1, h2⟩ | ⟨c, h1, h2⟩
    · rw [h1, bal_append, h.1]
      cases c with
      | nil => simp [bal]
      | cons y c =>
        simp only [List.cons_append, List.cons.injEq] at h2
        obtain ⟨rfl, h2⟩ := h2
        have := (List.append_eq_nil_iff.1 h2.symm).1
        subst this
        simp [bal, hr]
    · have := h.2 a c h1
      omega

theorem closed_nil : Closed [] := ⟨rfl, fun a b h => by
  have := (List.append_eq_nil_iff.1 h.symm).1
  subst this
  simp [bal]⟩

theorem closed_value {ts : List Tok} {v : Value} (h : IsValue ts v) : Closed ts :=
  IsValue.rec (motive_1 := fun ts _ _ => Closed ts) (motive_2 := fun ts _ _ => Closed ts) (motive_3 := fun ts _ _ => Closed ts)
    (fun _ => closed_one rfl) (fun _ => closed_one rfl) (fun _ => closed_one rfl)
    (closed_between (ts := []) rfl rfl closed_nil) (fun _ _ _ h => closed_between rfl rfl h)
    (closed_between (ts := []) rfl rfl closed_nil) (fun _ _ _ h => closed_between rfl rfl h)
    (fun _ _ _ h => h) (fun _ _ _ _ _ _ h1 h2 => h1.append ((closed_one (t := .comma) rfl).append h2))
    (fun _ _ _ _ h => (closed_one (t := .str _) rfl).append ((closed_one (t := .colon) rfl).append h))
    (fun _ _ _ _ _ _ _ h1 h2 => (closed_one (t := .str _) rfl).append ((closed_one (t := .colon) rfl).append (h1.append ((closed_one (t := .comma) rfl).append h2))))
    h

theorem closed_items {ts : List Tok} {vs : List Value} (h : AreItems ts vs) : Closed ts :=
  AreItems.rec (motive_1 := fun ts _ _ => Closed ts) (motive_2 := fun ts _ _ => Closed ts) (motive_3 := fun ts _ _ => Closed ts)
    (fun _ => closed_one rfl) (fun _ => closed_one rfl) (fun _ => closed_one rfl)
    (closed_between (ts := []) rfl rfl closed_nil) (fun _ _ _ h => closed_between rfl rfl h)
    (closed_between (ts := []) rfl rfl closed_nil) (fun _ _ _ h => closed_between rfl rfl h)
    (fun _ _ _ h => h) (fun _ _ _ _ _ _ h1 h2 => h1.append ((closed_one (t := .comma) rfl).append h2))
    (fun _ _ _ _ h => (closed_one (t := .str _) rfl).append ((closed_one (t := .colon) rfl).append h))
    (fun _ _ _ _ _ _ _ h1 h2 => (closed_one (t := .str _) rfl).append ((closed_one (t := .colon) rfl).append (h1.append ((closed_one (t := .comma) rfl).append h2))))
    h

theorem closed_members {ts : List Tok} {ms : List (CStr × Value)} (h : AreMembers ts ms) : Closed ts :=
  AreMembers.rec (motive_1 := fun ts _ _ => Closed ts) (motive_2 := fun ts _ _ => Closed ts) (motive_3 := fun ts _ _ => Closed ts)
    (fun _ => closed_one rfl) (fun _ => closed_one rfl) (fun _ => closed_one rfl)
    (closed_between (ts := []) rfl rfl closed_nil) (fun _ _ _ h => closed_between rfl rfl h)
    (closed_between (ts := []) rfl rfl closed_nil) (fun _ _ _ h => closed_between rfl rfl h)
    (fun _ _ _ h => h) (fun _ _ _ _ _ _ h1 h2 => h1.append ((closed_one (t := .comma) rfl).append h2))
    (fun _ _ _ _ h => (closed_one (t := .str _) rfl).append ((closed_one (t := .colon) rfl).append h))
    (fun _ _ _ _ _ _ _ h1 h2 => (closed_one (t := .str _) rfl).append ((closed_one (t := .colon) rfl).append (h1.append ((closed_one (t := .comma) rfl).append h2))))
    h

/-- Within a value, something remains open until its end. -/
theorem value_open {ts : List Tok} {v : Value} (h : IsValue ts v) {a b : List Tok} (he : ts = a ++ b) (ha : a ≠ []) (hb : b ≠ []) : 0 < bal a := by
  have one : ∀ {t : Tok}, [t] = a ++ b → False := fun {t} e => by
    have := congrArg List.length e
    have h1 := List.length_pos_iff.2 ha
    have h2 := List.length_pos_iff.2 hb
    simp at this
    omega
  have inside : ∀ {l r : Tok} {us : List Tok}, depth l = 1 → Closed us → l :: (us ++ [r]) = a ++ b → 0 < bal a := by
    intro l r us hl hc e
    cases a with
    | nil => exact absurd rfl ha
    | cons x a =>
      simp only [List.cons_append, List.cons.injEq] at e
      obtain ⟨rfl, e⟩ := e
      rcases List.append_eq_append_iff.1 e with ⟨c, h1, h2⟩ | ⟨c, h1, h2⟩
      · cases c with
        | nil =>
          rw [List.append_nil] at h1
          rw [h1, bal, hl, hc.1]
          decide
        | cons y c =>
          simp only [List.cons_append, List.cons.injEq] at h2
          exact absurd (List.append_eq_nil_iff.1 h2.2.symm).2 hb
      · have := hc.2 a c h1
        simp only [bal, hl]
        omega
  cases h with
  | word => exact (one he).elim
  | num => exact (one he).elim
  | str => exact (one he).elim
  | arrEmpty => exact inside (us := []) rfl closed_nil he
  | arr us vs h => exact inside rfl (closed_items h) he
  | objEmpty => exact inside (us := []) rfl closed_nil he
  | obj us ms h => exact inside rfl (closed_members h) he

theorem value_ne_nil {ts : List Tok} {v : Value} (h : IsValue ts v) : ts ≠ [] := by
  cases h <;> simp

/-- Values that are followed by a comma or by nothing end at the same place. -/
theorem value_ends {ts us x y : List Tok} {v w : Value} (h : IsValue ts v) (h' : IsValue us w) (he : ts ++ x = us ++ y) : ts = us ∧ x = y := by
  rcases List.append_eq_append_iff.1 he with ⟨c, h1, h2⟩ | ⟨c, h1, h2⟩
  · cases c with
    | nil => exact ⟨by simpa using h1.symm, by simpa using h2⟩
    | cons t c =>
      have := value_open h' h1 (value_ne_nil h) (by simp)
      rw [(closed_value h).1] at this
      exact absurd this (by decide)
  · cases c with
    | nil => exact ⟨by simpa using h1, by simpa using h2.symm⟩
    | cons t c =>
      have := value_open h h1 (value_ne_nil h') (by simp)
      rw [(closed_value h').1] at this
      exact absurd this (by decide)

/-! ## One value -/

theorem values_unique : ∀ n, (∀ (ts : List Tok) (v w : Value), ts.length ≤ n → IsValue ts v → IsValue ts w → v = w) ∧
    (∀ (ts : List Tok) (vs ws : List Value), ts.length ≤ n → AreItems ts vs → AreItems ts ws → vs = ws) ∧
    (∀ (ts : List Tok) (vs ws : List (CStr × Value)), ts.length ≤ n → AreMembers ts vs → AreMembers ts ws → vs = ws) := by
  intro n
  induction n with
  | zero =>
    refine ⟨fun ts v w hn h _ => ?_, fun ts vs ws hn h _ => ?_, fun ts vs ws hn h _ => ?_⟩
    · exact absurd (List.eq_nil_of_length_eq_zero (by omega)) (value_ne_nil h)
    · cases h with
      | one _ _ h => exact absurd (List.eq_nil_of_length_eq_zero (by omega)) (value_ne_nil h)
      | more => simp at hn
    · cases h <;> simp at hn
  | succ n ih =>
    obtain ⟨iv, ii, im⟩ := ih
    have hv : ∀ (ts : List Tok) (v w : Value), ts.length ≤ n + 1 → IsValue ts v → IsValue ts w → v = w := by
      intro ts v w hn h h'
      have last : ∀ {a b : List Tok} {y z : Tok}, a ++ [y] = b ++ [z] → a = b := fun h => (List.append_inj' h rfl).1
      cases h with
      | word t => cases h'; rfl
      | num t => cases h'; rfl
      | str t => cases h'; rfl
      | arrEmpty =>
        generalize hx : [Tok.lbrack, .rbrack] = x at h'
        cases h' with
        | arrEmpty => rfl
        | arr us ws h' =>
          simp only [List.cons.injEq, true_and] at hx
          have := last (a := []) hx
          subst this
          generalize hy : ([] : List Tok) = y at h'
          cases h' with
          | one _ _ h => exact absurd hy.symm (value_ne_nil h)
          | more => simp at hy
        | _ => cases hx
      | objEmpty =>
        generalize hx : [Tok.lbrace, .rbrace] = x at h'
        cases h' with
        | objEmpty => rfl
        | obj us ws h' =>
          simp only [List.cons.injEq, true_and] at hx
          have := last (a := []) hx
          subst this
          cases h'
        | _ => cases hx
      | arr us vs h =>
        generalize hx : Tok.lbrack :: (us ++ [.rbrack]) = x at h'
        cases h' with
        | arrEmpty =>
          simp only [List.cons.injEq, true_and] at hx
          have := last (b := []) hx
          subst this
          generalize hy : ([] : List Tok) = y at h
          cases h with
          | one _ _ h => exact absurd hy.symm (value_ne_nil h)
          | more => simp at hy
        | arr us' ws h' =>
          simp only [List.cons.injEq, true_and] at hx
          have := last hx
          subst this
          rw [ii us vs ws (by simp at hn; omega) h h']
        | _ => cases hx
      | obj us vs h =>
        generalize hx : Tok.lbrace :: (us ++ [.rbrace]) = x at h'
        cases h' with
        | objEmpty =>
          simp only [List.cons.injEq, true_and] at hx
          have := last (b := []) hx
          subst this
          cases h
        | obj us' ws h' =>
          simp only [List.cons.injEq, true_and] at hx
          have := last hx
          subst this
          rw [im us vs ws (by simp at hn; omega) h h']
        | _ => cases hx
    refine ⟨hv, fun ts vs ws hn h h' => ?_, fun ts vs ws hn h h' => ?_⟩
    · cases h with
      | one _ v h =>
        generalize hx : ts = x at h'
        cases h' with
        | one _ w h' => rw [hv ts v w hn h (hx ▸ h')]
        | more us us' w ws h' hr =>
          have := (value_ends (x := []) h h' (by rw [List.append_nil]; exact hx)).2
          cases this
      | more a b v vs h hr =>
        generalize hx : a ++ .comma :: b = x at h'
        cases h' with
        | one _ w h' =>
          have := (value_ends (x := .comma :: b) (y := []) h h' (by rw [List.append_nil x]; exact hx)).2
          cases this
        | more a' b' w ws h' hr' =>
          obtain ⟨rfl, e⟩ := value_ends h h' hx
          cases e
          rw [hv a v w (by simp at hn; omega) h h', ii b vs ws (by simp at hn; omega) hr hr']
    · cases h with
      | one k a v h =>
        generalize hx : Tok.str k :: .colon :: a = x at h'
        cases h' with
        | one k' a' w h' =>
          cases hx
          rw [hv a v w (by simp at hn; omega) h h']
        | more k' a' b' w ws h' hr =>
          simp only [List.cons.injEq, Tok.str.injEq, true_and] at hx
          have := (value_ends (x := []) h h' (by rw [List.append_nil]; exact hx.2)).2
          cases this
      | more k a b v vs h hr =>
        generalize hx : Tok.str k :: .colon :: (a ++ .comma :: b) = x at h'
        cases h' with
        | one k' a' w h' =>
          simp only [List.cons.injEq, Tok.str.injEq, true_and] at hx
          have := (value_ends (x := .comma :: b) (y := []) h h' (by rw [List.append_nil a']; exact hx.2)).2
          cases this
        | more k' a' b' w ws h' hr' =>
          simp only [List.cons.injEq, Tok.str.injEq, true_and] at hx
          obtain ⟨rfl, hx⟩ := hx
          obtain ⟨rfl, e⟩ := value_ends h h' hx
          cases e
          rw [hv a v w (by simp at hn; omega) h h', im b vs ws (by simp at hn; omega) hr hr']

/-- A text denotes at most one value. -/
theorem denotes_unique {t : CStr} {v w : Value} (h : Denotes lax t v) (h' : Denotes lax t w) : v = w := by
  obtain ⟨ts, h1, h2⟩ := h
  obtain ⟨us, h3, h4⟩ := h'
  obtain rfl := lexes_unique h1 h3
  exact (values_unique ts.length).1 ts v w (Nat.le_refl _) h2 h4

theorem parse_iff {t : CStr} {v : Value} : parse lax t = some v ↔ Denotes lax t v := by
  constructor
  · exact parse_some
  · intro h
    have h' : ∃ v, Denotes lax t v := ⟨v, h⟩
    rw [parse, dif_pos h', denotes_unique h'.choose_spec h]

/-! ## What may stand before an object -/

theorem lexes_append {s r : CStr} {a b : List Tok} (hs : Lexes lax s a) (hr : Lexes lax r b) (hg : ∀ c ∈ r.head?, goesOn c = false) :
    Lexes lax (s ++ r) (a ++ b) := by
  induction hs with
  | nil => exact hr
  | blank c r' ts h _ ih => exact .blank c _ _ h ih
  | punct c t r' ts h _ ih => exact .punct c t _ _ h ih
  | str body r' ts h _ ih =>
    rw [List.cons_append, List.append_assoc, List.cons_append]
    exact .str body _ _ h ih
  | num t r' ts h hm _ ih =>
    rw [List.append_assoc]
    refine .num t _ _ h ?_ ih
    cases r' with
    | nil => exact hg
    | cons c r' => exact hm
  | word t r' ts h _ ih =>
    rw [List.append_assoc]
    exact .word t _ _ h ih

/-- No line ends inside a string. -/
theorem strBody_line {b : CStr} (h : StrBody b) : '\n' ∉ b := by
  induction h with
  | nil => simp
  | plain c r _ _ h3 _ ih =>
    intro hm
    rcases List.mem_cons.1 hm with rfl | hm
    · exact absurd h3 (by decide)
    · exact ih hm
  | escape c r h _ ih =>
    intro hm
    rcases List.mem_cons.1 hm with hm | hm
    · exact absurd hm (by decide)
    · rcases List.mem_cons.1 hm with rfl | hm
      · exact absurd h (by decide)
      · exact ih hm
  | unicode a b c d r h _ ih =>
    have h0 : hexDigit '\n' = false := by decide
    intro hm
    simp only [List.mem_cons] at hm
    rcases hm with hm | hm | rfl | rfl | rfl | rfl | hm
    · exact absurd hm (by decide)
    · exact absurd hm (by decide)
    · have := h '\n' (by simp); rw [h0] at this; cases this
    · have := h '\n' (by simp); rw [h0] at this; cases this
    · have := h '\n' (by simp); rw [h0] at this; cases this
    · have := h '\n' (by simp); rw [h0] at this; cases this
    · exact ih hm

theorem word_noBrace {t : CStr} (h : IsWord lax t) : '{' ∉ t := by
  have h' : t ∈ [c!"true", c!"false", c!"null", c!"NaN", c!"Infinity", c!"-Infinity"] := by
    rcases h with h | ⟨_, h⟩
    · exact List.mem_append_left [c!"NaN", c!"Infinity", c!"-Infinity"] h
    · exact List.mem_append_right [c!"true", c!"false", c!"null"] h
  exact (by decide : ∀ t ∈ [c!"true", c!"false", c!"null", c!"NaN", c!"Infinity", c!"-Infinity"], '{' ∉ t) t h'

/-- A brace at the end of a line is always a token. -/
theorem lexes_brace {s r : CStr} {ts : List Tok} (h : Lexes lax (s ++ '{' :: '\n' :: r) ts) :
    ∃ a b, ts = a ++ .lbrace :: b ∧ Lexes lax s a ∧ Lexes lax r b := by
  induction hn : s.length using Nat.strongRecOn generalizing s ts with
  | ind n ih =>
    cases s with
    | nil =>
      obtain ⟨b, rfl, h1⟩ := lexes_punct (t := .lbrace) rfl (by decide) h
      exact ⟨[], b, rfl, .nil, lexes_blank (.inr rfl) h1⟩
    | cons c s =>
      have again : ∀ {s' : CStr} {ts : List Tok}, s'.length < (c :: s).length → Lexes lax (s' ++ '{' :: '\n' :: r) ts →
          ∃ a b, ts = a ++ .lbrace :: b ∧ Lexes lax s' a ∧ Lexes lax r b := fun hlt h => ih _ (by rw [← hn]; exact hlt) h rfl
      have inside : ∀ {t r' : CStr}, c :: (s ++ '{' :: '\n' :: r) = t ++ r' → '{' ∉ t → t ≠ [] →
          ∃ s', c :: s = t ++ s' ∧ r' = s' ++ '{' :: '\n' :: r ∧ s'.length < (c :: s).length := by
        intro t r' he h1 h2
        rw [← List.cons_append] at he
        rcases List.append_eq_append_iff.1 he with ⟨a, h3, h4⟩ | ⟨a, h3, h4⟩
        · cases a with
          | nil => exact ⟨[], by simpa using h3.symm, by simpa using h4.symm, by simp⟩
          | cons d a =>
            simp only [List.cons_append, List.cons.injEq] at h4
            exact absurd (by rw [h3, ← h4.1]; simp) h1
        · refine ⟨a, h3, h4, ?_⟩
          rw [h3, List.length_append]
          have := List.length_pos_iff.2 h2
          omega
      obtain ⟨k, hb⟩ := lexes_begins h
      cases hb with
      | blank _ hc h1 =>
        obtain ⟨a, b, e, h2, h3⟩ := again (by simp) h1
        exact ⟨a, b, e, .blank _ _ _ hc h2, h3⟩
      | punct t ts hc h1 =>
        obtain ⟨a, b, e, h2, h3⟩ := again (by simp) h1
        exact ⟨t :: a, b, by rw [e]; rfl, .punct _ _ _ _ hc h2, h3⟩
      | str body r' ts hc he hs h1 =>
        subst hc
        rcases List.append_eq_append_iff.1 he with ⟨x, h3, h4⟩ | ⟨x, h3, h4⟩
        · exfalso
          rcases x with _ | ⟨x1, _ | ⟨x2, x⟩⟩
          · exact absurd (List.cons.inj h4).1 (by decide)
          · simp only [List.cons_append, List.nil_append, List.cons.injEq] at h4
            exact absurd h4.2.1 (by decide)
          · simp only [List.cons_append, List.cons.injEq] at h4
            exact strBody_line hs (by rw [h3, ← h4.2.1]; simp)
        · cases x with
          | nil => simp at h4
          | cons x1 x =>
            simp only [List.cons_append, List.cons.injEq] at h4
            obtain ⟨rfl, rfl⟩ := h4
            obtain ⟨a, b, e, h5, h6⟩ := again (s' := x) (by rw [h3]; simp; omega) h1
            exact ⟨.str body :: a, b, by rw [e]; rfl, by rw [h3]; exact .str _ _ _ hs h5, h6⟩
      | num t r' ts he hs hg h1 =>
        obtain ⟨s', e1, rfl, hlt⟩ := inside he (fun hm => absurd (numText_chars hs _ hm) (by decide)) (numText_ne_nil hs)
        obtain ⟨a, b, e, h5, h6⟩ := again hlt h1
        refine ⟨.num t :: a, b, by rw [e]; rfl, ?_, h6⟩
        rw [e1]
        refine .num t s' a hs ?_ h5
        cases s' with
        | nil => simp
        | cons d s' => exact hg
      | word t r' ts he hs h1 =>
        obtain ⟨_, d, t', ht, _⟩ := word_chars hs
        obtain ⟨s', e1, rfl, hlt⟩ := inside he (word_noBrace hs) (by rw [ht]; simp)
        obtain ⟨a, b, e, h5, h6⟩ := again hlt h1
        refine ⟨.word t :: a, b, by rw [e]; rfl, ?_, h6⟩
        rw [e1]
        exact .word t s' a hs h5

theorem lexes_none {s : CStr} (h : Lexes lax s []) : ∀ c ∈ s, c ∈ c!" \t\n\r" := by
  generalize hx : ([] : List Tok) = x at h
  induction h with
  | nil => simp
  | blank c r ts h _ ih =>
    intro d hd
    rcases List.mem_cons.1 hd with rfl | hd
    · exact h
    · exact ih hx d hd
  | _ => cases hx

theorem blanks_lex {s r : CStr} {ts : List Tok} (h : ∀ c ∈ s, c ∈ c!" \t\n\r") (hr : Lexes lax r ts) : Lexes lax (s ++ r) ts := by
  induction s with
  | nil => exact hr
  | cons c s ih => exact .blank _ _ _ (h c (by simp)) (ih fun x hx => h x (by simp [hx]))

/-- A text that ends with an object of lines is JSON only if nothing but blanks stands before the object. -/
theorem denotes_after {ms : List (CStr × Int)} (hne : ms ≠ []) (hk : ∀ m ∈ ms, GoodName m.1) (s : CStr) (v : Value) :
    Denotes lax (s ++ '{' :: '\n' :: lines ms) v ↔ (∀ c ∈ s, c ∈ c!" \t\n\r") ∧ v = .ofInts ms := by
  constructor
  · rintro ⟨ts, h1, h2⟩
    obtain ⟨a, b, rfl, h3, h4⟩ := lexes_brace h1
    have h5 := lexes_lines hne (fun m hm => (hk m hm).plain) h4
    subst h5
    have hobj : IsValue (.lbrace :: (toks ms ++ [.rbrace])) (.ofInts ms) := .obj _ _ (members_toks hne)
    have ha : a = [] := Classical.byContradiction fun hne => by
      have h6 := value_open h2 rfl hne (by simp)
      have h7 := (closed_value h2).1
      rw [bal_append, (closed_value hobj).1] at h7
      omega
    subst ha
    exact ⟨lexes_none h3, (values_unique _).1 _ _ _ (Nat.le_refl _) h2 hobj⟩
  · rintro ⟨h1, rfl⟩
    obtain ⟨ts, h2, h3⟩ := (denotes_object (lax := lax) hne hk _).2 rfl
    exact ⟨ts, blanks_lex h1 h2, h3⟩

/-! ## What may stand after an object -/

theorem lexes_lines_then {ms : List (CStr × Int)} {r : CStr} {ts : List Tok} (hne : ms ≠ []) (hk : ∀ m ∈ ms, PlainName m.1)
    (h : Lexes lax (lines ms ++ r) ts) : ∃ us, ts = toks ms ++ .rbrace :: us ∧ Lexes lax r us := by
  induction ms generalizing ts with
  | nil => exact absurd rfl hne
  | cons m ms ih =>
    obtain ⟨k, n⟩ := m
    have hkk : PlainName k := hk (k, n) (by simp)
    have step : ∀ {r : CStr}, (∀ c ∈ r.head?, numChar c = false) →
        Lexes lax (c!"    " ++ ('"' :: (k ++ '"' :: ':' :: ' ' :: (showInt n ++ r)))) ts →
        ∃ ts', ts = .str k :: .colon :: .num (showInt n) :: ts' ∧ Lexes lax r ts' := by
      intro r hr h
      have h1 := lexes_blank (.inl rfl) (lexes_blank (.inl rfl) (lexes_blank (.inl rfl) (lexes_blank (.inl rfl) h)))
      obtain ⟨t1, e1, h2⟩ := lexes_name hkk h1
      obtain ⟨t2, e2, h3⟩ := lexes_punct (t := .colon) rfl (by decide) h2
      obtain ⟨t3, e3, h4⟩ := lexes_int hr (lexes_blank (.inl rfl) h3)
      exact ⟨t3, by rw [e1, e2, e3], h4⟩
    cases ms with
    | nil =>
      obtain ⟨t, e1, h1⟩ := step (r := c!"\n}" ++ r) (by intro c hc; cases hc; decide) (by simpa [lines] using h)
      obtain ⟨t', e2, h2⟩ := lexes_punct (t := .rbrace) rfl (by decide) (lexes_blank (.inr rfl) h1)
      exact ⟨t', by rw [e1, e2]; rfl, h2⟩
    | cons m' ms =>
      obtain ⟨t, e1, h1⟩ := step (r := ',' :: '\n' :: (lines (m' :: ms) ++ r)) (by intro c hc; cases hc; decide) (by simpa [lines] using h)
      obtain ⟨t', e2, h2⟩ := lexes_punct (t := .comma) rfl (by decide) h1
      obtain ⟨us, e3, h3⟩ := ih (by simp) (fun m hm => hk m (by simp [hm])) (lexes_blank (.inr rfl) h2)
      exact ⟨us, by rw [e1, e2, e3]; rfl, h3⟩

/-- If only blanks stand before an object of lines, only blanks can stand after it. -/
theorem denotes_then {ms : List (CStr × Int)} (hne : ms ≠ []) (hk : ∀ m ∈ ms, GoodName m.1) (s r : CStr) (hs : ∀ c ∈ s, c ∈ c!" \t\n\r") (v : Value)
    (h : Denotes lax (s ++ ('{' :: '\n' :: lines ms ++ r)) v) : (∀ c ∈ r, c ∈ c!" \t\n\r") ∧ v = .ofInts ms := by
  obtain ⟨ts, h1, h2⟩ := h
  have h3 : Lexes lax ('{' :: '\n' :: (lines ms ++ r)) ts := by
    clear h2
    induction s with
    | nil => exact h1
    | cons c s ih =>
      refine ih (fun x hx => hs x (by simp [hx])) ?_
      have hc := hs c (by simp)
      rw [List.cons_append] at h1
      rcases lexes_cons h1 with ⟨_, h⟩ | ⟨t, _, h1, _⟩ | ⟨rfl, _⟩ | ⟨h1, _⟩ | ⟨h1, _⟩
      · exact h
      · exfalso
        have := (by decide : ∀ c ∈ c!" \t\n\r", punct c = none) c hc
        rw [this] at h1; cases h1
      · exact absurd hc (by decide)
      · exact absurd h1 ((by decide : ∀ c ∈ c!" \t\n\r", ¬numChar c = true) c hc)
      · exact absurd h1 ((by decide : ∀ c ∈ c!" \t\n\r", c ∉ c!"tfnNI-") c hc)
  obtain ⟨us, rfl, h4⟩ := lexes_punct (t := .lbrace) rfl (by decide) h3
  obtain ⟨ws, rfl, h5⟩ := lexes_lines_then hne (fun m hm => (hk m hm).plain) (lexes_blank (.inr rfl) h4)
  have hobj : IsValue (.lbrace :: (toks ms ++ [.rbrace])) (.ofInts ms) := .obj _ _ (members_toks hne)
  obtain ⟨e1, e2⟩ := value_ends (x := []) (y := ws) h2 hobj (by simp)
  subst e2
  rw [← e1] at hobj
  exact ⟨lexes_none h5, (values_unique _).1 _ _ _ (Nat.le_refl _) h2 hobj⟩

end Judger.Spec.JsonText
