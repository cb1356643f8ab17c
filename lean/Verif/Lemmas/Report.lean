import Verif.Model.Report
import Verif.Spec.Report
import Verif.Lemmas.CliMain

/-! # Dynamic strings and option names hold what was put into them -/

set_option autoImplicit false

namespace Judger.Report

/-- No NUL in it. -/
def NoNul (s : CStr) : Prop := nul ∉ s

instance (s : CStr) : Decidable (NoNul s) := inferInstanceAs (Decidable (nul ∉ s))

theorem NoNul.append {s t : CStr} (hs : NoNul s) (ht : NoNul t) : NoNul (s ++ t) := by
  unfold NoNul at *
  simp [hs, ht]

theorem NoNul.take {s : CStr} (hs : NoNul s) (n : Nat) : NoNul (s.take n) := fun h => hs (List.mem_of_mem_take h)

theorem strlen_text {t : CStr} (ht : NoNul t) (r : CStr) : strlen (t ++ nul :: r) = some t.length := by
  induction t with
  | nil => simp [strlen]
  | cons c t ih =>
    have hc : c ≠ nul := fun h => ht (by simp [h])
    have ht' : NoNul t := fun h => ht (List.mem_cons_of_mem _ h)
    simp [strlen, hc, ih ht']

theorem stringAt_text {t : CStr} (ht : NoNul t) (r : CStr) : stringAt (t ++ nul :: r) = some t := by
  simp [stringAt, strlen_text ht]

theorem pokes_text (s : CStr) : ∀ (t old r : CStr), old.length = s.length → pokes (t ++ (old ++ r)) t.length s = some (t ++ (s ++ r)) := by
  induction s with
  | nil =>
    intro t old r h
    have : old = [] := List.length_eq_zero_iff.1 h
    subst this
    rfl
  | cons c s ih =>
    intro t old r h
    cases old with
    | nil => cases h
    | cons o old =>
      have h' : old.length = s.length := by simpa using h
      have := ih (t ++ [c]) old r h'
      simp only [List.append_assoc, List.singleton_append, List.length_append, List.length_singleton] at this
      simp only [pokes, poke, List.cons_append]
      rw [if_pos (by simp)]
      simp only [Option.bind_eq_bind, Option.bind_some]
      rw [List.set_append_right _ _ (Nat.le_refl _)]
      simp only [Nat.sub_self, List.set_cons_zero]
      exact this

theorem pokes_replicate (t s : CStr) (k : Nat) (h : s.length ≤ k) :
    pokes (t ++ List.replicate k nul) t.length s = some (t ++ (s ++ List.replicate (k - s.length) nul)) := by
  have : List.replicate k nul = List.replicate s.length nul ++ List.replicate (k - s.length) nul := by
    rw [List.replicate_append_replicate]
    congr 1
    omega
  rw [this]
  exact pokes_text s t _ _ (by simp)

/-! ## Dynamic strings -/

/-- `d` holds the text `t`. -/
structure Rep (d : DStr) (t : CStr) : Prop where
  clean : NoNul t
  fresh : d.append = none → t = []
  mem : ∀ b, d.append = some b → d.used ≤ t.length ∧ ∃ k, b = t ++ List.replicate (k + 1) nul

theorem rep_create : Rep dstrCreate [] := ⟨by simp [NoNul], fun _ => rfl, by intro b h; cases h⟩

theorem Rep.data {d : DStr} {t : CStr} (h : Rep d t) : ∃ r, d.data = t ++ nul :: r := by
  unfold DStr.data
  cases ha : d.append with
  | none => exact ⟨List.replicate 200 nul, by rw [h.fresh ha]; rfl⟩
  | some b =>
    obtain ⟨_, k, hk⟩ := h.mem b ha
    exact ⟨List.replicate k nul, by rw [Option.getD_some, hk]; rfl⟩

theorem Rep.text {d : DStr} {t : CStr} (h : Rep d t) : stringAt d.data = some t := by
  obtain ⟨r, hr⟩ := h.data
  rw [hr, stringAt_text h.clean]

theorem Rep.refresh {d : DStr} {t : CStr} (h : Rep d t) : refreshUsed d = some t.length := by
  obtain ⟨r, hr⟩ := h.data
  unfold refreshUsed
  cases ha : d.append with
  | none =>
    simp only
    rw [hr, strlen_text h.clean]
  | some b =>
    obtain ⟨hu, k, hk⟩ := h.mem b ha
    simp only
    subst hk
    rcases Nat.lt_or_eq_of_le hu with hu | hu
    · rw [List.getElem?_append_left hu, List.getElem?_eq_getElem hu]
      have : t[d.used] ≠ nul := fun hn => h.clean (hn ▸ List.getElem_mem hu)
      simp only [this, ne_eq, not_false_eq_true, if_true]
      exact strlen_text h.clean _
    · rw [hu, List.getElem?_append_right (Nat.le_refl _)]
      simp

theorem rep_cat {d : DStr} {t s : CStr} (h : Rep d t) (hs : NoNul s) (hfit : 2 * (t.length + s.length + 1) ≤ 2147483647) :
    ∃ d', dstrCat s d = some d' ∧ Rep d' (t ++ s) := by
  have key : ∃ d1 k, setupAppendBuf d (s.length + 1) = some d1 ∧ d1.append = some (t ++ List.replicate (k + 1) nul) ∧ s.length ≤ k ∧
      d1.used = t.length := by
    unfold setupAppendBuf
    simp only [h.refresh, Option.bind_eq_bind, Option.bind_some]
    by_cases hsz : d.size ≤ s.length + 1 + t.length
    · rw [if_pos hsz]
      obtain ⟨n, hn, h1, h2⟩ : ∃ n, (if s.length + 1 + t.length < 100 then 200 else (s.length + 1 + t.length) * 2) = n ∧
          s.length + t.length + 2 ≤ n ∧ n ≤ 2147483647 := by
        refine ⟨_, rfl, ?_, ?_⟩ <;> split <;> omega
      rw [hn, if_neg (by unfold INT_MAX; omega), h.text]
      simp only [Option.bind_some]
      have := pokes_replicate [] (t ++ [nul]) n (by simp; omega)
      simp only [List.nil_append, List.length_nil] at this
      rw [this]
      refine ⟨_, n - t.length - 1, rfl, ?_, by omega, rfl⟩
      simp only [Option.some.injEq, List.append_assoc, List.length_append, List.length_singleton, List.singleton_append,
        List.append_cancel_left_eq]
      rw [List.replicate_succ]
      congr 2
    · rw [if_neg hsz]
      cases ha : d.append with
      | none => simp [DStr.size, ha] at hsz
      | some b =>
        obtain ⟨hu, k, hk⟩ := h.mem b ha
        refine ⟨⟨some b, t.length⟩, k, rfl, by rw [hk], ?_, rfl⟩
        simp only [DStr.size, ha, Option.getD_some, hk, List.length_append, List.length_replicate] at hsz
        omega
  obtain ⟨d1, k, h1, h2, h3, h4⟩ := key
  unfold dstrCat
  simp only [h1, Option.bind_eq_bind, Option.bind_some, h2]
  rw [List.replicate_succ, strlen_text h.clean]
  simp only [Option.bind_some]
  rw [← List.replicate_succ, pokes_replicate t s (k + 1) (by omega)]
  refine ⟨_, rfl, h.clean.append hs, by simp, ?_⟩
  intro b hb
  simp only [Option.some.injEq] at hb
  refine ⟨by simp [h4], k - s.length, ?_⟩
  rw [← hb, List.append_assoc]
  congr 3
  omega

theorem catfLoop_text (text : CStr) (n : Nat) (hn : n ≠ 0) : catfLoop text n = text := by
  fun_induction catfLoop text n with
  | case1 n h =>
    rcases h with h | h
    · exact absurd h hn
    · rw [List.length_take] at h
      exact List.take_of_length_le (by omega)
  | case2 n h ih =>
    apply ih
    split <;> omega

theorem rep_catf {d : DStr} {t s : CStr} (fmtLen : Nat) (h : Rep d t) (hs : NoNul s) (hfit : 2 * (t.length + s.length + 1) ≤ 2147483647) :
    ∃ d', dstrCatf fmtLen s d = some d' ∧ Rep d' (t ++ s) := by
  unfold dstrCatf
  rw [catfLoop_text _ _ (by split <;> omega)]
  exact rep_cat h hs hfit

/-! ## Names of options -/

/-- `u` holds the text `t`. -/
structure CRep (u : Cursor) (t : CStr) : Prop where
  clean : NoNul t
  block : ∃ r, u.block = t ++ nul :: r
  size : u.block.length = 200
  behind : u.dest ≤ t.length
  room : u.dest + u.ndest = 199
  early : u.dest ≤ 198

theorem skipText_text (t r : CStr) (ht : NoNul t) : ∀ (k i : Nat), i ≤ t.length →
    skipText (t ++ nul :: r) i k = some (min t.length (i + k)) := by
  intro k
  induction k with
  | zero => intro i hi; simp only [skipText, Option.some.injEq]; omega
  | succ k ih =>
    intro i hi
    rw [skipText]
    rcases Nat.lt_or_eq_of_le hi with hi | hi
    · rw [List.getElem?_append_left hi, List.getElem?_eq_getElem hi]
      have : t[i] ≠ nul := fun hn => ht (hn ▸ List.getElem_mem hi)
      simp only [this, ne_eq, not_false_eq_true, if_true]
      rw [ih (i + 1) (by omega)]
      congr 2
      omega
    · subst hi
      rw [List.getElem?_append_right (Nat.le_refl _)]
      simp only [Nat.sub_self, List.getElem?_cons_zero, ne_eq, not_true, if_false, Option.some.injEq]
      omega

theorem copyText_text (s : CStr) : ∀ (t r : CStr) (k : Nat), k ≤ r.length →
    copyText (t ++ r) t.length k s = some (t ++ (s.take k ++ r.drop (min k s.length)), t.length + min k s.length) := by
  induction s with
  | nil => intro t r k _; cases k <;> simp [copyText]
  | cons c s ih =>
    intro t r k hk
    cases k with
    | zero => simp [copyText]
    | succ k =>
      cases r with
      | nil => simp at hk
      | cons x r =>
        have := ih (t ++ [c]) r k (by simpa using hk)
        simp only [List.append_assoc, List.singleton_append, List.length_append, List.length_singleton] at this
        simp only [copyText, poke]
        rw [if_pos (by simp)]
        simp only [Option.bind_eq_bind, Option.bind_some]
        rw [List.set_append_right _ _ (Nat.le_refl _)]
        simp only [Nat.sub_self, List.set_cons_zero]
        rw [this]
        simp only [List.take_succ_cons, List.length_cons, List.cons_append, Option.some.injEq, Prod.mk.injEq]
        have e : min (k + 1) (s.length + 1) = min k s.length + 1 := by omega
        rw [e, List.drop_succ_cons]
        exact ⟨rfl, by omega⟩

/-- `arg_cat` appends, and cuts at 198 characters; the array is never left. -/
theorem crep_cat {u : Cursor} {t s : CStr} (h : CRep u t) (hs : NoNul s) :
    ∃ u', argCat s u = some u' ∧ CRep u' ((t ++ s).take 198) ∧ u'.dest = ((t ++ s).take 198).length := by
  obtain ⟨r, hr⟩ := h.block
  have hlen : t.length + r.length = 199 := by
    have := h.size
    rw [hr] at this
    simp at this
    omega
  have hb := h.behind
  have hroom := h.room
  have hearly := h.early
  have hi := skipText_text t r h.clean (u.dest + u.ndest - 1 - u.dest) u.dest hb
  rw [hroom] at hi
  have e1 : min t.length (u.dest + (199 - 1 - u.dest)) = min t.length 198 := by omega
  rw [e1] at hi
  have hi : skipText u.block u.dest (199 - 1 - u.dest) = some (min t.length 198) := by rw [hr]; exact hi
  -- the text and what follows it, split at the position found
  obtain ⟨m, hm⟩ : ∃ m, m = min t.length 198 := ⟨_, rfl⟩
  have hsplit : u.block = t.take m ++ u.block.drop m := by
    have : t.take m = u.block.take m := by
      rw [hr, List.take_append_of_le_length (by omega)]
    rw [this, List.take_append_drop]
  have hml : (t.take m).length = m := by rw [List.length_take]; omega
  have hdl : (u.block.drop m).length = 200 - m := by rw [List.length_drop, h.size]
  have hcopy := copyText_text s (t.take m) (u.block.drop m) (198 - m) (by omega)
  rw [← hsplit, hml] at hcopy
  have hfin : (t ++ s).take 198 = t.take m ++ s.take (198 - m) := by
    rw [List.take_append]
    have : t.take 198 = t.take m := by
      rw [hm, List.take_eq_take_iff]
      omega
    rw [this]
    congr 1
    rw [List.take_eq_take_iff]
    omega
  obtain ⟨w, hw⟩ : ∃ w, w = s.take (198 - m) := ⟨_, rfl⟩
  have hwl : w.length = min (198 - m) s.length := by rw [hw, List.length_take]
  unfold argCat
  simp only [hroom, hi, Option.bind_eq_bind, Option.bind_some]
  rw [← hm]
  have e2 : 199 - 1 - m = 198 - m := by omega
  rw [e2, hcopy]
  simp only [Option.bind_some]
  rw [← hw, ← hwl]
  -- the NUL
  obtain ⟨x, r', hr'⟩ : ∃ x r', (u.block.drop m).drop w.length = x :: r' := by
    cases hd : (u.block.drop m).drop w.length with
    | nil =>
      have := congrArg List.length hd
      rw [List.length_drop, hdl] at this
      simp only [List.length_nil] at this
      omega
    | cons x r' => exact ⟨x, r', rfl⟩
  have hrl : r'.length = 199 - m - w.length := by
    have := congrArg List.length hr'
    rw [List.length_drop, hdl] at this
    simp only [List.length_cons] at this
    omega
  rw [hr']
  have hpoke : poke (t.take m ++ (w ++ x :: r')) (m + w.length) nul = some ((t.take m ++ w) ++ nul :: r') := by
    unfold poke
    rw [if_pos (by simp only [List.length_append, List.length_cons, hml]; omega), ← List.append_assoc]
    rw [List.set_append_right _ _ (by simp only [List.length_append, hml]; omega)]
    simp only [List.length_append, hml, Nat.sub_self, List.set_cons_zero]
  rw [hpoke]
  refine ⟨_, rfl, ?_, ?_⟩
  · rw [hfin, ← hw]
    constructor
    · rw [hw]
      exact (h.clean.take m).append (hs.take _)
    · exact ⟨r', rfl⟩
    · simp only [List.length_append, List.length_cons, hml]
      omega
    · simp only [List.length_append, hml]
      omega
    · show m + w.length + (199 - (m + w.length)) = 199
      omega
    · show m + w.length ≤ 198
      omega
  · rw [hfin, ← hw]
    simp only [List.length_append, hml]

/-- `strncat` of at most the remaining number of characters, right after `arg_cat`. -/
theorem crep_strncat {u : Cursor} {t s : CStr} {k : Nat} (h : CRep u t) (hd : u.dest = t.length) (hs : NoNul s) (hk : k ≤ u.ndest) :
    ∃ u', strncat s k u = some u' ∧ CRep u' (t ++ s.take k) := by
  obtain ⟨r, hr⟩ := h.block
  have hlen : t.length + r.length = 199 := by
    have := h.size
    rw [hr] at this
    simp at this
    omega
  have hroom := h.room
  have hearly := hd ▸ h.early
  unfold strncat
  have h0 : strlen (u.block.drop u.dest) = some 0 := by
    rw [hr, hd, List.drop_append_of_le_length (Nat.le_refl _), List.drop_length]
    simp [strlen]
  have hsk : (s.take k).length ≤ k := by rw [List.length_take]; omega
  simp only [h0, Option.bind_eq_bind, Option.bind_some, Nat.add_zero]
  have hsplit : u.block = t ++ ((nul :: r).take ((s.take k).length + 1) ++ (nul :: r).drop ((s.take k).length + 1)) := by
    rw [List.take_append_drop, hr]
  have := pokes_text (s.take k ++ [nul]) t ((nul :: r).take ((s.take k).length + 1)) ((nul :: r).drop ((s.take k).length + 1))
    (by rw [List.length_take]; simp only [List.length_cons, List.length_append, List.length_nil]; omega)
  rw [hd, ← hsplit] at *
  rw [this]
  refine ⟨_, rfl, ?_⟩
  constructor
  · exact h.clean.append (hs.take k)
  · exact ⟨(nul :: r).drop ((s.take k).length + 1), by simp⟩
  · simp only [List.length_append, List.length_drop, List.length_cons, List.length_nil]
    omega
  · simp only [List.length_append]
    omega
  · rw [hd]; exact hroom ▸ by rw [hd]
  · show t.length ≤ 198
    omega

/-- `"--name"` and, if there is one, `"=value"`. -/
def optionText (name : CStr) : Option CStr → CStr
  | none => c!"--" ++ name
  | some v => c!"--" ++ name ++ ['='] ++ v

theorem take_take_append (a b : CStr) (n : Nat) : (a.take n ++ b).take n = (a ++ b).take n := by
  rw [List.take_append, List.take_append, List.take_take, Nat.min_self, List.length_take]
  rcases Nat.le_total n a.length with h | h
  · rw [Nat.min_eq_left h, Nat.sub_self, Nat.sub_eq_zero_of_le h]
  · rw [Nat.min_eq_right h]

theorem crep_buffer : CRep syntaxBuffer [] :=
  ⟨by simp [NoNul], ⟨List.replicate 199 nul, rfl⟩, List.length_replicate .., by decide, rfl, by decide⟩

theorem toComma_all {s : CStr} (h : ',' ∉ s) : toComma s = s.length := by
  unfold toComma
  induction s with
  | nil => rfl
  | cons c s ih =>
    simp only [List.mem_cons, not_or] at h
    rw [List.takeWhile_cons_of_pos (by simpa using Ne.symm h.1), List.length_cons, List.length_cons, ih h.2]

theorem cat_name {name : CStr} (h1 : NoNul name) (h2 : ',' ∉ name) (h3 : name.length ≤ 190) (h4 : name ≠ []) (sep : CStr) :
    ∃ u, catLongNames sep (name.length + 1) name syntaxBuffer = some u ∧ CRep u (c!"--" ++ name) := by
  cases name with
  | nil => exact absurd rfl h4
  | cons c r =>
    rw [catLongNames]
    · obtain ⟨u1, g1, g2, g3⟩ := crep_cat crep_buffer (s := c!"--") (by decide)
      simp only [g1, Option.bind_eq_bind, Option.bind_some]
      rw [toComma_all h2]
      have hn : u1.ndest = 197 := by
        have := g2.room
        rw [g3] at this
        simp at this
        omega
      rw [if_pos (by rw [hn]; omega)]
      obtain ⟨u2, k1, k2⟩ := crep_strncat (k := (c :: r).length) g2 g3 h1 (by rw [hn]; omega)
      simp only [k1, Option.bind_some, List.drop_length]
      refine ⟨u2, rfl, ?_⟩
      rw [List.take_length] at k2
      exact k2
    · intro h; cases h

theorem cat_optionv {name : CStr} (h1 : NoNul name) (h2 : ',' ∉ name) (h3 : name.length ≤ 190) (h4 : name ≠ []) (v : Option CStr)
    (hv : ∀ t, v = some t → NoNul t) (sep : CStr) :
    ∃ u, catOptionv (some name) v sep syntaxBuffer = some u ∧ CRep u ((optionText name v).take 198) := by
  obtain ⟨u, g1, g2⟩ := cat_name h1 h2 h3 h4 sep
  unfold catOptionv
  simp only [g1, Option.bind_eq_bind, Option.bind_some]
  have hlen : (c!"--" ++ name).length ≤ 198 := by simp; omega
  cases v with
  | none =>
    refine ⟨u, rfl, ?_⟩
    rw [optionText, List.take_of_length_le hlen]
    exact g2
  | some t =>
    obtain ⟨u2, k1, k2, _⟩ := crep_cat g2 (s := ['=']) (by decide)
    obtain ⟨u3, l1, l2, _⟩ := crep_cat k2 (hv t rfl)
    simp only [Option.isSome_some, if_true, k1, Option.bind_some, l1]
    refine ⟨u3, rfl, ?_⟩
    rw [take_take_append] at l2
    exact l2

theorem rep_option {d : DStr} {t : CStr} (h : Rep d t) {name : CStr} (h1 : NoNul name) (h2 : ',' ∉ name) (h3 : name.length ≤ 190)
    (h4 : name ≠ []) (v : Option CStr) (hv : ∀ t, v = some t → NoNul t) {suffix : CStr} (hs : NoNul suffix)
    (hfit : 2 * (t.length + ((optionText name v).take 198).length + suffix.length + 1) ≤ 2147483647) :
    ∃ d', printOption (some name) v suffix d = some d' ∧ Rep d' (t ++ (optionText name v).take 198 ++ suffix) := by
  obtain ⟨u, g1, g2⟩ := cat_optionv h1 h2 h3 h4 v hv ['|']
  obtain ⟨r, hr⟩ := g2.block
  obtain ⟨d1, k1, k2⟩ := rep_cat h g2.clean (by omega)
  obtain ⟨d2, l1, l2⟩ := rep_cat k2 hs (by rw [List.length_append]; omega)
  unfold printOption
  simp only [g1, Option.bind_eq_bind, Option.bind_some, hr, stringAt_text g2.clean, k1, l1]
  exact ⟨d2, rfl, l2⟩

end Judger.Report
