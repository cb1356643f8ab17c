import Verif.Lemmas.ScanItems
import Verif.Lemmas.IntText
import Verif.Lemmas.TaggedScan

/-! # What the reports of getopt leave in the option table, and when there are errors -/

set_option autoImplicit false

namespace Judger

open Spec.Cli

theorem registerError_ne_nil {max : Nat} (h : 0 < max) (es : List ErrRec) (r : ErrRec) : registerError max es r ≠ [] := by
  unfold registerError
  split
  · simp
  · intro he
    have : (es.set (max - 1) { code := .elimit, parent := none, argval := none }).length = 0 := by rw [he]; rfl
    simp at this
    subst this
    simp at *
    omega

theorem registerError_length {max : Nat} (es : List ErrRec) (r : ErrRec) (h : es.length ≤ max) :
    (registerError max es r).length ≤ max := by
  unfold registerError
  split
  · simp; omega
  · simp; omega

/-- The values reported for entry `i`, in order. -/
def vals (i : Nat) (l : List (Nat × Option CStr)) : List (Option CStr) := (l.filter fun p => p.1 = i).map (·.2)

theorem vals_cons (i : Nat) (p : Nat × Option CStr) (l) : vals i (p :: l) = if p.1 = i then p.2 :: vals i l else vals i l := by
  unfold vals
  by_cases h : p.1 = i <;> simp [h]

/-- What scanning these values leaves in an entry. -/
def slotAfter (e : ArgEntry) (s : Slot) (as : List (Option CStr)) : Slot := as.foldl (fun s a => (scan e s a).1) s

theorem applyEv_other {max : Nat} {table : List ArgEntry} {q} {ev : Ev} (h : evBad ev = true) : (applyEv max table q ev).1 = q.1 := by
  cases ev <;> simp [evBad] at h <;> rfl

theorem slots_fold {max : Nat} {table : List ArgEntry} {i : Nat} {e : ArgEntry} (he : table[i]? = some e) (evs : List Ev)
    (q : (Nat → Slot) × List ErrRec) :
    (evs.foldl (applyEv max table) q).1 i = slotAfter e (q.1 i) (vals i (evOpts evs)) := by
  induction evs generalizing q with
  | nil => rfl
  | cons ev evs ih =>
    rw [List.foldl_cons, ih]
    cases ev with
    | opt j a last =>
      simp only [evOpts, vals_cons]
      by_cases hj : j = i
      · subst hj
        simp [applyEv, he, setSlot, slotAfter]
      · rw [if_neg hj]
        have : (applyEv max table q (.opt j a last)).1 i = q.1 i := by
          simp only [applyEv]
          split
          · rfl
          · have : i ≠ j := fun h => hj h.symm
            simp [setSlot, this]
        rw [this]
    | badLong _ => rfl
    | badShort _ => rfl
    | missing _ => rfl

/-- Every value reported for an entry is accepted. -/
def AllOk (e : ArgEntry) : Slot → List (Option CStr) → Prop
  | _, [] => True
  | s, a :: as => (scan e s a).2 = none ∧ AllOk e (scan e s a).1 as

/-- The value is not the empty string. -/
def Filled (table : List ArgEntry) (p : Nat × Option CStr) : Prop :=
  ¬(p.2 = some [] ∧ (table[p.1]?.map (·.kind.hasArg)) = some 1)

theorem errs_fold {max : Nat} (hm : 0 < max) {table : List ArgEntry} (evs : List Ev)
    (hin : ∀ p ∈ evOpts evs, p.1 < table.length) (q : (Nat → Slot) × List ErrRec) :
    (evs.foldl (applyEv max table) q).2 = [] ↔
      q.2 = [] ∧ evs.any evBad = false ∧ (∀ p ∈ evOpts evs, Filled table p) ∧
        ∀ i e, table[i]? = some e → AllOk e (q.1 i) (vals i (evOpts evs)) := by
  have stick : ∀ (evs : List Ev) (q : (Nat → Slot) × List ErrRec), q.2 ≠ [] → (evs.foldl (applyEv max table) q).2 ≠ [] := by
    intro evs
    induction evs with
    | nil => intro q h; exact h
    | cons ev evs ih =>
      intro q h
      rw [List.foldl_cons]
      apply ih
      cases ev with
      | opt i a last =>
        simp only [applyEv]
        split
        · split
          · exact registerError_ne_nil hm _ _
          · exact h
        · simp only
          split
          · split
            · exact registerError_ne_nil hm _ _
            · exact h
          · exact registerError_ne_nil hm _ _
      | badLong _ => exact registerError_ne_nil hm _ _
      | badShort _ => exact registerError_ne_nil hm _ _
      | missing _ => exact registerError_ne_nil hm _ _
  induction evs generalizing q with
  | nil => simp [evOpts, vals, AllOk]
  | cons ev evs ih =>
    rw [List.foldl_cons]
    cases ev with
    | opt i a last =>
      have hi : i < table.length := hin (i, a) (by simp [evOpts])
      have hin' : ∀ p ∈ evOpts evs, p.1 < table.length := fun p hp => hin p (by simp [evOpts, hp])
      obtain ⟨e, he⟩ : ∃ e, table[i]? = some e := ⟨table[i], by simp [hi]⟩
      refine Iff.trans (ih hin' (applyEv max table q (.opt i a last))) ?_
      have happ : (applyEv max table q (.opt i a last)).2 = [] ↔ q.2 = [] ∧ Filled table (i, a) ∧ (scan e (q.1 i) a).2 = none := by
        simp only [applyEv, he]
        cases hs : (scan e (q.1 i) a).2 with
        | some c => simp [registerError_ne_nil hm]
        | none =>
          simp only [Filled, he]
          by_cases hf : a = some [] ∧ Option.map (fun x => x.kind.hasArg) (some e) = some 1
          · simp only [hf, not_true, and_self, false_and, and_false, iff_false]
            exact registerError_ne_nil hm _ _
          · simp only [hf, not_false_eq_true, and_true, if_false]
      have hslots : ∀ j, (applyEv max table q (.opt i a last)).1 j = if j = i then (scan e (q.1 i) a).1 else q.1 j := by
        intro j; simp only [applyEv, he, setSlot]
      rw [happ]
      simp only [List.any_cons, evBad, Bool.false_or, evOpts, List.forall_mem_cons, vals_cons]
      constructor
      · rintro ⟨⟨h1, h2, h3⟩, h4, h5, h6⟩
        refine ⟨h1, h4, ⟨h2, h5⟩, ?_⟩
        intro j e' he'
        have := h6 j e' he'
        rw [hslots] at this
        by_cases hj : j = i
        · subst hj
          rw [he] at he'
          simp only [Option.some.injEq] at he'
          subst he'
          rw [if_pos rfl]
          rw [if_pos rfl] at this
          exact ⟨h3, this⟩
        · rw [if_neg hj] at this
          rw [if_neg (fun h => hj h.symm)]
          exact this
      · rintro ⟨h1, h4, ⟨h2, h5⟩, h6⟩
        have h3 := h6 i e he
        rw [if_pos rfl] at h3
        refine ⟨⟨h1, h2, h3.1⟩, h4, h5, ?_⟩
        intro j e' he'
        rw [hslots]
        by_cases hj : j = i
        · subst hj
          rw [he] at he'
          simp only [Option.some.injEq] at he'
          subst he'
          rw [if_pos rfl]
          exact h3.2
        · rw [if_neg hj]
          have := h6 j e' he'
          rw [if_neg (fun h => hj h.symm)] at this
          exact this
    | badLong _ =>
      simp only [List.any_cons, evBad, Bool.true_or, Bool.true_eq_false, false_and, and_false, iff_false]
      exact stick _ _ (registerError_ne_nil hm _ _)
    | badShort _ =>
      simp only [List.any_cons, evBad, Bool.true_or, Bool.true_eq_false, false_and, and_false, iff_false]
      exact stick _ _ (registerError_ne_nil hm _ _)
    | missing _ =>
      simp only [List.any_cons, evBad, Bool.true_or, Bool.true_eq_false, false_and, and_false, iff_false]
      exact stick _ _ (registerError_ne_nil hm _ _)

theorem rejectRest_nil {max : Nat} (hm : 0 < max) (rest : List CStr) (es : List ErrRec) :
    rejectRest max rest es = [] ↔ es = [] ∧ rest = [] := by
  induction rest generalizing es with
  | nil => simp [rejectRest]
  | cons w ws ih =>
    have : rejectRest max (w :: ws) es = rejectRest max ws (registerError max es { code := .enomatch, parent := none, argval := some w }) := rfl
    rw [this, ih]
    simp [registerError_ne_nil hm]

theorem parseCheck_nil {max : Nat} (hm : 0 < max) (slots : Nat → Slot) (table : List ArgEntry) (i : Nat) (es : List ErrRec) :
    parseCheck max slots table i es = [] ↔ es = [] ∧ ∀ j e, table[j]? = some e → e.mincount ≤ (slots (i + j)).count := by
  induction table generalizing i es with
  | nil => simp [parseCheck]
  | cons e tb ih =>
    rw [parseCheck, ih]
    have split : (∀ j e', (e :: tb)[j]? = some e' → e'.mincount ≤ (slots (i + j)).count) ↔
        e.mincount ≤ (slots i).count ∧ ∀ j e', tb[j]? = some e' → e'.mincount ≤ (slots (i + 1 + j)).count := by
      constructor
      · intro h
        refine ⟨by simpa using h 0 e (by simp), ?_⟩
        intro j e' he'
        have := h (j + 1) e' (by simpa using he')
        have e1 : i + (j + 1) = i + 1 + j := by omega
        rwa [e1] at this
      · rintro ⟨h1, h2⟩ j e' he'
        cases j with
        | zero => simp at he'; subst he'; simpa using h1
        | succ j =>
          have := h2 j e' (by simpa using he')
          have e1 : i + (j + 1) = i + 1 + j := by omega
          rwa [e1]
    rw [split]
    by_cases hc : (slots i).count < e.mincount
    · simp only [check, hc, if_true]
      constructor
      · rintro ⟨h, _⟩; exact absurd h (registerError_ne_nil hm _ _)
      · rintro ⟨_, h, _⟩; omega
    · simp only [check, hc, if_false]
      constructor
      · rintro ⟨h1, h2⟩; exact ⟨h1, by omega, h2⟩
      · rintro ⟨h1, _, h2⟩; exact ⟨h1, h2⟩

theorem applyEv_length {max : Nat} {table : List ArgEntry} {q : (Nat → Slot) × List ErrRec} (ev : Ev) (h : q.2.length ≤ max) :
    (applyEv max table q ev).2.length ≤ max := by
  cases ev with
  | opt i a last =>
    have h0 : (if a = some [] ∧ Option.map (fun x => x.kind.hasArg) table[i]? = some 1 then
        registerError max q.2 { code := .emissarg, parent := none, argval := some last } else q.2).length ≤ max := by
      split
      · exact registerError_length _ _ h
      · exact h
    simp only [applyEv]
    split
    · exact h0
    · simp only
      split
      · exact h0
      · exact registerError_length _ _ h0
  | badLong _ => exact registerError_length _ _ h
  | badShort _ => exact registerError_length _ _ h
  | missing _ => exact registerError_length _ _ h

theorem parseResult_length (max : Nat) (table : List ArgEntry) (evs : List Ev) (rest : List CStr) :
    (parseResult max table evs rest).2.length ≤ max := by
  have h1 : ∀ (evs : List Ev) (q : (Nat → Slot) × List ErrRec), q.2.length ≤ max → (evs.foldl (applyEv max table) q).2.length ≤ max := by
    intro evs
    induction evs with
    | nil => intro q h; exact h
    | cons ev evs ih => intro q h; exact ih _ (applyEv_length ev h)
  have h2 : ∀ (rest : List CStr) (es : List ErrRec), es.length ≤ max → (rejectRest max rest es).length ≤ max := by
    intro rest
    induction rest with
    | nil => intro es h; exact h
    | cons w ws ih => intro es h; exact ih _ (registerError_length _ _ h)
  have h3 : ∀ (slots : Nat → Slot) (tb : List ArgEntry) (i : Nat) (es : List ErrRec), es.length ≤ max →
      (parseCheck max slots tb i es).length ≤ max := by
    intro slots tb
    induction tb with
    | nil => intro i es h; exact h
    | cons e tb ih =>
      intro i es h
      rw [parseCheck]
      apply ih
      split
      · exact registerError_length _ _ h
      · exact h
  unfold parseResult
  simp only
  split
  · exact h3 _ _ _ _ (by simp)
  · exact h2 _ _ (h1 _ _ (by simp))

/-! ## One entry -/

/-- The state of an entry after it accepted these values. -/
theorem allOk_iff (e : ArgEntry) (as : List (Option CStr)) (s : Slot) (hs : s.count ≤ e.maxcount) :
    AllOk e s as ↔ s.count + as.length ≤ e.maxcount ∧ (e.kind = .int → ∀ v, some v ∈ as → ∃ n, scanIntText v = .ok n) := by
  induction as generalizing s with
  | nil => simp [AllOk, hs]
  | cons a as ih =>
    obtain ⟨lo, sh, k, mn, mx⟩ := e
    simp only [AllOk]
    cases k with
    | lit =>
      by_cases hc : s.count < mx
      · simp only [scan, hc, if_true, true_and]
        rw [ih _ (by simp; simp at hs; omega)]
        simp; omega
      · simp only [scan, hc, if_false]
        simp; omega
    | int =>
      by_cases hc : s.count = mx
      · simp only [scan, hc, if_true]
        simp; omega
      · simp only [scan, hc, if_false]
        cases a with
        | none =>
          simp only [true_and]
          rw [ih _ (by simp at hs ⊢; omega)]
          simp; omega
        | some v =>
          cases hv : scanIntText v with
          | error c => simp [hv]
          | ok n =>
            simp only [hv, true_and]
            rw [ih _ (by simp at hs ⊢; omega)]
            simp [hv]; omega
    | str =>
      by_cases hc : s.count = mx
      · simp only [scan, hc, if_true]
        simp
      · simp only [scan, hc, if_false]
        cases a with
        | none =>
          simp only [true_and]
          rw [ih _ (by simp at hs ⊢; omega)]
          simp; omega
        | some v =>
          simp only [true_and]
          rw [ih _ (by simp at hs ⊢; omega)]
          simp; omega

/-- The values the entry stores, all of them being accepted. -/
theorem slotAfter_ok (e : ArgEntry) (as : List (Option CStr)) (s : Slot) (h : AllOk e s as) :
    (slotAfter e s as).count = s.count + as.length ∧
      (e.kind = .str → (slotAfter e s as).strs = s.strs ++ as.filterMap id) ∧
      (e.kind = .int → ∃ ns, (slotAfter e s as).ints = s.ints ++ ns ∧ (as.filterMap id).map scanIntText = ns.map .ok) := by
  induction as generalizing s with
  | nil => exact ⟨rfl, fun _ => by simp [slotAfter], fun _ => ⟨[], by simp [slotAfter], rfl⟩⟩
  | cons a as ih =>
    obtain ⟨h1, h2⟩ := h
    obtain ⟨g1, g2, g3⟩ := ih _ h2
    have hstep : slotAfter e s (a :: as) = slotAfter e (scan e s a).1 as := rfl
    rw [hstep]
    obtain ⟨lo, sh, k, mn, mx⟩ := e
    cases k with
    | lit =>
      by_cases hc : s.count < mx
      · simp only [scan, hc, if_true] at g1 ⊢
        refine ⟨by rw [g1]; simp; omega, by simp, by simp⟩
      · simp [scan, hc] at h1
    | int =>
      by_cases hc : s.count = mx
      · simp [scan, hc] at h1
      · obtain ⟨ns, g4, g5⟩ := g3 rfl
        cases a with
        | none =>
          simp only [scan, hc, if_false] at g1 g4 ⊢
          exact ⟨by rw [g1]; simp; omega, by simp, fun _ => ⟨ns, g4, by simpa using g5⟩⟩
        | some v =>
          cases hv : scanIntText v with
          | error c => simp [scan, hc, hv] at h1
          | ok n =>
            simp only [scan, hc, if_false, hv] at g1 g4 ⊢
            refine ⟨by rw [g1]; simp; omega, by simp, fun _ => ⟨n :: ns, by rw [g4]; simp, by simpa [hv] using g5⟩⟩
    | str =>
      by_cases hc : s.count = mx
      · simp [scan, hc] at h1
      · cases a with
        | none =>
          simp only [scan, hc, if_false] at g1 g2 ⊢
          exact ⟨by rw [g1]; simp; omega, fun _ => by rw [g2 trivial]; simp, by simp⟩
        | some v =>
          simp only [scan, hc, if_false] at g1 g2 ⊢
          exact ⟨by rw [g1]; simp; omega, fun _ => by rw [g2 trivial]; simp, by simp⟩

theorem slotAfter_lit (e : ArgEntry) (hk : e.kind = .lit) (as : List (Option CStr)) (s : Slot) (hs : s.count ≤ e.maxcount) :
    (slotAfter e s as).count = min (s.count + as.length) e.maxcount := by
  induction as generalizing s with
  | nil => simp [slotAfter]; omega
  | cons a as ih =>
    have hstep : slotAfter e s (a :: as) = slotAfter e (scan e s a).1 as := rfl
    rw [hstep]
    by_cases hc : s.count < e.maxcount
    · simp only [scan, hk, hc, if_true]
      rw [ih _ (by simp; omega)]
      simp; omega
    · simp only [scan, hk, hc, if_false]
      rw [ih _ hs]
      simp; omega

/-! ## Items -/

theorem vals_items (o : Opt) (is : List Item) : (vals (Opt.ix o) (itemOpts is)).length = times o is ∧
    (vals (Opt.ix o) (itemOpts is)).filterMap id = given o is := by
  induction is with
  | nil => exact ⟨rfl, rfl⟩
  | cons it is ih =>
    cases it with
    | mistake => simpa [itemOpts, times, given] using ih
    | opt o' v =>
      simp only [itemOpts, times, vals_cons]
      by_cases h : o' = o
      · subst h
        cases v <;> simp [ih.1, ih.2, given]
      · have : Opt.ix o' ≠ Opt.ix o := fun he => h (ix_inj he)
        rw [if_neg this]
        cases v <;> simp [ih.1, ih.2, given, h]

/-- Options that take a value have one. -/
theorem scan_wf {posix : Bool} {ws : List CStr} {is : List Item} (h : Scan posix ws is) :
    ∀ o v, Item.opt o v ∈ is → (v ≠ none ↔ o.takes ≠ .nothing) := by
  induction h with
  | nil => simp
  | value n v o ws is _ ht _ ih =>
    intro o' v' hm
    simp at hm
    rcases hm with ⟨rfl, rfl⟩ | hm
    · simpa using ht
    · exact ih _ _ hm
  | spaced n v o ws is _ ht _ ih =>
    intro o' v' hm
    simp at hm
    rcases hm with ⟨rfl, rfl⟩ | hm
    · simpa using ht
    · exact ih _ _ hm
  | flag n o ws is _ ht _ ih =>
    intro o' v' hm
    simp at hm
    rcases hm with ⟨rfl, rfl⟩ | hm
    · simpa using ht
    · exact ih _ _ hm
  | missing => simp
  | unknown b ws is _ _ _ _ ih => intro o' v' hm; simp at hm; exact ih _ _ hm
  | letters s ws is _ _ _ ih => intro o' v' hm; simp at hm; exact ih _ _ hm
  | lettersLong s b ws is _ _ _ _ ih => intro o' v' hm; simp at hm; exact ih _ _ hm
  | positional w ws is _ _ _ ih => intro o' v' hm; simp at hm; exact ih _ _ hm
  | positionalEnd => simp
  | dashes ws => intro o' v' hm; split at hm <;> simp at hm

/-- The entry of an option. -/
def Opt.entry (o : Opt) : ArgEntry where
  longopts := some o.name
  kind := match o.takes with | .nothing => .lit | .int => .int | .text => .str
  mincount := if o = .exePath then 1 else 0
  maxcount := o.atMost

theorem mainTable_get (o : Opt) : mainTable[Opt.ix o]? = some (Opt.entry o) := by cases o <;> rfl

theorem mainTable_ix {i : Nat} {e : ArgEntry} (h : mainTable[i]? = some e) : ∃ o, i = Opt.ix o ∧ e = Opt.entry o := by
  have hi : i < 19 := by
    rcases Nat.lt_or_ge i 19 with h' | h'
    · exact h'
    · rw [List.getElem?_eq_none (by simpa [mainTable] using h')] at h; simp at h
  have : ∃ o, i = Opt.ix o := by
    have : ∀ j : Fin 19, ∃ o ∈ allOpts, j.val = Opt.ix o := by decide
    obtain ⟨o, _, ho⟩ := this ⟨i, hi⟩
    exact ⟨o, ho⟩
  obtain ⟨o, rfl⟩ := this
  rw [mainTable_get] at h
  simp only [Option.some.injEq] at h
  exact ⟨o, rfl, h.symm⟩

theorem mem_itemOpts {p : Nat × Option CStr} {is : List Item} : p ∈ itemOpts is ↔ ∃ o v, Item.opt o v ∈ is ∧ p = (Opt.ix o, v) := by
  induction is with
  | nil => simp [itemOpts]
  | cons it is ih =>
    cases it with
    | mistake => simp [itemOpts, ih]
    | opt o v =>
      simp only [itemOpts, List.mem_cons, ih]
      constructor
      · rintro (rfl | ⟨o', v', h, rfl⟩)
        · exact ⟨o, v, Or.inl rfl, rfl⟩
        · exact ⟨o', v', Or.inr h, rfl⟩
      · rintro ⟨o', v', h | h, rfl⟩
        · simp only [Item.opt.injEq] at h; rw [h.1, h.2]; exact Or.inl rfl
        · exact Or.inr ⟨o', v', h, rfl⟩

theorem mem_vals {i : Nat} {a : Option CStr} {l : List (Nat × Option CStr)} : a ∈ vals i l ↔ (i, a) ∈ l := by
  unfold vals
  simp only [List.mem_map, List.mem_filter, decide_eq_true_eq]
  constructor
  · rintro ⟨⟨j, b⟩, ⟨h1, h2⟩, h3⟩
    simp only at h2 h3
    rw [← h2, ← h3]; exact h1
  · intro h; exact ⟨(i, a), ⟨h, rfl⟩, rfl⟩

theorem ix_lt (o : Opt) : Opt.ix o < mainTable.length := by cases o <;> decide

theorem entry_kind_int (o : Opt) : (Opt.entry o).kind = .int ↔ o.takes = .int := by
  cases o <;> decide

theorem entry_kind_str (o : Opt) : (Opt.entry o).kind = .str ↔ o.takes = .text := by
  cases o <;> decide

theorem entry_hasArg (o : Opt) : (Opt.entry o).kind.hasArg = 1 ↔ o.takes ≠ .nothing := by
  cases o <;> decide

/-! ## The whole -/

theorem parse_errs_nil {posix : Bool} {ws : List CStr} {is : List Item} (hs : Scan posix ws is) {evs : List Ev} {rest : List CStr}
    (h : Same evs rest is) : (parseResult maxErrors mainTable evs rest).2 = [] ↔ Fine is := by
  have hm : 0 < maxErrors := by decide
  have hin : ∀ p ∈ evOpts evs, p.1 < mainTable.length := by
    intro p hp
    rw [h.opts, mem_itemOpts] at hp
    obtain ⟨o, v, _, rfl⟩ := hp
    exact ix_lt o
  have hfold := errs_fold hm evs hin ((fun _ => {}), [])
  have hslot : ∀ o, (evs.foldl (applyEv maxErrors mainTable) ((fun _ => {}), [])).1 (Opt.ix o) =
      slotAfter (Opt.entry o) {} (vals (Opt.ix o) (itemOpts is)) := by
    intro o
    rw [slots_fold (mainTable_get o), h.opts]
  have hall : ∀ o, AllOk (Opt.entry o) {} (vals (Opt.ix o) (itemOpts is)) ↔
      times o is ≤ o.atMost ∧ (o.takes = .int → ∀ v, Item.opt o (some v) ∈ is → ∃ n, LooseIntText v n ∧ IsInt n) := by
    intro o
    rw [allOk_iff _ _ _ (by simp), (vals_items o is).1]
    simp only [Nat.zero_add, entry_kind_int]
    have h1 : (Opt.entry o).maxcount = o.atMost := rfl
    rw [h1]
    constructor
    · rintro ⟨a, b⟩
      refine ⟨a, fun ht v hv => ?_⟩
      obtain ⟨n, hn⟩ := b ht v (mem_vals.mpr (mem_itemOpts.mpr ⟨o, some v, hv, rfl⟩))
      exact ⟨n, (scanIntText_iff v n).mp hn⟩
    · rintro ⟨a, b⟩
      refine ⟨a, fun ht v hv => ?_⟩
      obtain ⟨o', v', hm', he⟩ := mem_itemOpts.mp (mem_vals.mp hv)
      simp only [Prod.mk.injEq] at he
      have := ix_inj he.1
      subst this
      rw [← he.2] at hm'
      obtain ⟨n, hn⟩ := b ht v hm'
      exact ⟨n, (scanIntText_iff v n).mpr hn⟩
  have hfill : (∀ p ∈ evOpts evs, Filled mainTable p) ↔ ∀ o v, Item.opt o (some v) ∈ is → v ≠ [] := by
    rw [h.opts]
    constructor
    · intro hf o v hv hnil
      have := hf (Opt.ix o, some v) (mem_itemOpts.mpr ⟨o, some v, hv, rfl⟩)
      apply this
      have ht := (scan_wf hs o (some v) hv).mp (by simp)
      simp [hnil, mainTable_get, (entry_hasArg o).mpr ht]
    · rintro hf p hp ⟨h1, h2⟩
      obtain ⟨o, v, hv, rfl⟩ := mem_itemOpts.mp hp
      simp only at h1
      subst h1
      exact hf o [] hv rfl
  have hcheck : (∀ j e, mainTable[j]? = some e →
      e.mincount ≤ ((evs.foldl (applyEv maxErrors mainTable) ((fun _ => {}), [])).1 (0 + j)).count) ↔
      1 ≤ ((evs.foldl (applyEv maxErrors mainTable) ((fun _ => {}), [])).1 (Opt.ix .exePath)).count := by
    constructor
    · intro hc
      have := hc _ _ (mainTable_get .exePath)
      simpa [Opt.entry] using this
    · intro hc j e he
      obtain ⟨o, rfl, rfl⟩ := mainTable_ix he
      simp only [Opt.entry, Nat.zero_add]
      split
      · rename_i ho; subst ho; exact hc
      · omega
  unfold parseResult
  simp only
  constructor
  · intro hz
    have hrej : rejectRest maxErrors rest (evs.foldl (applyEv maxErrors mainTable) ((fun _ => {}), [])).2 = [] := by
      apply Classical.byContradiction
      intro hne
      rw [if_neg hne] at hz
      exact hne hz
    rw [if_pos hrej, parseCheck_nil hm, hcheck] at hz
    obtain ⟨he, hrest⟩ := (rejectRest_nil hm _ _).mp hrej
    obtain ⟨_, hbad, hfl, hok⟩ := hfold.mp he
    have hok' := fun o => (hall o).mp (h.opts ▸ hok _ _ (mainTable_get o))
    refine ⟨?_, hfill.mp hfl, ?_, fun o => (hok' o).1, ?_⟩
    · rw [h.bad]; simp [hbad, hrest]
    · intro o v hv ht; exact (hok' o).2 ht v hv
    · have := hz.2
      rw [hslot, (slotAfter_ok _ _ _ (hok _ _ (mainTable_get .exePath) |> fun x => h.opts ▸ x)).1, (vals_items _ _).1] at this
      have e0 : ({} : Slot).count = 0 := rfl
      omega
  · intro hf
    have hnb : evs.any evBad = false ∧ rest = [] := by
      have := hf.noMistake
      rw [h.bad] at this
      refine ⟨?_, ?_⟩
      · cases hb : evs.any evBad with
        | false => rfl
        | true => exact absurd (Or.inl hb) this
      · exact Classical.byContradiction fun hr => this (Or.inr hr)
    have hok : ∀ i e, mainTable[i]? = some e → AllOk e {} (vals i (evOpts evs)) := by
      intro i e he
      obtain ⟨o, rfl, rfl⟩ := mainTable_ix he
      rw [h.opts]
      exact (hall o).mpr ⟨hf.often o, fun ht v hv => hf.ints o v hv ht⟩
    have he := hfold.mpr ⟨rfl, hnb.1, hfill.mpr hf.filled, hok⟩
    rw [if_pos ((rejectRest_nil hm _ _).mpr ⟨he, hnb.2⟩), parseCheck_nil hm, hcheck]
    refine ⟨rfl, ?_⟩
    have hok0 := hok _ _ (mainTable_get .exePath)
    rw [h.opts] at hok0
    rw [hslot, (slotAfter_ok _ _ _ hok0).1, (vals_items _ _).1]
    have := hf.exe
    simp; omega

end Judger
