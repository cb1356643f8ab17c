import Verif.Lemmas.Built
import Verif.Lemmas.CliFold

/-! # C121: the memory of the option table -/

set_option autoImplicit false

namespace Judger

open Spec

/-! ## Parsing -/

theorem Built.mono {h h' : Heap} (b : Built h) (hp : InPlace tableLayout h') (hs : ∀ i, i ≤ 100 → h'.size i = h.size i) (hc : ∀ c ∈ h.cells, c.1 ≤ 100 → c ∈ h'.cells) :
    Built h' := by
  have hi : ∀ i e, mainTable[i]? = some e → i ≤ 100 := by
    intro i e h1
    have := (List.getElem?_eq_some_iff.1 h1).1
    have h2 : mainTable.length = 19 := by decide
    omega
  constructor
  · intro i e h1
    rw [hs i (hi i e h1)]
    exact b.entry i e h1
  · rw [hs endBlock (by decide)]
    exact b.last
  · intro i e h1
    have h2 := b.head i e h1
    exact ⟨hc _ h2.1 (hi i e h1), hc _ h2.2.1 (hi i e h1), fun h3 => hc _ (h2.2.2 h3) (hi i e h1)⟩
  · have h2 := b.lastHead
    exact ⟨hc _ h2.1 (by decide), hc _ h2.2.1 (by decide), hc _ h2.2.2.1 (by decide), hc _ h2.2.2.2.1 (by decide), hc _ h2.2.2.2.2 (by decide)⟩
  · exact hp
  · intro i e h1 h2 k h3
    exact hc _ (b.strs i e h1 h2 k h3) (hi i e h1)

/-- What holds while the words are parsed. -/
structure InOrder (h : Heap) (slots : Nat → Slot) (errs : List ErrRec) : Prop where
  built : Built h
  room : ∀ i e, mainTable[i]? = some e → (slots i).count ≤ e.maxcount
  ints : ∀ i e, mainTable[i]? = some e → e.kind = .int → ∀ k < (slots i).count, (i, 112 + 4 * k, 4) ∈ h.cells
  few : errs.length ≤ 10
  parents : ∀ r ∈ errs, ∀ i, r.parent = some i → (mainTable[i]?).isSome
  rows : ∀ k < errs.length, (100, 128 + 4 * k, 4) ∈ h.cells ∧ (100, 168 + 8 * k, 8) ∈ h.cells ∧ (100, 248 + 8 * k, 8) ∈ h.cells

theorem entry_lt {i : Nat} {e : ArgEntry} (h : mainTable[i]? = some e) : i ≤ 100 := by
  have := (List.getElem?_eq_some_iff.1 h).1
  have h2 : mainTable.length = 19 := by decide
  omega

theorem InOrder.mono {h h' : Heap} {slots : Nat → Slot} {errs : List ErrRec} (r : InOrder h slots errs) (hp : InPlace tableLayout h') (hs : ∀ i, i ≤ 100 → h'.size i = h.size i)
    (hc : ∀ c ∈ h.cells, c.1 ≤ 100 → c ∈ h'.cells) : InOrder h' slots errs where
  built := r.built.mono hp hs hc
  room := r.room
  ints := fun i e h1 h2 k h3 => hc _ (r.ints i e h1 h2 k h3) (entry_lt h1)
  few := r.few
  parents := r.parents
  rows := fun k hk => ⟨hc _ (r.rows k hk).1 (Nat.le_refl _), hc _ (r.rows k hk).2.1 (Nat.le_refl _), hc _ (r.rows k hk).2.2 (Nat.le_refl _)⟩

theorem InOrder.leads {h h' : Heap} {slots : Nat → Slot} {errs : List ErrRec} {es : List MemEv} (r : InOrder h slots errs) (l : Leads tableLayout h es h') : InOrder h' slots errs :=
  r.mono (l.place r.built.place) (fun i _ => l.size i) (fun c hc _ => l.mono c hc)

theorem fits_end {h : Heap} (b : Built h) {off n : Nat} (h1 : off + n ≤ 328) (h2 : aligned off n = true) (h3 : tableLayout 100 off = some n) : Fits tableLayout h (.write endBlock off n) :=
  ⟨h3, 328, b.last, h1, h2⟩

theorem fits_readEnd {h : Heap} (b : Built h) {off n : Nat} (h1 : (100, off, n) ∈ h.cells) : Fits tableLayout h (.read endBlock off n) :=
  ⟨by rw [b.last]; rfl, h1⟩

theorem fits_readEntry {h : Heap} (b : Built h) {i off n : Nat} {e : ArgEntry} (hi : mainTable[i]? = some e) (h1 : (i, off, n) ∈ h.cells) :
    Fits tableLayout h (.read i off n) :=
  ⟨by rw [b.entry i e hi]; rfl, h1⟩

theorem layEnd4 {k : Nat} (h : k ≤ 9) : tableLayout 100 (128 + 4 * k) = some 4 := by
  simp only [tableLayout, endBlock, if_true]
  rw [if_neg (by omega), if_neg (by omega), if_neg (by omega), if_pos (by omega)]

theorem layEnd8 {o : Nat} (h : 168 ≤ o) (h8 : o % 8 = 0) : tableLayout 100 o = some 8 := by
  simp only [tableLayout, endBlock, if_true]
  rw [if_neg (by omega), if_neg (by omega), if_neg (by omega), if_neg (by omega), if_pos (by omega)]

theorem aligned4 (k : Nat) : aligned (128 + 4 * k) 4 = true := by
  simp only [aligned]; rw [if_pos (by decide)]; simp

theorem aligned8 {a : Nat} (k : Nat) (ha : a % 8 = 0) : aligned (a + 8 * k) 8 = true := by
  simp only [aligned]; rw [if_pos (by decide)]; simp; omega

theorem registerError_len (max : Nat) (es : List ErrRec) (r : ErrRec) :
    (registerError max es r).length = if es.length < max then es.length + 1 else es.length := by
  unfold registerError
  split <;> simp

theorem registerError_mem {max : Nat} {es : List ErrRec} {r x : ErrRec} (h : x ∈ registerError max es r) : x ∈ es ∨ x = r ∨ x.parent = none := by
  unfold registerError at h
  split at h
  · rcases List.mem_append.1 h with h | h
    · exact .inl h
    · exact .inr (.inl (List.mem_singleton.1 h))
  · rcases List.mem_or_eq_of_mem_set h with h | h
    · exact .inl h
    · exact .inr (.inr (by rw [h]))

/-- An error is registered. -/
theorem ready_error {h : Heap} {slots : Nat → Slot} {errs : List ErrRec} (r : InOrder h slots errs) (x : ErrRec)
    (hx : ∀ i, x.parent = some i → (mainTable[i]?).isSome) :
    ∃ h', Leads tableLayout h (registerEv 10 errs.length) h' ∧ InOrder h' slots (registerError 10 errs x) := by
  have hlen := registerError_len 10 errs x
  have hpar : ∀ y ∈ registerError 10 errs x, ∀ i, y.parent = some i → (mainTable[i]?).isSome := by
    intro y hy i hi
    rcases registerError_mem hy with h | h | h
    · exact r.parents y h i hi
    · exact hx i (h ▸ hi)
    · rw [h] at hi
      cases hi
  generalize registerError 10 errs x = errs' at hlen hpar ⊢
  have hfew := r.few
  have hrows := r.rows
  generalize hn' : errs.length = n at hlen hfew hrows ⊢
  have b := r.built
  obtain ⟨c1, c2, c3, c4, c5⟩ := b.lastHead
  have hk : (if n < 10 then n else 9) ≤ 9 := by split <;> omega
  have hf : ∀ e ∈ registerEv 10 n, Fits tableLayout h e := by
    intro e he
    unfold registerEv at he
    simp only [List.mem_append, List.mem_cons, List.not_mem_nil, or_false, endSize] at he
    generalize (if n < 10 then n else 10 - 1) = k at he hk
    rcases he with (he | he | he | he | he | he | he | he) | he
    · subst he; exact fits_readEnd b c2
    · subst he; exact fits_readEnd b c1
    · subst he; exact fits_readEnd b c3
    · subst he; exact fits_end b (by omega) (aligned4 k) (layEnd4 (by omega))
    · subst he; exact fits_readEnd b c4
    · subst he; exact fits_end b (by omega) (aligned8 k (by decide)) (layEnd8 (by omega) (by omega))
    · subst he; exact fits_readEnd b c5
    · subst he; exact fits_end b (by omega) (aligned8 k (by decide)) (layEnd8 (by omega) (by omega))
    · split at he
      · rw [List.mem_singleton] at he
        subst he
        exact fits_end b (by decide) (by decide) (by decide)
      · cases he
  obtain ⟨h', l⟩ := run_fits tableLayout_apart _ h b.place hf
  refine ⟨h', l, ?_⟩
  have r' := r.leads l
  by_cases hn : n < 10
  · rw [if_pos hn] at hlen
    refine ⟨r'.built, r'.room, r'.ints, by omega, hpar, ?_⟩
    intro k hk
    by_cases h1 : k < n
    · exact r'.rows k (by omega)
    · obtain rfl : k = n := by omega
      have hw := fun o s => l.writes 100 o s
      unfold registerEv at hw
      simp only [if_pos hn, endSize, endBlock] at hw
      refine ⟨hw _ _ ?_, hw _ _ ?_, hw _ _ ?_⟩ <;> simp
  · rw [if_neg hn] at hlen
    exact ⟨r'.built, r'.room, r'.ints, by omega, hpar, fun k hk => r'.rows k (by omega)⟩

theorem InOrder.set {h : Heap} {slots : Nat → Slot} {errs : List ErrRec} {i : Nat} {e : ArgEntry} (r : InOrder h slots errs) (hi : mainTable[i]? = some e) (s : Slot)
    (h1 : s.count ≤ e.maxcount) (h2 : e.kind = .int → ∀ k < s.count, (i, 112 + 4 * k, 4) ∈ h.cells) : InOrder h (setSlot slots i s) errs where
  built := r.built
  room := by
    intro j e' hj
    by_cases hji : j = i
    · subst hji
      rw [hi] at hj
      cases hj
      simpa only [setSlot, if_true] using h1
    · simpa only [setSlot, if_neg hji] using r.room j e' hj
  ints := by
    intro j e' hj hk
    by_cases hji : j = i
    · subst hji
      rw [hi] at hj
      cases hj
      simpa only [setSlot, if_true] using h2 hk
    · simpa only [setSlot, if_neg hji] using r.ints j e' hj hk
  few := r.few
  parents := r.parents
  rows := r.rows

theorem ready_scan {h : Heap} {slots : Nat → Slot} {errs : List ErrRec} {i : Nat} {e : ArgEntry} {a : Option CStr} (r : InOrder h slots errs) (hi : mainTable[i]? = some e)
    (ha : e.kind ≠ .lit → a ≠ none) :
    ∃ h', Leads tableLayout h (scanEv i e (slots i) a) h' ∧ InOrder h' (setSlot slots i (scan e (slots i) a).1) errs := by
  have b := r.built
  have hr := r.room i e hi
  have hz := b.entry i e hi
  obtain ⟨c1, c2, c3⟩ := b.head i e hi
  have f1 : Fits tableLayout h (.read i 0 hdrSize) := fits_readEntry b hi c1
  have f2 : Fits tableLayout h (.read i 96 4) := fits_readEntry b hi c2
  have f3 : Fits tableLayout h (.write i 96 4) := by
    refine ⟨by rw [tableLayout_entry hi]; rfl, _, hz, ?_, by decide⟩
    cases e.kind <;> simp [litSize, valSize] <;> omega
  have same : ∀ h', InOrder h' slots errs → InOrder h' (setSlot slots i (slots i)) errs := fun h' r' => r'.set hi _ hr (fun hk => r'.ints i e hi hk)
  unfold scanEv scan
  cases hk : e.kind with
  | lit =>
    simp only [hk] at hz ⊢
    by_cases hl : (slots i).count < e.maxcount
    · rw [if_pos hl, if_pos hl]
      obtain ⟨h', l⟩ := run_fits tableLayout_apart [.read i 0 hdrSize, .read i 96 4, .write i 96 4] h b.place (by
        intro x hx
        simp only [List.mem_cons, List.not_mem_nil, or_false] at hx
        rcases hx with rfl | rfl | rfl
        · exact f1
        · exact f2
        · exact f3)
      exact ⟨h', l, (r.leads l).set hi _ (by simp only; omega) (fun hk' => by rw [hk] at hk'; cases hk')⟩
    · rw [if_neg hl, if_neg hl]
      obtain ⟨h', l⟩ := run_fits tableLayout_apart [.read i 0 hdrSize, .read i 96 4] h b.place (by
        intro x hx
        simp only [List.mem_cons, List.not_mem_nil, or_false] at hx
        rcases hx with rfl | rfl
        · exact f1
        · exact f2)
      exact ⟨h', by simpa using l, same h' (r.leads l)⟩
  | int =>
    have c3 := c3 (by rw [hk]; decide)
    have f4 : Fits tableLayout h (.read i 104 8) := fits_readEntry b hi c3
    simp only [hk] at hz ⊢
    by_cases hl : (slots i).count = e.maxcount
    · rw [if_pos hl, if_pos hl]
      obtain ⟨h', l⟩ := run_fits tableLayout_apart [.read i 0 hdrSize, .read i 96 4] h b.place (by
        intro x hx
        simp only [List.mem_cons, List.not_mem_nil, or_false] at hx
        rcases hx with rfl | rfl
        · exact f1
        · exact f2)
      exact ⟨h', by simpa using l, same h' (r.leads l)⟩
    · rw [if_neg hl, if_neg hl]
      cases a with
      | none => exact absurd rfl (ha (by rw [hk]; decide))
      | some v =>
        simp only
        cases scanIntText v with
        | error c =>
          obtain ⟨h', l⟩ := run_fits tableLayout_apart [.read i 0 hdrSize, .read i 96 4] h b.place (by
            intro x hx
            simp only [List.mem_cons, List.not_mem_nil, or_false] at hx
            rcases hx with rfl | rfl
            · exact f1
            · exact f2)
          exact ⟨h', by simpa using l, same h' (r.leads l)⟩
        | ok m =>
          obtain ⟨h', l⟩ := run_fits tableLayout_apart [.read i 0 hdrSize, .read i 96 4, .read i 104 8, .write i (valSize + 4 * (slots i).count) 4, .write i 96 4] h b.place (by
            intro x hx
            simp only [List.mem_cons, List.not_mem_nil, or_false] at hx
            rcases hx with rfl | rfl | rfl | rfl | rfl
            · exact f1
            · exact f2
            · exact f4
            · refine ⟨by
                rw [tableLayout_entry hi, if_neg (by unfold valSize; omega), if_neg (by unfold valSize; omega), if_neg (by unfold valSize; omega), if_pos (by unfold valSize; omega), if_pos hk,
                  if_pos (by unfold valSize; omega)], _, hz, by simp only [valSize]; omega, ?_⟩
              simp only [aligned, valSize]; rw [if_pos (by decide)]; simp
            · exact f3)
          refine ⟨h', l, (r.leads l).set hi _ (by simp only; omega) (fun _ k hk' => ?_)⟩
          simp only at hk'
          by_cases hkk : k < (slots i).count
          · exact (r.leads l).ints i e hi hk k hkk
          · obtain rfl : k = (slots i).count := by omega
            exact l.writes _ _ _ (by simp [valSize])
  | str =>
    have c3 := c3 (by rw [hk]; decide)
    have f4 : Fits tableLayout h (.read i 104 8) := fits_readEntry b hi c3
    simp only [hk] at hz ⊢
    by_cases hl : (slots i).count = e.maxcount
    · rw [if_pos hl, if_pos hl]
      obtain ⟨h', l⟩ := run_fits tableLayout_apart [.read i 0 hdrSize, .read i 96 4] h b.place (by
        intro x hx
        simp only [List.mem_cons, List.not_mem_nil, or_false] at hx
        rcases hx with rfl | rfl
        · exact f1
        · exact f2)
      exact ⟨h', by simpa using l, same h' (r.leads l)⟩
    · rw [if_neg hl, if_neg hl]
      cases a with
      | none => exact absurd rfl (ha (by rw [hk]; decide))
      | some v =>
        obtain ⟨h', l⟩ := run_fits tableLayout_apart [.read i 0 hdrSize, .read i 96 4, .read i 104 8, .write i (valSize + 8 * (slots i).count) 8, .write i 96 4] h b.place (by
          intro x hx
          simp only [List.mem_cons, List.not_mem_nil, or_false] at hx
          rcases hx with rfl | rfl | rfl | rfl | rfl
          · exact f1
          · exact f2
          · exact f4
          · exact ⟨by
              rw [tableLayout_entry hi, if_neg (by unfold valSize; omega), if_neg (by unfold valSize; omega), if_neg (by unfold valSize; omega), if_pos (by unfold valSize; omega),
                if_neg (by rw [hk]; decide), if_pos (by unfold valSize; omega)], _, hz, by simp only [valSize]; omega, aligned8 _ (by decide)⟩
          · exact f3)
        exact ⟨h', l, (r.leads l).set hi _ (by simp only; omega) (fun hk' => by rw [hk] at hk'; cases hk')⟩

theorem ready_scanInto {h : Heap} {p : PState} {i : Nat} (r : InOrder h p.slots p.errs)
    (ha : ∀ e, mainTable[i]? = some e → e.kind ≠ .lit → p.g.optarg ≠ none) :
    ∃ h', Leads tableLayout h (scanIntoEv 10 mainTable i p) h' ∧ InOrder h' (scanInto 10 mainTable i p).slots (scanInto 10 mainTable i p).errs := by
  unfold scanIntoEv scanInto
  cases hi : mainTable[i]? with
  | none => exact ⟨h, .nil h, r⟩
  | some e =>
    obtain ⟨h1, l1, r1⟩ := ready_scan r hi (ha e hi)
    simp only
    cases hs : scan e (p.slots i) p.g.optarg with
    | mk s err =>
      rw [hs] at r1
      cases err with
      | none => exact ⟨h1, by simpa using l1, r1⟩
      | some c =>
        obtain ⟨h2, l2, r2⟩ := ready_error r1 { code := c, parent := some i, argval := p.g.optarg } (fun j hj => by cases hj; rw [hi]; rfl)
        exact ⟨h2, l1.append l2, r2⟩

/-! ## What getopt returns -/

theorem findLong_mem {cur : CStr} {len : Nat} (os : List LongOpt) (f : Found) (o : LongOpt) (h : (findLong cur len os f).matched = some o) :
    o ∈ os ∨ f.matched = some o := by
  induction os generalizing f with
  | nil => exact .inr h
  | cons x os ih =>
    unfold findLong at h
    split at h
    · exact (ih f h).imp_left (List.mem_cons_of_mem _)
    · split at h
      · cases h
        exact .inl List.mem_cons_self
      · cases hm : f.matched with
        | none =>
          rw [hm] at h
          rcases ih _ h with h | h
          · exact .inl (List.mem_cons_of_mem _ h)
          · cases h
            exact .inl List.mem_cons_self
        | some m =>
          rw [hm] at h
          simp only at h
          split at h
          · rcases ih _ h with h | h
            · exact .inl (List.mem_cons_of_mem _ h)
            · exact .inr (hm ▸ h)
          · rcases ih _ h with h | h
            · exact .inl (List.mem_cons_of_mem _ h)
            · exact .inr (hm ▸ h)

theorem parseLong_arg {L : List LongOpt} {σ σ' : GState} (h : parseLongOptions L σ = (.long, σ')) :
    ∃ o ∈ L, σ'.getoptval = o.val ∧ (o.hasArg = 1 → σ'.optarg ≠ none) := by
  unfold parseLongOptions at h
  simp only at h
  generalize hf : findLong _ _ L _ = f at h
  by_cases h1 : (!f.exact && f.second) = true
  · rw [if_pos h1] at h
    cases h
  · rw [if_neg h1] at h
    cases ho : f.matched with
    | none =>
      rw [ho] at h
      cases h
    | some o =>
      rw [ho] at h
      have hm : o ∈ L := (findLong_mem L _ o (hf ▸ ho)).resolve_right (by simp)
      simp only at h
      generalize (if o.hasArg = 1 ∨ o.hasArg = 2 then _ else _ : GState) = τ at h
      by_cases h2 : o.hasArg = 0 ∧ strchr σ.place '=' ≠ none
      · rw [if_pos h2] at h
        cases h
      · rw [if_neg h2] at h
        by_cases h3 : o.hasArg = 1 ∧ τ.optarg = none
        · rw [if_pos h3] at h
          cases h
        · rw [if_neg h3] at h
          cases h
          exact ⟨o, hm, rfl, fun ha hb => h3 ⟨ha, hb⟩⟩

theorem nextWord_ret {argc : Nat} {permute : Bool} {r : GRet} {σ' : GState} (σ : GState) (h : nextWord argc permute σ = .ret r σ') : r = .done := by
  induction hn : argc - σ.optind using Nat.strongRecOn generalizing σ with
  | _ n ih =>
    rw [nextWord] at h
    by_cases h1 : argc ≤ σ.optind
    · rw [if_pos h1] at h
      cases h
      rfl
    · rw [if_neg h1] at h
      simp only at h
      split at h
      · split at h
        · exact ih _ (by simp only; omega) _ h rfl
        · cases h
          rfl
      · split at h
        · cases h
          rfl
        · cases h

theorem parseShort_notLong {argc : Nat} {os : CStr} {σ σ' : GState} : parseShort argc os σ ≠ (.long, σ') := by
  unfold parseShort parseShort.bad
  intro h
  repeat' (first | (cases h) | split at h | (simp only at h))

theorem long_arg {posix : Bool} {argc : Nat} {os : CStr} {L : List LongOpt} {g g' : GState} (h : getoptLong posix argc os L g = (.long, g')) :
    ∃ o ∈ L, g'.getoptval = o.val ∧ (o.hasArg = 1 → g'.optarg ≠ none) := by
  unfold getoptLong at h
  split at h
  · rename_i r σ hf
    cases h
    unfold fetchWord at hf
    split at hf
    · exact absurd (nextWord_ret _ hf) (by decide)
    · cases hf
  · rename_i σ hf
    unfold readOption at h
    split at h
    · split at h
      · cases h
      · simp only at h
        cases hp : parseLongOptions L { σ with place := _ } with
        | mk r σ1 =>
          rw [hp] at h
          cases h
          obtain ⟨o, ho, h1, h2⟩ := parseLong_arg hp
          exact ⟨o, ho, h1, h2⟩
    · exact absurd h parseShort_notLong

theorem option_entry : ∀ o ∈ longOptions mainTable 0, ∀ e, mainTable[o.val]? = some e → e.kind ≠ .lit → o.hasArg = 1 := by
  intro o ho e he hk
  have h : ∀ o ∈ longOptions mainTable 0, (mainTable[o.val]?.map (·.kind.hasArg)) = some o.hasArg := by decide +kernel
  have := h o ho
  rw [he] at this
  have h2 : e.kind.hasArg = o.hasArg := Option.some.inj this
  rw [← h2]
  revert hk
  cases e.kind <;> simp [Kind.hasArg]

/-- The two arrays of options can be read. -/
def Options (h : Heap) : Prop := (∀ e ∈ getoptEv mainTable, Fits tableLayout h e) ∧ Fits tableLayout h (.read longBlock 0 4)

theorem Options.leads {h h' : Heap} {es : List MemEv} (o : Options h) (l : Leads tableLayout h es h') : Options h' :=
  ⟨fun e he => (o.1 e he).mono l.size l.mono, o.2.mono l.size l.mono⟩

/-- The loop goes on. -/
theorem ready_handle {h : Heap} {p p' : PState} {r : GRet} (rd : InOrder h p.slots p.errs) (ho : Options h)
    (ha : r = .long → ∀ e, mainTable[p.g.getoptval]? = some e → e.kind ≠ .lit → p.g.optarg ≠ none) (hp : handle 10 mainTable r p = some p') :
    ∃ h', Leads tableLayout h (handleEv 10 mainTable r p) h' ∧ InOrder h' p'.slots p'.errs := by
  cases r with
  | done => cases hp
  | badarg =>
    cases hp
    exact ready_error rd _ (fun _ hi => by cases hi)
  | badch =>
    unfold handle at hp
    simp only at hp
    split at hp <;> cases hp <;> exact ready_error rd _ (fun _ hi => by cases hi)
  | short c =>
    have h1 : findShort mainTable c = none := by
      unfold findShort
      rw [List.findIdx?_eq_none_iff]
      intro e he
      have h2 : ∀ e ∈ mainTable, e.shortopts = none := by decide
      rw [h2 e he]
      rfl
    unfold handle at hp
    unfold handleEv
    simp only [h1] at hp ⊢
    cases hp
    exact ready_error rd _ (fun _ hi => by cases hi)
  | long =>
    unfold handle at hp
    simp only at hp
    unfold handleEv
    simp only
    obtain ⟨h1, l1⟩ := run_fits tableLayout_apart [.read longBlock 0 4] h rd.built.place (fun e he => by rw [List.mem_singleton.1 he]; exact ho.2)
    have r1 := rd.leads l1
    have ha := ha rfl
    generalize hi : p.g.getoptval = i at hp ha ⊢
    by_cases he : p.g.optarg = some [] ∧ (mainTable[i]?.map (·.kind.hasArg)) = some 1
    · simp only [if_pos he] at hp ⊢
      cases hp
      obtain ⟨h2, l2, r2⟩ := ready_error r1 { code := .emissarg, parent := none, argval := lastWord p.g } (fun _ hi => by cases hi)
      obtain ⟨h3, l3, r3⟩ := ready_scanInto (p := { p with
        errs := registerError 10 p.errs { code := .emissarg, parent := none, argval := lastWord p.g } }) (i := i) r2 ha
      exact ⟨h3, (l1.append l2).append l3, r3⟩
    · simp only [if_neg he] at hp ⊢
      cases hp
      obtain ⟨h3, l3, r3⟩ := ready_scanInto r1 ha
      exact ⟨h3, (l1.append (.nil h1)).append l3, r3⟩

theorem ready_tagged {posix : Bool} {argc : Nat} (fuel : Nat) {h : Heap} {p : PState} (rd : InOrder h p.slots p.errs) (ho : Options h) :
    ∃ h', Leads tableLayout h (taggedEv posix 10 mainTable argc fuel p) h' ∧
      ∀ p', tagged posix 10 mainTable argc fuel p = some p' → InOrder h' p'.slots p'.errs := by
  induction fuel generalizing h p with
  | zero => exact ⟨h, .nil h, fun p' hp => by cases hp⟩
  | succ fuel ih =>
    unfold taggedEv tagged taggedStepEv taggedStep
    simp only
    cases hg : getoptLong posix argc (shortOptions mainTable) (longOptions mainTable 0) p.g with
    | mk r g =>
      simp only
      obtain ⟨h1, l1⟩ := run_fits tableLayout_apart _ h rd.built.place ho.1
      have r1 := rd.leads l1
      cases hh : handle 10 mainTable r { p with g := g } with
      | none =>
        have hd : r = .done := by
          cases r <;> simp only [handle] at hh <;> first | rfl | (split at hh <;> cases hh) | cases hh
        subst hd
        refine ⟨h1, ?_, fun p' hp => ?_⟩
        · simpa only [handleEv, List.append_nil] using l1
        · cases hp
          exact r1
      | some p1 =>
        have ha : r = .long → ∀ e, mainTable[g.getoptval]? = some e → e.kind ≠ .lit → g.optarg ≠ none := by
          rintro rfl e he hk
          obtain ⟨o, ho', h1, h2⟩ := long_arg hg
          rw [h1] at he
          exact h2 (option_entry o ho' e he hk)
        obtain ⟨h2, l2, r2⟩ := ready_handle (p := { p with g := g }) r1 (ho.leads l1) ha hh
        obtain ⟨h3, l3, r3⟩ := ih r2 ((ho.leads l1).leads l2)
        exact ⟨h3, (l1.append l2).append l3, r3⟩

theorem ready_reject (ws : List CStr) {h : Heap} {slots : Nat → Slot} {errs : List ErrRec} (rd : InOrder h slots errs) :
    ∃ h', Leads tableLayout h (rejectEv 10 ws errs) h' ∧ InOrder h' slots (rejectRest 10 ws errs) := by
  induction ws generalizing h errs with
  | nil => exact ⟨h, .nil h, rd⟩
  | cons w ws ih =>
    obtain ⟨h1, l1, r1⟩ := ready_error rd { code := .enomatch, parent := none, argval := some w } (fun _ hi => by cases hi)
    obtain ⟨h2, l2, r2⟩ := ih r1
    exact ⟨h2, l1.append l2, r2⟩

theorem ready_check (es : List ArgEntry) (i : Nat) (hes : ∀ j e, es[j]? = some e → mainTable[i + j]? = some e) {h : Heap} {slots : Nat → Slot}
    {errs : List ErrRec} (rd : InOrder h slots errs) :
    ∃ h', Leads tableLayout h (checkEv 10 slots es i errs) h' ∧ InOrder h' slots (parseCheck 10 slots es i errs) := by
  induction es generalizing h errs i with
  | nil =>
    obtain ⟨h1, l1⟩ := run_fits tableLayout_apart [.read endBlock 0 hdrSize] h rd.built.place (fun e he => by
      rw [List.mem_singleton.1 he]; exact fits_readEnd rd.built rd.built.lastHead.1)
    exact ⟨h1, l1, rd.leads l1⟩
  | cons e es ih =>
    have hi : mainTable[i]? = some e := hes 0 e rfl
    have ht : ∀ j e', es[j]? = some e' → mainTable[i + 1 + j]? = some e' := fun j e' hj => by
      have := hes (j + 1) e' hj
      rwa [show i + (j + 1) = i + 1 + j by omega] at this
    obtain ⟨c1, c2, _⟩ := rd.built.head i e hi
    obtain ⟨h1, l1⟩ := run_fits tableLayout_apart [.read i 0 hdrSize, .read i 96 4] h rd.built.place (fun x hx => by
      simp only [List.mem_cons, List.not_mem_nil, or_false] at hx
      rcases hx with rfl | rfl
      · exact fits_readEntry rd.built hi c1
      · exact fits_readEntry rd.built hi c2)
    have r1 := rd.leads l1
    unfold checkEv parseCheck
    cases check e (slots i) with
    | none =>
      obtain ⟨h2, l2, r2⟩ := ih (i + 1) ht r1
      exact ⟨h2, l1.append l2, r2⟩
    | some c =>
      obtain ⟨h2, l2, r2⟩ := ready_error r1 { code := c, parent := some i, argval := none } (fun j hj => by cases hj; rw [hi]; rfl)
      obtain ⟨h3, l3, r3⟩ := ih (i + 1) ht r2
      exact ⟨h3, l1.append (l2.append l3), r3⟩

/-! ## The whole program -/

theorem lookup_cons_ne {b c n : Nat} {l : List (Nat × Nat)} (h : b ≠ c) : ((c, n) :: l).lookup b = l.lookup b := by
  simp [List.lookup, beq_eq_false_iff_ne.2 h]

theorem ready_start : InOrder builtHeap (fun _ => {}) [] where
  built := built
  room := fun _ _ _ => Nat.zero_le _
  ints := fun _ _ _ _ k hk => absurd hk (Nat.not_lt_zero k)
  few := by decide
  parents := fun _ hr => by cases hr
  rows := fun k hk => absurd hk (Nat.not_lt_zero k)

theorem copyArgv_writes (argc : Nat) : ∀ e ∈ (List.range (argc + 1)).map fun k => MemEv.write argvBlock (8 * k) 8,
    ∃ o k, e = .write argvBlock o k ∧ o + k ≤ 8 * (argc + 1) ∧ aligned o k = true ∧ tableLayout argvBlock o = some k := by
  intro e he
  obtain ⟨k, hk, rfl⟩ := List.mem_map.1 he
  rw [List.mem_range] at hk
  refine ⟨_, _, rfl, by omega, by simpa using aligned8 (a := 0) k (by decide), ?_⟩
  simp only [tableLayout]
  rw [if_neg (by decide), if_pos trivial, if_pos (by omega)]

/-- A write to this block within this size. -/
def writesIn (b n : Nat) : MemEv → Bool
  | .write b' o k => b' = b && decide (o + k ≤ n) && aligned o k && tableLayout b o = some k
  | _ => false

theorem writesIn_spec {b n : Nat} {e : MemEv} (h : writesIn b n e = true) : ∃ o k, e = .write b o k ∧ o + k ≤ n ∧ aligned o k = true ∧ tableLayout b o = some k := by
  cases e with
  | write b' o k =>
    simp only [writesIn, Bool.and_eq_true, decide_eq_true_eq] at h
    obtain ⟨⟨⟨rfl, h2⟩, h3⟩, h4⟩ := h
    exact ⟨o, k, rfl, h2, h3, h4⟩
  | _ => cases h

/-- A read of what was written to the options, or the number of the option found. -/
def readsOptions : MemEv → Bool
  | .read b o n => (b = shortBlock && (MemEv.write shortBlock o n ∈ (allocShort mainTable).tail)) || (b = longBlock && (MemEv.write longBlock o n ∈ (allocLong mainTable).tail))
  | .write b o n => b = longBlock && o = 0 && n = 4
  | _ => false

theorem long_cons : allocLong mainTable = .alloc longBlock 864 :: (allocLong mainTable).tail := by decide +kernel
theorem short_cons : allocShort mainTable = .alloc shortBlock 2 :: (allocShort mainTable).tail := by decide +kernel
theorem long_writes : ∀ e ∈ (allocLong mainTable).tail, writesIn longBlock 864 e = true := by decide +kernel
theorem short_writes : ∀ e ∈ (allocShort mainTable).tail, writesIn shortBlock 2 e = true := by decide +kernel
theorem getopt_reads : ∀ e ∈ getoptEv mainTable, readsOptions e = true := by decide +kernel
theorem number_written : MemEv.write longBlock 0 4 ∈ (allocLong mainTable).tail := by decide +kernel

/-- The three arrays of `arg_parse` are allocated and filled. -/
theorem arrays_run (argc : Nat) : ∃ h, builtHeap.run (copyArgv argc ++ allocLong mainTable ++ allocShort mainTable) = some h ∧
    h.live = (shortBlock, 2) :: (longBlock, 864) :: (argvBlock, 8 * (argc + 1)) :: tableBlocks ∧ InOrder h (fun _ => {}) [] ∧ Options h := by
  obtain ⟨h1, e1, v1, m1, _, p1⟩ := run_alloc tableLayout_apart (h := builtHeap) built.place (b := argvBlock) (by unfold Heap.size; rw [builtHeap_live]; decide +kernel) (copyArgv_writes argc)
  have z1 : ∀ i, i ≠ argvBlock → h1.size i = builtHeap.size i := fun i hi => by
    unfold Heap.size
    rw [v1, lookup_cons_ne hi]
  obtain ⟨h2, e2, v2, m2, w2, p2⟩ := run_alloc tableLayout_apart (h := h1) p1 (b := longBlock) (n := 864) (es := (allocLong mainTable).tail)
    (by rw [z1 _ (by decide)]; unfold Heap.size; rw [builtHeap_live]; decide +kernel) (fun e he => writesIn_spec (long_writes e he))
  have z2 : ∀ i, i ≠ longBlock → h2.size i = h1.size i := fun i hi => by
    unfold Heap.size
    rw [v2, lookup_cons_ne hi]
  obtain ⟨h3, e3, v3, m3, w3, p3⟩ := run_alloc tableLayout_apart (h := h2) p2 (b := shortBlock) (n := 2) (es := (allocShort mainTable).tail)
    (by rw [z2 _ (by decide), z1 _ (by decide)]; unfold Heap.size; rw [builtHeap_live]; decide +kernel) (fun e he => writesIn_spec (short_writes e he))
  have z3 : ∀ i, i ≠ shortBlock → h3.size i = h2.size i := fun i hi => by
    unfold Heap.size
    rw [v3, lookup_cons_ne hi]
  have ne : ∀ {i b : Nat}, i ≤ 100 → 100 < b → i ≠ b := fun h1 h2 => by omega
  have sShort : h3.size shortBlock = some 2 := by
    unfold Heap.size
    rw [v3]
    rfl
  have sLong : h3.size longBlock = some 864 := by
    rw [z3 _ (by decide)]
    unfold Heap.size
    rw [v2]
    rfl
  have rLong : ∀ o n, MemEv.write longBlock o n ∈ (allocLong mainTable).tail → Fits tableLayout h3 (.read longBlock o n) := fun o n hw =>
    ⟨by rw [sLong]; rfl, m3 _ (w2 o n hw) (show longBlock ≠ shortBlock by decide)⟩
  refine ⟨h3, ?_, ?_, ?_, ?_, rLong _ _ number_written⟩
  · have e1' : builtHeap.run (copyArgv argc) = some h1 := e1
    have e2' : h1.run (allocLong mainTable) = some h2 := by rw [long_cons]; exact e2
    have e3' : h2.run (allocShort mainTable) = some h3 := by rw [short_cons]; exact e3
    rw [run_append, run_append, e1', Option.bind_some, e2', Option.bind_some, e3']
  · rw [v3, v2, v1, builtHeap_live]
  · exact ready_start.mono p3
      (fun i hi => by rw [z3 i (ne hi (by decide)), z2 i (ne hi (by decide)), z1 i (ne hi (by decide))])
      (fun c hc hi => m3 c (m2 c (m1 c hc (ne hi (by decide))) (ne hi (by decide))) (ne hi (by decide)))
  · intro e he
    have := getopt_reads e he
    cases e with
    | alloc b n => cases this
    | free b => cases this
    | read b o n =>
      simp only [readsOptions, Bool.or_eq_true, Bool.and_eq_true, decide_eq_true_eq] at this
      rcases this with ⟨rfl, hw⟩ | ⟨rfl, hw⟩
      · exact ⟨by rw [sShort]; rfl, w3 o n hw⟩
      · exact rLong o n hw
    | write b o n =>
      simp only [readsOptions, Bool.and_eq_true, decide_eq_true_eq] at this
      obtain ⟨⟨rfl, rfl⟩, rfl⟩ := this
      exact ⟨by decide, 864, sLong, by decide, by decide⟩

/-- Giving back depends only on what is allocated. -/
theorem run_frees (bs : List Nat) (live : List (Nat × Nat)) (cells cells' : List (Nat × Nat × Nat)) (live' : List (Nat × Nat))
    (h : Heap.run ⟨live, cells⟩ (bs.map .free) = some ⟨live', cells⟩) : Heap.run ⟨live, cells'⟩ (bs.map .free) = some ⟨live', cells'⟩ := by
  induction bs generalizing live with
  | nil =>
    cases h
    rfl
  | cons b bs ih =>
    have hs : ∀ c, (live.lookup b).isSome = true → Heap.step ⟨live, c⟩ (.free b) = some ⟨live.filter (fun l => l.1 ≠ b), c⟩ := fun c hb => if_pos hb
    have hn : ¬(live.lookup b).isSome = true → Heap.step ⟨live, cells⟩ (.free b) = none := fun hb => if_neg hb
    simp only [List.map_cons, Heap.run] at h ⊢
    by_cases hb : (live.lookup b).isSome = true
    · rw [hs _ hb] at h ⊢
      exact ih _ h
    · rw [hn hb] at h
      cases h

theorem freeAll_eq : freeAll 0 mainTable = (List.range 19 ++ [100]).map .free := by decide +kernel

theorem freeAll_run (h : Heap) (hl : h.live = tableBlocks) : ∃ h', h.run (freeAll 0 mainTable) = some h' ∧ h'.live = [] := by
  have h1 : Heap.run ⟨tableBlocks, []⟩ ((List.range 19 ++ [100]).map .free) = some ⟨[], []⟩ := by decide +kernel
  have h2 := run_frees _ _ _ h.cells _ h1
  rw [← hl] at h2
  exact ⟨_, by rw [freeAll_eq]; exact h2, rfl⟩

theorem Leads.liveEq {L : Layout} {h h' : Heap} {es : List MemEv} {l : List (Nat × Nat)} (a : Leads L h es h') (hl : h.live = l) : h'.live = l := a.live.trans hl

/-- A block is freed; the rest stays. -/
theorem run_free {h : Heap} {b n : Nat} {l : List (Nat × Nat)} (hl : h.live = (b, n) :: l) (hb : ∀ x ∈ l, x.1 ≠ b) :
    h.run [.free b] = some ⟨l, h.cells⟩ := by
  have hf : l.filter (fun x => decide (x.1 ≠ b)) = l := List.filter_eq_self.2 fun x hx => by simpa using hb x hx
  have hs : (h.size b).isSome = true := by
    unfold Heap.size
    rw [hl]
    simp [List.lookup]
  simp only [Heap.run, Heap.step, if_pos hs, hl]
  rw [List.filter_cons_of_neg (by simp), hf]

theorem tableBlocks_small : ∀ x ∈ tableBlocks, x.1 ≤ 100 := by decide +kernel

theorem chain {h h' h'' : Heap} {a b : List MemEv} (x : h.run a = some h') (y : h'.run b = some h'') : h.run (a ++ b) = some h'' := by
  rw [run_append, x]
  exact y

/-- What `arg_parse` does is sound; when it has come to its end, the arrays are freed. -/
theorem parse_run (posix : Bool) (argv : List CStr) (fuel : Nat) : ∃ h, builtHeap.run (parseEv posix 10 mainTable argv fuel) = some h ∧
    ∀ v errs, argParse posix 10 mainTable argv fuel = some (v, errs) → h.live = tableBlocks ∧ InOrder h v errs := by
  have hall : ∀ j e, mainTable[j]? = some e → mainTable[0 + j]? = some e := fun j e hj => by rwa [Nat.zero_add]
  have countRead : ∀ {h : Heap} {v : Nat → Slot} {errs : List ErrRec}, InOrder h v errs → ∃ h', Leads tableLayout h [.read endBlock 96 4] h' := fun r =>
    run_fits tableLayout_apart _ _ r.built.place (fun e he => by rw [List.mem_singleton.1 he]; exact fits_readEnd r.built r.built.lastHead.2.1)
  unfold parseEv argParse
  by_cases h0 : argv = []
  · rw [if_pos h0, if_pos h0]
    obtain ⟨h1, l1, r1⟩ := ready_check mainTable 0 hall (errs := []) ready_start
    obtain ⟨h2, l2⟩ := countRead r1
    refine ⟨h2, (l1.append l2).run, ?_⟩
    intro v errs he
    cases he
    exact ⟨(l1.append l2).live.trans builtHeap_live, r1.leads l2⟩
  · rw [if_neg h0, if_neg h0]
    obtain ⟨h1, e1, v1, r1, o1⟩ := arrays_run argv.length
    obtain ⟨h2, l2, r2⟩ := ready_tagged (posix := posix) (argc := argv.length) fuel (p := startState argv) r1 o1
    cases ht : tagged posix 10 mainTable argv.length fuel (startState argv) with
    | none =>
      refine ⟨h2, ?_, fun v errs he => by cases he⟩
      simp only [List.append_nil]
      rw [run_append, e1]
      exact l2.run
    | some p =>
      have r2 := r2 p ht
      simp only
      have v2 := l2.liveEq v1
      have f1 := run_free v2 (by
        intro x hx
        simp only [List.mem_cons] at hx
        rcases hx with rfl | rfl | hx
        · decide
        · exact show argvBlock ≠ shortBlock by decide
        · have := tableBlocks_small x hx
          unfold shortBlock
          omega)
      have f2 := run_free (h := ⟨_, h2.cells⟩) rfl (b := longBlock) (n := 864) (l := (argvBlock, 8 * (argv.length + 1)) :: tableBlocks) (by
        intro x hx
        simp only [List.mem_cons] at hx
        rcases hx with rfl | hx
        · exact show argvBlock ≠ longBlock by decide
        · have := tableBlocks_small x hx
          unfold longBlock
          omega)
      have r3 : InOrder ⟨(argvBlock, 8 * (argv.length + 1)) :: tableBlocks, h2.cells⟩ p.slots p.errs := r2.mono r2.built.place (fun i hi => by
        unfold Heap.size
        rw [v2]
        simp only
        rw [lookup_cons_ne (b := i) (c := shortBlock) (by unfold shortBlock; omega), lookup_cons_ne (b := i) (c := longBlock) (by unfold longBlock; omega)])
        (fun c hc _ => hc)
      obtain ⟨h4, l4, r4⟩ : ∃ h', Leads tableLayout ⟨(argvBlock, 8 * (argv.length + 1)) :: tableBlocks, h2.cells⟩
          (if argv.length ≤ p.g.optind then [] else rejectEv 10 (p.g.argv.drop p.g.optind) p.errs) h' ∧
          InOrder h' (untagged 10 argv.length p).slots (untagged 10 argv.length p).errs := by
        unfold untagged
        by_cases hc : argv.length ≤ p.g.optind
        · rw [if_pos hc, if_pos hc]
          exact ⟨_, .nil _, r3⟩
        · rw [if_neg hc, if_neg hc]
          exact ready_reject _ r3
      obtain ⟨h5, l5⟩ := countRead r4
      have r5 := r4.leads l5
      generalize untagged 10 argv.length p = q at r4 r5 ⊢
      obtain ⟨h6, l6, r6⟩ : ∃ h', Leads tableLayout h5 (if q.errs = [] then checkEv 10 q.slots mainTable 0 q.errs else []) h' ∧
          InOrder h' q.slots (if q.errs = [] then parseCheck 10 q.slots mainTable 0 q.errs else q.errs) := by
        by_cases hq : q.errs = []
        · simp only [if_pos hq]
          exact ready_check mainTable 0 hall r5
        · simp only [if_neg hq]
          exact ⟨_, .nil _, r5⟩
      have l := (l4.append l5).append l6
      have v6 : h6.live = (argvBlock, 8 * (argv.length + 1)) :: tableBlocks := l.live
      have f7 := run_free v6 (by
        intro x hx
        have := tableBlocks_small x hx
        unfold argvBlock
        omega)
      have r7 : InOrder ⟨tableBlocks, h6.cells⟩ q.slots (if q.errs = [] then parseCheck 10 q.slots mainTable 0 q.errs else q.errs) :=
        r6.mono r6.built.place (fun i hi => by
          unfold Heap.size
          rw [v6]
          simp only
          rw [lookup_cons_ne (b := i) (c := argvBlock) (by unfold argvBlock; omega)]) (fun c hc _ => hc)
      obtain ⟨h8, l8⟩ := countRead r7
      refine ⟨h8, ?_, ?_⟩
      · have f12 : h2.run [.free shortBlock, .free longBlock] = some _ := chain f1 f2
        have f78 : h6.run [.free argvBlock, .read endBlock 96 4] = some h8 := chain f7 l8.run
        refine chain (chain e1 l2.run) ?_
        exact chain (chain (chain (chain f12 l4.run) l5.run) l6.run) f78
      · intro v errs he
        obtain ⟨rfl, rfl⟩ := Prod.mk.inj (Option.some.inj he)
        have v8 := l8.live
        simp only at v8
        exact ⟨v8, r7.leads l8⟩

theorem fits_list {h : Heap} {es : List MemEv} (hp : InPlace tableLayout h) (hf : ∀ e ∈ es, Fits tableLayout h e) : ∃ h', h.run es = some h' ∧ h'.live = h.live := by
  obtain ⟨h', l⟩ := run_fits tableLayout_apart es h hp hf
  exact ⟨h', l.run, l.live⟩

theorem fits_readAll {h : Heap} {v : Nat → Slot} {errs : List ErrRec} (r : InOrder h v errs) (es : List ArgEntry) (i : Nat)
    (hes : ∀ j e, es[j]? = some e → mainTable[i + j]? = some e) : ∀ x ∈ readAll v i es, Fits tableLayout h x := by
  induction es generalizing i with
  | nil =>
    intro x hx
    cases hx
  | cons e es ih =>
    have hi : mainTable[i]? = some e := hes 0 e rfl
    have ht : ∀ j e', es[j]? = some e' → mainTable[i + 1 + j]? = some e' := fun j e' hj => by
      have := hes (j + 1) e' hj
      rwa [show i + (j + 1) = i + 1 + j by omega] at this
    obtain ⟨c1, c2, c3⟩ := r.built.head i e hi
    intro x hx
    rcases List.mem_append.1 hx with hx | hx
    · unfold readEntry at hx
      cases hk : e.kind with
      | lit =>
        rw [hk] at hx
        rw [List.mem_singleton.1 hx]
        exact fits_readEntry r.built hi c2
      | int =>
        have c3 := c3 (by rw [hk]; decide)
        rw [hk] at hx
        simp only [List.mem_cons] at hx
        rcases hx with rfl | hx
        · exact fits_readEntry r.built hi c2
        · split at hx
          · rename_i h0
            simp only [List.mem_cons, List.not_mem_nil, or_false] at hx
            rcases hx with rfl | rfl
            · exact fits_readEntry r.built hi c3
            · exact fits_readEntry r.built hi (r.ints i e hi hk 0 h0)
          · cases hx
      | str =>
        have c3 := c3 (by rw [hk]; decide)
        rw [hk] at hx
        simp only at hx
        have hm := r.room i e hi
        have hstr := r.built.strs i e hi hk
        split at hx
        · rename_i h9
          simp only [List.mem_cons, List.not_mem_nil, or_false] at hx
          rcases hx with rfl | rfl
          · exact fits_readEntry r.built hi c3
          · refine fits_readEntry r.built hi (hstr 0 ?_)
            subst h9
            have : mainTable[9]? = some e := hi
            cases this
            decide
        · simp only [List.mem_cons, List.mem_flatMap, List.mem_range, List.not_mem_nil, or_false] at hx
          rcases hx with rfl | ⟨k, hk, rfl | rfl⟩
          · exact fits_readEntry r.built hi c2
          · exact fits_readEntry r.built hi c3
          · exact fits_readEntry r.built hi (hstr k (by omega))
    · exact ih (i + 1) ht x hx

theorem fits_readRows {h : Heap} (b : Built h) (rs : List ErrRec) (k : Nat) (hp : ∀ r ∈ rs, ∀ i, r.parent = some i → (mainTable[i]?).isSome)
    (hr : ∀ j < rs.length, (100, 128 + 4 * (k + j), 4) ∈ h.cells ∧ (100, 168 + 8 * (k + j), 8) ∈ h.cells ∧ (100, 248 + 8 * (k + j), 8) ∈ h.cells) :
    ∀ x ∈ readRows 10 k rs, Fits tableLayout h x := by
  obtain ⟨c1, c2, c3, c4, c5⟩ := b.lastHead
  induction rs generalizing k with
  | nil =>
    intro x hx
    cases hx
  | cons r rs ih =>
    intro x hx
    unfold readRows at hx
    rcases List.mem_append.1 hx with hx | hx
    · obtain ⟨d1, d2, d3⟩ := hr 0 (by simp)
      simp only [List.mem_cons, List.not_mem_nil, or_false, endSize] at hx
      rcases hx with rfl | rfl | rfl | rfl | rfl | rfl | rfl
      · exact fits_readEnd b c4
      · exact fits_readEnd b d2
      · cases hpar : r.parent with
        | none => exact fits_readEnd b c1
        | some i =>
          obtain ⟨e, he⟩ := Option.isSome_iff_exists.1 (hp r List.mem_cons_self i hpar)
          exact fits_readEntry b he (b.head i e he).1
      · exact fits_readEnd b c3
      · exact fits_readEnd b d1
      · exact fits_readEnd b c5
      · exact fits_readEnd b d3
    · refine ih (k + 1) (fun r' hr' => hp r' (List.mem_cons_of_mem _ hr')) (fun j hj => ?_) x hx
      have := hr (j + 1) (by simpa using hj)
      rwa [show k + (j + 1) = k + 1 + j by omega] at this

theorem fits_readErrors {h : Heap} {v : Nat → Slot} {errs : List ErrRec} (r : InOrder h v errs) : ∀ x ∈ readErrors 10 errs, Fits tableLayout h x := by
  intro x hx
  rcases List.mem_cons.1 hx with rfl | hx
  · exact fits_readEnd r.built r.built.lastHead.2.1
  · exact fits_readRows r.built errs 0 r.parents (fun j hj => by rw [Nat.zero_add]; exact r.rows j hj) x hx

/-- All of `main`. -/
theorem main_run (posix : Bool) (argv : List CStr) (fuel : Nat) : ∃ h, Heap.run ⟨[], []⟩ (mainEv posix argv fuel) = some h ∧
    ((argParse posix maxErrors mainTable argv fuel).isSome → h.live = []) := by
  obtain ⟨h1, e1, r1⟩ := parse_run posix argv fuel
  have e01 := chain built_run e1
  unfold mainEv
  have hm : maxErrors = 10 := rfl
  rw [hm] at e01 ⊢
  cases ha : argParse posix 10 mainTable argv fuel with
  | none => exact ⟨h1, by simpa only [List.append_nil] using e01, fun h => by cases h⟩
  | some x =>
    obtain ⟨v, errs⟩ := x
    obtain ⟨v1, rd⟩ := r1 v errs ha
    simp only
    obtain ⟨h2, e2, v2⟩ : ∃ h', h1.run (if (v 0).count > 0 ∨ (v 1).count > 0 then
        [.read 0 96 4, .read 1 96 4] ++ (List.range mainTable.length).map fun i => .read i 0 hdrSize
        else if errs ≠ [] then readErrors 10 errs else readAll v 0 mainTable) = some h' ∧ h'.live = h1.live := by
      apply fits_list rd.built.place
      by_cases hv : (v 0).count > 0 ∨ (v 1).count > 0
      · rw [if_pos hv]
        intro x hx
        simp only [List.mem_append, List.mem_cons, List.not_mem_nil, or_false, List.mem_map, List.mem_range] at hx
        rcases hx with (rfl | rfl) | ⟨i, hi, rfl⟩
        · exact fits_readEntry rd.built (i := 0) rfl (rd.built.head 0 _ rfl).2.1
        · exact fits_readEntry rd.built (i := 1) rfl (rd.built.head 1 _ rfl).2.1
        · have hi' : mainTable[i]? = some mainTable[i] := List.getElem?_eq_getElem hi
          exact fits_readEntry rd.built hi' (rd.built.head i _ hi').1
      · rw [if_neg hv]
        by_cases he : errs ≠ []
        · rw [if_pos he]
          exact fits_readErrors rd
        · rw [if_neg he]
          exact fits_readAll rd mainTable 0 (fun j e hj => by rwa [Nat.zero_add])
    obtain ⟨h3, e3, v3⟩ := freeAll_run h2 (v2.trans v1)
    exact ⟨h3, chain e01 (chain e2 e3), fun _ => v3⟩

/-- **C121.**  Whatever the words of the command line, and even while parsing has not come to its end, the judger's option table is used soundly: no access
outside a block or to a block already freed, no read of what was not written, no block freed that is not allocated. -/
theorem C121_sound (posix : Bool) (argv : List CStr) (fuel : Nat) : Sound (mainEv posix argv fuel) :=
  (main_run posix argv fuel).imp fun _ h => h.1

/-- **C121.**  And when the judger ends, every block has been freed. -/
theorem C121_freed (posix : Bool) (argv : List CStr) (fuel : Nat) (h : (argParse posix maxErrors mainTable argv fuel).isSome) :
    SoundAndFreed (mainEv posix argv fuel) :=
  (main_run posix argv fuel).imp fun _ hh => ⟨hh.1, hh.2 h⟩

/-! ## Concrete cases -/

/-- The specification tells sound use from use beyond a block, use after free, reading what was not written, freeing twice, and keeping a block. -/
example : ¬Sound [.alloc 0 8, .write 0 4 8] := fun ⟨h, hh⟩ => by cases hh
example : ¬Sound [.alloc 0 8, .write 0 2 4] := fun ⟨h, hh⟩ => by cases hh
example : ¬Sound [.alloc 0 8, .write 0 0 8, .free 0, .read 0 0 8] := fun ⟨h, hh⟩ => by cases hh
example : ¬Sound [.alloc 0 8, .read 0 0 8] := fun ⟨h, hh⟩ => by cases hh
example : ¬Sound [.alloc 0 8, .free 0, .free 0] := fun ⟨h, hh⟩ => by cases hh
example : Sound [.alloc 0 8] ∧ ¬SoundAndFreed [.alloc 0 8] := ⟨⟨_, rfl⟩, fun ⟨h, hh, hl⟩ => by cases hh; cases hl⟩

/-- A usual command line: the value is stored in the entry and read from there, and the table is freed. -/
example : SoundAndFreed (mainEv false [c!"judger", c!"--exe_path=/a", c!"--max_cpu_time", c!"7"] 9) ∧
    MemEv.write 2 112 4 ∈ mainEv false [c!"judger", c!"--exe_path=/a", c!"--max_cpu_time", c!"7"] 9 ∧
    MemEv.read 2 112 4 ∈ mainEv false [c!"judger", c!"--exe_path=/a", c!"--max_cpu_time", c!"7"] 9 ∧
    MemEv.free 2 ∈ mainEv false [c!"judger", c!"--exe_path=/a", c!"--max_cpu_time", c!"7"] 9 :=
  ⟨C121_freed _ _ _ (by decide +kernel), by decide +kernel, by decide +kernel, by decide +kernel⟩

/-- Twelve wrong words: the rows are all used, and the last one is used again. -/
example : SoundAndFreed (mainEv true (c!"judger" :: List.replicate 12 c!"x") 9) ∧
    (MemEv.write endBlock 164 4) ∈ mainEv true (c!"judger" :: List.replicate 12 c!"x") 9 ∧
    (MemEv.write endBlock 168 4) ∉ mainEv true (c!"judger" :: List.replicate 12 c!"x") 9 :=
  ⟨C121_freed _ _ _ (by decide +kernel), by decide +kernel, by decide +kernel⟩

/-- The command line on which parsing does not end (C55) uses its memory soundly for as long as it runs. -/
example : Sound (mainEv false [c!"judger", c!"-a-"] 1000) := C121_sound _ _ _

end Judger
