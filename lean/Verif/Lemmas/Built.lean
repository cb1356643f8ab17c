import Verif.Lemmas.Heap
import Verif.Model.Storage

/-! # The option table when parsing starts -/

set_option autoImplicit false

namespace Judger

open Spec

/-- What lies where: the header and the counts, the arrays of values; of `arg_end`, its three arrays; the options, with the names behind them. -/
def tableLayout : Layout := fun b off =>
  if b = endBlock then
    if off = 0 then some 96 else if off = 96 then some 4 else if off = 104 ∨ off = 112 ∨ off = 120 then some 8
    else if 128 ≤ off ∧ off < 168 ∧ off % 4 = 0 then some 4 else if 168 ≤ off ∧ off % 8 = 0 then some 8 else none
  else if b = argvBlock then if off % 8 = 0 then some 8 else none
  else if b = longBlock then
    if off = 0 ∨ off = 4 then some 4 else if off = 8 then some 8
    else if 16 ≤ off ∧ off < 656 then
      if off % 32 = 16 ∨ off % 32 = 0 then some 8 else if off % 32 = 24 ∨ off % 32 = 8 then some 4 else none
    else if 656 ≤ off then some 1 else none
  else if b = shortBlock then some 1
  else if off = 0 then some 96 else if off = 96 then some 4 else if off = 104 then some 8
  else if 112 ≤ off then
    if (mainTable[b]?.map (·.kind)) = some .int then if off % 4 = 0 then some 4 else none
    else if off % 8 = 0 then some 8 else none
  else none

theorem tableLayout_apart : tableLayout.Apart := by
  intro b o n o' n' h h'
  unfold tableLayout at h h'
  by_cases h1 : b = endBlock
  · rw [if_pos h1] at h h'
    grind (splits := 40)
  · rw [if_neg h1] at h h'
    by_cases h2 : b = argvBlock
    · rw [if_pos h2] at h h'
      grind (splits := 40)
    · rw [if_neg h2] at h h'
      by_cases h3 : b = longBlock
      · rw [if_pos h3] at h h'
        grind (splits := 40)
      · rw [if_neg h3] at h h'
        generalize (mainTable[b]?.map (·.kind)) = k at h h'
        grind (splits := 40)

/-- The table has been built and reset. -/
structure Built (h : Heap) : Prop where
  entry : ∀ i e, mainTable[i]? = some e → h.size i = some (match e.kind with
    | .lit => litSize
    | .int => valSize + e.maxcount * 4
    | .str => valSize + e.maxcount * 8)
  last : h.size endBlock = some 328
  head : ∀ i e, mainTable[i]? = some e → (i, 0, 96) ∈ h.cells ∧ (i, 96, 4) ∈ h.cells ∧ (e.kind ≠ .lit → (i, 104, 8) ∈ h.cells)
  lastHead : (100, 0, 96) ∈ h.cells ∧ (100, 96, 4) ∈ h.cells ∧ (100, 104, 8) ∈ h.cells ∧ (100, 112, 8) ∈ h.cells ∧ (100, 120, 8) ∈ h.cells
  place : InPlace tableLayout h
  strs : ∀ i e, mainTable[i]? = some e → e.kind = .str → ∀ k < e.maxcount, (i, 112 + 8 * k, 8) ∈ h.cells

theorem tableLayout_entry {i o : Nat} {e : ArgEntry} (hi : mainTable[i]? = some e) :
    tableLayout i o = if o = 0 then some 96 else if o = 96 then some 4 else if o = 104 then some 8
      else if 112 ≤ o then if e.kind = .int then if o % 4 = 0 then some 4 else none else if o % 8 = 0 then some 8 else none else none := by
  have h1 := (List.getElem?_eq_some_iff.1 hi).1
  have h2 : mainTable.length = 19 := by decide
  simp only [tableLayout]
  rw [if_neg (by unfold endBlock; omega), if_neg (by unfold argvBlock; omega), if_neg (by unfold longBlock; omega), if_neg (by unfold shortBlock; omega), hi]
  simp

/-- The size of the block of an entry. -/
def blockSize (e : ArgEntry) : Nat :=
  match e.kind with
  | .lit => litSize
  | .int => valSize + e.maxcount * 4
  | .str => valSize + e.maxcount * 8

theorem construct_run {i : Nat} {e : ArgEntry} (hi : mainTable[i]? = some e) {h : Heap} (hp : InPlace tableLayout h) (hb : h.size i = none) :
    ∃ h', h.run (construct i e) = some h' ∧ h'.live = (i, blockSize e) :: h.live ∧ (∀ c ∈ h.cells, c.1 ≠ i → c ∈ h'.cells) ∧
      (∀ o k, MemEv.write i o k ∈ construct i e → (i, o, k) ∈ h'.cells) ∧ InPlace tableLayout h' := by
  have hr : roomFor e = e.maxcount := (show ∀ e ∈ mainTable, roomFor e = e.maxcount by decide) e (List.mem_of_getElem? hi)
  have lay := @tableLayout_entry i (e := e) (hi := hi)
  obtain ⟨es, he, hw⟩ : ∃ es, construct i e = .alloc i (blockSize e) :: es ∧
      ∀ x ∈ es, ∃ o k, x = .write i o k ∧ o + k ≤ blockSize e ∧ aligned o k = true ∧ tableLayout i o = some k := by
    unfold construct blockSize
    cases hk : e.kind with
    | lit =>
      refine ⟨_, rfl, fun x hx => ?_⟩
      simp only [List.mem_cons, List.not_mem_nil, or_false] at hx
      rcases hx with rfl | rfl
      · exact ⟨_, _, rfl, show 96 ≤ 104 by decide, by decide, by rw [lay]; rfl⟩
      · exact ⟨_, _, rfl, show 100 ≤ 104 by decide, by decide, by rw [lay]; rfl⟩
    | int =>
      rw [hr]
      refine ⟨_, rfl, fun x hx => ?_⟩
      simp only [List.mem_cons, List.not_mem_nil, or_false] at hx
      rcases hx with rfl | rfl | rfl
      · exact ⟨_, _, rfl, by simp only [valSize, hdrSize]; omega, by decide, by rw [lay]; rfl⟩
      · exact ⟨_, _, rfl, by simp only [valSize]; omega, by decide, by rw [lay]; rfl⟩
      · exact ⟨_, _, rfl, by simp only [valSize]; omega, by decide, by rw [lay]; rfl⟩
    | str =>
      rw [hr]
      refine ⟨_, rfl, fun x hx => ?_⟩
      simp only [List.mem_append, List.mem_cons, List.not_mem_nil, or_false, List.mem_map, List.mem_range, List.append_eq] at hx
      rcases hx with (rfl | rfl | rfl) | ⟨k, hk', rfl⟩
      · exact ⟨_, _, rfl, by simp only [valSize, hdrSize]; omega, by decide, by rw [lay]; rfl⟩
      · exact ⟨_, _, rfl, by simp only [valSize]; omega, by decide, by rw [lay]; rfl⟩
      · exact ⟨_, _, rfl, by simp only [valSize]; omega, by decide, by rw [lay]; rfl⟩
      · refine ⟨_, _, rfl, by simp only [valSize]; omega, by unfold aligned valSize; simp, ?_⟩
        rw [lay, if_neg (by unfold valSize; omega), if_neg (by unfold valSize; omega), if_neg (by unfold valSize; omega), if_pos (by unfold valSize; omega),
          if_neg (by rw [hk]; decide), if_pos (by unfold valSize; omega)]
  rw [he]
  obtain ⟨h', a1, a2, a3, a4, a5⟩ := run_alloc tableLayout_apart hp hb hw
  refine ⟨h', a1, a2, a3, fun o k hm => a4 o k ?_, a5⟩
  rcases List.mem_cons.1 hm with hm | hm
  · cases hm
  · exact hm

/-- The blocks allocated for the entries from `i` on, on top of others. -/
def liveAfter : Nat → List ArgEntry → List (Nat × Nat) → List (Nat × Nat)
  | _, [], l => (endBlock, 328) :: l
  | i, e :: es, l => liveAfter (i + 1) es ((i, blockSize e) :: l)

theorem constructAll_run (es : List ArgEntry) : ∀ (i : Nat) (h : Heap), mainTable.drop i = es → i ≤ 19 → InPlace tableLayout h → (∀ j, i ≤ j → h.size j = none) →
    ∃ h', h.run (constructAll 10 i es) = some h' ∧ h'.live = liveAfter i es h.live ∧ (∀ c ∈ h.cells, c.1 < i → c ∈ h'.cells) ∧
      (∀ j e, mainTable[j]? = some e → i ≤ j → ∀ o k, MemEv.write j o k ∈ construct j e → (j, o, k) ∈ h'.cells) ∧
      (∀ o k, MemEv.write 100 o k ∈ constructEnd 10 → (100, o, k) ∈ h'.cells) ∧ InPlace tableLayout h' := by
  induction es with
  | nil =>
    intro i h hd hi hp hs
    have hlen : mainTable.length = 19 := by decide
    have h19 : 19 ≤ i := by
      have := congrArg List.length hd
      simp only [List.length_drop, List.length_nil] at this
      omega
    obtain ⟨h', a1, a2, a3, a4, a5⟩ := run_alloc tableLayout_apart (b := endBlock) (n := 328)
      (es := [.write endBlock 0 hdrSize, .write endBlock 104 8, .write endBlock 112 8, .write endBlock 120 8]) hp (hs _ (by unfold endBlock; omega)) (fun x hx => by
        simp only [List.mem_cons, List.not_mem_nil, or_false] at hx
        rcases hx with rfl | rfl | rfl | rfl <;> exact ⟨_, _, rfl, by decide, by decide, by decide⟩)
    refine ⟨h', a1, a2, fun c hc hlt => a3 c hc (by unfold endBlock; omega), fun j e hj hij => ?_, fun o k hm => a4 o k ?_, a5⟩
    · have := (List.getElem?_eq_some_iff.1 hj).1
      omega
    · rcases List.mem_cons.1 hm with hm | hm
      · cases hm
      · exact hm
  | cons e es ih =>
    intro i h hd hi hp hs
    have hei : mainTable[i]? = some e := by
      have := congrArg (·[0]?) hd
      simpa using this
    have hlt := (List.getElem?_eq_some_iff.1 hei).1
    have hlen : mainTable.length = 19 := by decide
    obtain ⟨h1, a1, a2, a3, a4, a5⟩ := construct_run hei hp (hs i (Nat.le_refl _))
    have hd' : mainTable.drop (i + 1) = es := by
      rw [← List.drop_drop, hd]; rfl
    obtain ⟨h2, b1, b2, b3, b4, b5, b6⟩ := ih (i + 1) h1 hd' (by omega) a5 (fun j hj => by
      have := hs j (by omega)
      unfold Heap.size at this ⊢
      rw [a2]
      simpa [List.lookup, beq_eq_false_iff_ne.2 (show j ≠ i by omega)] using this)
    refine ⟨h2, ?_, by rw [b2, a2]; rfl, fun c hc hlt => b3 c (a3 c hc (by omega)) (by omega), fun j e' hj hij o k hm => ?_, b5, b6⟩
    · rw [show constructAll 10 i (e :: es) = construct i e ++ constructAll 10 (i + 1) es from rfl, run_append, a1]
      exact b1
    · by_cases hji : j = i
      · subst hji
        rw [hei] at hj
        cases hj
        exact b3 _ (a4 o k hm) (by simp)
      · exact b4 j e' hj (by omega) o k hm

/-- The blocks of the table, the last one first. -/
def tableBlocks : List (Nat × Nat) := liveAfter 0 mainTable []

theorem reset_mem {x : MemEv} (es : List ArgEntry) : ∀ i, mainTable.drop i = es → x ∈ resetAll (fun _ => {}) i es →
    x = .read 100 0 96 ∨ x = .write 100 96 4 ∨ ∃ j e, mainTable[j]? = some e ∧ (x = .read j 0 96 ∨ x = .read j 96 4 ∨ x = .write j 96 4) := by
  induction es with
  | nil =>
    intro i _ hx
    simp only [resetAll, List.mem_cons, List.not_mem_nil, or_false] at hx
    rcases hx with rfl | rfl
    · exact .inl rfl
    · exact .inr (.inl rfl)
  | cons e es ih =>
    intro i hd hx
    have hei : mainTable[i]? = some e := by
      have := congrArg (·[0]?) hd
      simpa using this
    have hd' : mainTable.drop (i + 1) = es := by
      rw [← List.drop_drop, hd]; rfl
    rcases List.mem_append.1 hx with hx | hx
    · refine .inr (.inr ⟨i, e, hei, ?_⟩)
      unfold resetEntry at hx
      cases hk : e.kind <;> simp [hk, hdrSize] at hx <;> grind
    · exact ih (i + 1) hd' hx

theorem writes_head (i : Nat) (e : ArgEntry) : MemEv.write i 0 96 ∈ construct i e ∧ MemEv.write i 96 4 ∈ construct i e ∧
    (e.kind ≠ .lit → MemEv.write i 104 8 ∈ construct i e) := by
  unfold construct
  cases e.kind <;> simp [hdrSize]

theorem built_exists : ∃ h, Heap.run ⟨[], []⟩ (constructAll maxErrors 0 mainTable ++ resetAll (fun _ => {}) 0 mainTable) = some h ∧ Built h ∧ h.live = tableBlocks := by
  obtain ⟨h1, a1, a2, _, a4, a5, a6⟩ := constructAll_run mainTable 0 ⟨[], []⟩ rfl (by decide) (fun _ hc => by cases hc) (fun _ _ => rfl)
  have hsz : ∀ x ∈ mainTable.zipIdx, tableBlocks.lookup x.2 = some (blockSize x.1) := by decide +kernel
  have hsz' : ∀ i e, mainTable[i]? = some e → h1.size i = some (blockSize e) := fun i e hi => by
    unfold Heap.size
    rw [a2]
    exact hsz (e, i) (by rw [List.mem_zipIdx_iff_getElem?]; exact hi)
  have hend : h1.size 100 = some 328 := by
    unfold Heap.size
    rw [a2]
    decide +kernel
  have c1 := fun i e hi => a4 i e hi (Nat.zero_le _) _ _ (writes_head i e).1
  have c2 := fun i e hi => a4 i e hi (Nat.zero_le _) _ _ (writes_head i e).2.1
  have c3 := fun i e hi hk => a4 i e hi (Nat.zero_le _) _ _ ((writes_head i e).2.2 hk)
  have e1 := a5 0 96 (by decide)
  obtain ⟨h2, l⟩ := run_fits tableLayout_apart (resetAll (fun _ => {}) 0 mainTable) h1 a6 (fun x hx => by
    rcases reset_mem mainTable 0 rfl hx with rfl | rfl | ⟨j, e, hj, rfl | rfl | rfl⟩
    · exact ⟨by rw [hend]; rfl, e1⟩
    · exact ⟨by decide, 328, hend, by decide, by decide⟩
    · exact ⟨by rw [hsz' j e hj]; rfl, c1 j e hj⟩
    · exact ⟨by rw [hsz' j e hj]; rfl, c2 j e hj⟩
    · refine ⟨by rw [tableLayout_entry hj]; rfl, _, hsz' j e hj, ?_, by decide⟩
      unfold blockSize
      cases e.kind
      · show 100 ≤ 104
        decide
      · simp only [valSize]; omega
      · simp only [valSize]; omega)
  refine ⟨h2, by rw [show (maxErrors) = 10 from rfl, run_append, a1]; exact l.run, ?_, l.live.trans a2⟩
  constructor
  · intro i e hi
    rw [l.size, hsz' i e hi]
    rfl
  · rw [l.size]; exact hend
  · exact fun i e hi => ⟨l.mono _ (c1 i e hi), l.mono _ (c2 i e hi), fun hk => l.mono _ (c3 i e hi hk)⟩
  · exact ⟨l.mono _ e1, l.writes _ _ _ (by decide +kernel), l.mono _ (a5 _ _ (by decide)), l.mono _ (a5 _ _ (by decide)), l.mono _ (a5 _ _ (by decide))⟩
  · exact l.place a6
  · intro i e hi hk k hlt
    refine l.mono _ (a4 i e hi (Nat.zero_le _) _ _ ?_)
    have hr : roomFor e = e.maxcount := (show ∀ e ∈ mainTable, roomFor e = e.maxcount by decide) e (List.mem_of_getElem? hi)
    unfold construct
    rw [hk]
    exact List.mem_append_right _ (List.mem_map.2 ⟨k, List.mem_range.2 (by omega), rfl⟩)

/-- The heap when parsing starts. -/
def builtHeap : Heap := (Heap.run ⟨[], []⟩ (constructAll maxErrors 0 mainTable ++ resetAll (fun _ => {}) 0 mainTable)).getD ⟨[], []⟩

theorem built_run : Heap.run ⟨[], []⟩ (constructAll maxErrors 0 mainTable ++ resetAll (fun _ => {}) 0 mainTable) = some builtHeap := by
  obtain ⟨h, hr, _⟩ := built_exists
  unfold builtHeap
  rw [hr]
  rfl

theorem built : Built builtHeap := by
  obtain ⟨h, hr, hb, _⟩ := built_exists
  unfold builtHeap
  rw [hr]
  exact hb

theorem builtHeap_live : builtHeap.live = tableBlocks := by
  obtain ⟨h, hr, _, hl⟩ := built_exists
  unfold builtHeap
  rw [hr]
  exact hl

end Judger
