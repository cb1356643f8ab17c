import Verif.Model.PrintMemory
import Verif.Lemmas.Heap
import Verif.Props.Report

/-! # The memory of what argtable3 prints (C134) -/

set_option autoImplicit false

namespace Judger.Report

open Spec

/-! ## What lies where -/

/-- The structure, and bytes everywhere else. -/
def dsLayout : Layout := fun b o =>
  if b = dsBlock then
    if o = 0 ∨ o = 8 ∨ o = 224 then some 8 else if o = 232 ∨ o = 236 then some 4 else if 16 ≤ o ∧ o < 217 then some 1 else none
  else some 1

theorem dsLayout_apart : dsLayout.Apart := by
  intro b o n o' n' h h'
  unfold dsLayout at h h'
  split at h
  · rename_i hb
    rw [if_pos hb] at h'
    split at h
    · cases h
      split at h'
      · cases h'; omega
      · split at h'
        · cases h'; omega
        · split at h'
          · cases h'; omega
          · cases h'
    · split at h
      · cases h
        split at h'
        · cases h'; omega
        · split at h'
          · cases h'; omega
          · split at h'
            · cases h'; omega
            · cases h'
      · split at h
        · cases h
          split at h'
          · cases h'; omega
          · split at h'
            · cases h'; omega
            · split at h'
              · cases h'; omega
              · cases h'
        · cases h
  · rename_i hb
    rw [if_neg hb] at h'
    cases h; cases h'
    omega

/-- The heap while a string is being put together; `x` says whether there is a `buff` as well. -/
structure Keeps (p : PMem) (x : Bool) (h : Heap) : Prop where
  cur : p.cur = 201 ∨ p.cur = 202
  ds : h.size dsBlock = some 240
  block : ∀ b, p.d.append = some b → h.size p.cur = some b.length
  only : ∀ l ∈ h.live, l.1 = dsBlock ∨ (p.d.append ≠ none ∧ l.1 = p.cur) ∨ (x = true ∧ l.1 = buffBlock)
  fields : ∀ c ∈ dsCells, (dsBlock, c.1, c.2) ∈ h.cells
  sbuf : ∀ j, j < 201 → (dsBlock, 16 + j, 1) ∈ h.cells
  bytes : ∀ b, p.d.append = some b → ∀ j, j < b.length → (p.cur, j, 1) ∈ h.cells
  place : InPlace dsLayout h

theorem size_none {h : Heap} {b : Nat} (hl : ∀ l ∈ h.live, l.1 ≠ b) : h.size b = none := by
  unfold Heap.size
  generalize h.live = l at hl
  induction l with
  | nil => rfl
  | cons p l ih =>
    obtain ⟨x, y⟩ := p
    rw [List.lookup_cons]
    have : (b == x) = false := by simpa using fun he => hl _ List.mem_cons_self he.symm
    rw [this]
    exact ih fun q hq => hl q (List.mem_cons_of_mem _ hq)

theorem size_filter {h : Heap} {b c : Nat} (hne : c ≠ b) : Heap.size ⟨h.live.filter (fun l => l.1 ≠ b), h.cells⟩ c = h.size c := by
  unfold Heap.size
  simp only
  generalize h.live = l
  induction l with
  | nil => rfl
  | cons p l ih =>
    obtain ⟨x, y⟩ := p
    by_cases hx : x = b
    · have h1 : (c == x) = false := by simpa using fun he => hne (he.trans hx)
      rw [List.lookup_cons, h1, List.filter_cons_of_neg (by simpa using hx)]
      exact ih
    · rw [List.filter_cons_of_pos (by simpa using hx), List.lookup_cons, List.lookup_cons]
      split
      · rfl
      · exact ih

theorem step_free {h : Heap} {b : Nat} (hb : (h.size b).isSome) : h.run [.free b] = some ⟨h.live.filter (fun l => l.1 ≠ b), h.cells⟩ := by
  simp only [Heap.run, Heap.step, if_pos hb]

theorem fits_read {p : PMem} {x : Bool} {h : Heap} (k : Keeps p x h) {c : Nat × Nat} (hc : c ∈ dsCells) : Fits dsLayout h (.read dsBlock c.1 c.2) :=
  ⟨by rw [k.ds]; rfl, k.fields c hc⟩

theorem fits_write {p : PMem} {x : Bool} {h : Heap} (k : Keeps p x h) {c : Nat × Nat} (hc : c ∈ dsCells) : Fits dsLayout h (.write dsBlock c.1 c.2) := by
  refine ⟨?_, 240, k.ds, ?_⟩ <;>
  · simp only [dsCells, List.mem_cons, List.not_mem_nil, or_false] at hc
    rcases hc with rfl | rfl | rfl | rfl | rfl <;> decide

theorem fits_bytes {h : Heap} {b : Nat} {s : Nat} (hb : b ≠ dsBlock) (hs : h.size b = some s) (i n : Nat) (hn : n = 0 ∨ i + n ≤ s) :
    ∀ e ∈ writeBytes b i n, Fits dsLayout h e := by
  intro e he
  obtain ⟨j, hj, rfl⟩ := List.mem_map.1 he
  have := List.mem_range.1 hj
  exact ⟨by simp [dsLayout, hb], s, hs, by omega, by simp [aligned, Nat.mod_one]⟩

theorem fits_reads {h : Heap} {b : Nat} (hs : (h.size b).isSome) (i n : Nat) (hc : ∀ j, j < n → (b, i + j, 1) ∈ h.cells) :
    ∀ e ∈ readBytes b i n, Fits dsLayout h e := by
  intro e he
  obtain ⟨j, hj, rfl⟩ := List.mem_map.1 he
  exact ⟨hs, hc j (List.mem_range.1 hj)⟩

theorem strlen_lt {b : Block} {n : Nat} (h : strlen b = some n) : n < b.length := by
  induction b generalizing n with
  | nil => cases h
  | cons c b ih =>
    rw [strlen] at h
    split at h
    · cases h; simp
    · cases hs : strlen b with
      | none => rw [hs] at h; cases h
      | some k =>
        rw [hs] at h
        cases h
        have := ih hs
        simp only [List.length_cons]; omega

theorem pokes_some {s : CStr} : ∀ {b b' : Block} {i : Nat}, pokes b i s = some b' → b'.length = b.length ∧ (s = [] ∨ i + s.length ≤ b.length) := by
  induction s with
  | nil => intro b b' i h; cases h; exact ⟨rfl, .inl rfl⟩
  | cons c s ih =>
    intro b b' i h
    simp only [pokes, Option.bind_eq_bind, Option.bind_eq_some_iff] at h
    obtain ⟨b1, h1, h2⟩ := h
    unfold poke at h1
    split at h1
    · cases h1
      obtain ⟨h3, h4⟩ := ih h2
      rw [List.length_set] at h3 h4
      refine ⟨h3, .inr ?_⟩
      rcases h4 with rfl | h4
      · simp only [List.length_singleton]; omega
      · simp only [List.length_cons]; omega
    · cases h1

/-- What `Keeps` says survives steps that neither allocate nor free. -/
theorem Keeps.leads {p : PMem} {x : Bool} {h h' : Heap} {es : List MemEv} (k : Keeps p x h) (l : Leads dsLayout h es h') : Keeps p x h' where
  cur := k.cur
  ds := by rw [l.size]; exact k.ds
  block := fun b hb => by rw [l.size]; exact k.block b hb
  only := by rw [l.live]; exact k.only
  fields := fun c hc => l.mono _ (k.fields c hc)
  sbuf := fun j hj => l.mono _ (k.sbuf j hj)
  bytes := fun b hb j hj => l.mono _ (k.bytes b hb j hj)
  place := l.place k.place

theorem cur_ne {p : PMem} {x : Bool} {h : Heap} (k : Keeps p x h) : p.cur ≠ dsBlock ∧ p.cur ≠ buffBlock ∧ otherBlock p.cur ≠ dsBlock ∧ otherBlock p.cur ≠ buffBlock ∧
    otherBlock p.cur ≠ p.cur ∧ (otherBlock p.cur = 201 ∨ otherBlock p.cur = 202) := by
  rcases k.cur with h | h <;> rw [h] <;> decide

/-- Reading the text and what follows it. -/
theorem fits_data {p : PMem} {x : Bool} {h : Heap} (k : Keeps p x h) {n : Nat} (hn : n ≤ p.d.data.length) : ∀ e ∈ readData p n, Fits dsLayout h e := by
  unfold readData
  cases ha : p.d.append with
  | none =>
    have : p.d.data.length = 201 := by rw [DStr.data, ha, Option.getD_none, List.length_replicate]
    exact fits_reads (by rw [k.ds]; rfl) 16 n fun j hj => k.sbuf j (by omega)
  | some b =>
    have : p.d.data.length = b.length := by simp [DStr.data, ha]
    exact fits_reads (by rw [k.block b ha]; rfl) 0 n fun j hj => by rw [Nat.zero_add]; exact k.bytes b ha j (by omega)

theorem fits_fields {p : PMem} {x : Bool} {h : Heap} (k : Keeps p x h) {es : List MemEv}
    (he : ∀ e ∈ es, ∃ c ∈ dsCells, e = .read dsBlock c.1 c.2 ∨ e = .write dsBlock c.1 c.2) : ∀ e ∈ es, Fits dsLayout h e := by
  intro e hm
  obtain ⟨c, hc, rfl | rfl⟩ := he e hm
  · exact fits_read k hc
  · exact fits_write k hc

/-- The length of the data, if it is a string. -/
theorem dataLen_lt {d : DStr} {t : CStr} (h : stringAt d.data = some t) : dataLen d + 1 ≤ d.data.length ∧ t.length = dataLen d := by
  unfold stringAt at h
  cases hs : strlen d.data with
  | none => rw [hs] at h; cases h
  | some n =>
    rw [hs] at h
    cases h
    have := strlen_lt hs
    simp only [dataLen, hs, Option.getD_some, List.length_take]
    omega

theorem refresh_fits {p : PMem} {x : Bool} {h : Heap} (k : Keeps p x h) {u : Nat} (hu : refreshUsed p.d = some u) : ∀ e ∈ refreshEv p, Fits dsLayout h e := by
  unfold refreshEv
  intro e he
  rw [List.mem_append] at he
  rcases he with he | he
  · exact fits_fields k (by simp [dsCells]) e he
  · unfold refreshUsed at hu
    cases ha : p.d.append with
    | none =>
      rw [ha] at he hu
      simp only [List.mem_append] at he
      have hl := strlen_lt hu
      rcases he with (he | he) | he
      · exact fits_fields k (by simp [dsCells]) e he
      · exact fits_data k (by simp only [dataLen, hu, Option.getD_some]; omega) e he
      · exact fits_fields k (by simp [dsCells]) e he
    | some b =>
      rw [ha] at he hu
      simp only [List.mem_append] at he hu
      have hd : p.d.data = b := by simp [DStr.data, ha]
      cases hb : b[p.d.used]? with
      | none => rw [hb] at hu; cases hu
      | some c =>
        rw [hb] at hu he
        have hlt : p.d.used < b.length := (List.getElem?_eq_some_iff.1 hb).1
        rcases he with he | he
        · simp only [List.mem_cons, List.not_mem_nil, or_false] at he
          rcases he with rfl | rfl
          · exact fits_read k (c := (236, 4)) (by simp [dsCells])
          · exact ⟨by rw [k.block b ha]; rfl, k.bytes b ha _ hlt⟩
        · simp only [Option.getD_some] at he hu
          split at he
          · rename_i hc
            rw [if_pos hc] at hu
            have hl := strlen_lt hu
            rw [List.mem_append] at he
            rcases he with he | he
            · exact fits_data k (by simp only [dataLen, hd, hu, Option.getD_some]; omega) e he
            · exact fits_fields k (by simp [dsCells]) e he
          · cases he

theorem run_leads {p : PMem} {x : Bool} {h : Heap} (k : Keeps p x h) {es : List MemEv} (hf : ∀ e ∈ es, Fits dsLayout h e) :
    ∃ h', Leads dsLayout h es h' ∧ Keeps p x h' := by
  obtain ⟨h', l⟩ := run_fits dsLayout_apart es h k.place hf
  exact ⟨h', l, k.leads l⟩

/-- A new block is allocated and cleared. -/
theorem run_cleared {h : Heap} (hp : InPlace dsLayout h) {b n : Nat} (hb : h.size b = none) (hn : b ≠ dsBlock) :
    ∃ h', h.run (.alloc b n :: writeBytes b 0 n) = some h' ∧ h'.live = (b, n) :: h.live ∧ (∀ c ∈ h.cells, c.1 ≠ b → c ∈ h'.cells) ∧
      (∀ j, j < n → (b, j, 1) ∈ h'.cells) ∧ InPlace dsLayout h' := by
  obtain ⟨h', h1, h2, h3, h4, h5⟩ := run_alloc dsLayout_apart hp (n := n) (es := writeBytes b 0 n) hb (by
    intro e he
    obtain ⟨j, hj, rfl⟩ := List.mem_map.1 he
    have := List.mem_range.1 hj
    exact ⟨_, 1, rfl, by omega, by simp [aligned, Nat.mod_one], by simp [dsLayout, hn]⟩)
  refine ⟨h', h1, h2, h3, ?_, h5⟩
  intro j hj
  exact h4 j 1 (List.mem_map.2 ⟨j, List.mem_range.2 hj, by rw [Nat.zero_add]⟩)

theorem size_cons {h h' : Heap} {b n c : Nat} (hl : h'.live = (b, n) :: h.live) : h'.size c = if c = b then some n else h.size c := by
  unfold Heap.size
  rw [hl, List.lookup_cons]
  by_cases hc : c = b
  · simp [hc]
  · have : (c == b) = false := by simpa using hc
    rw [this, if_neg hc]

/-- `setup_append_buf`. -/
theorem setup_keeps {p : PMem} {x : Bool} {h : Heap} (k : Keeps p x h) {n : Nat} {d' : DStr} (hd : setupAppendBuf p.d n = some d') :
    ∃ h' b, h.run (setupEv p n) = some h' ∧ Keeps ⟨d', setupCur p n⟩ x h' ∧ d'.append = some b ∧ h'.size buffBlock = h.size buffBlock := by
  unfold setupAppendBuf at hd
  simp only [Option.bind_eq_bind, Option.bind_eq_some_iff] at hd
  obtain ⟨u, hu, hd⟩ := hd
  obtain ⟨c1, c2, c3, c4, c5, c6⟩ := cur_ne k
  obtain ⟨h1, l1, k1⟩ := run_leads k (es := refreshEv p ++ [.read dsBlock 236 4, .read dsBlock 232 4]) (by
    intro e he
    rw [List.mem_append] at he
    rcases he with he | he
    · exact refresh_fits k hu e he
    · exact fits_fields k (by simp [dsCells]) e he)
  have hg : grows p.d n = decide (n + u ≥ p.d.size) := by simp [grows, hu]
  by_cases hgr : n + u ≥ p.d.size
  · rw [if_pos hgr] at hd
    have hgt : grows p.d n = true := by rw [hg]; simpa using hgr
    generalize ht : (if n + u < 100 then 200 else (n + u) * 2) = total at hd
    have hsize : newSize p.d n = total := by simp only [newSize, hu, Option.getD_some]; exact ht
    split at hd
    · cases hd
    · simp only [Option.bind_eq_some_iff] at hd
      obtain ⟨t, hst, b, hpk, hd⟩ := hd
      cases hd
      obtain ⟨hlen, hbound⟩ := pokes_some hpk
      rw [List.length_replicate] at hlen hbound
      obtain ⟨hdl, htl⟩ := dataLen_lt hst
      have hroom : dataLen p.d + 1 ≤ total := by
        rcases hbound with hb | hb
        · simp at hb
        · simp only [List.length_append, List.length_singleton] at hb; omega
      have hfree : h1.size (otherBlock p.cur) = none := size_none fun l hl => by
        rcases k1.only l hl with he | ⟨_, he⟩ | ⟨_, he⟩ <;> rw [he]
        · exact c3.symm
        · exact c5.symm
        · exact c4.symm
      obtain ⟨h2, r2, hl2, hc2, hw2, hp2⟩ := run_cleared (n := total) k1.place hfree c3
      have hs2 : ∀ c, h2.size c = if c = otherBlock p.cur then some total else h1.size c := fun c => size_cons hl2
      -- what was there is still there
      have f2 : ∀ e, Fits dsLayout h1 e → (∀ o m, e ≠ .read (otherBlock p.cur) o m) → (∀ o m, e ≠ .write (otherBlock p.cur) o m) → Fits dsLayout h2 e := by
        intro e he hr hw
        cases e with
        | alloc _ _ => exact he
        | free _ => exact he
        | write c o m =>
          obtain ⟨hL, s, hs, hb⟩ := he
          have : c ≠ otherBlock p.cur := fun hc => hw o m (by rw [hc])
          exact ⟨hL, s, by rw [hs2, if_neg this]; exact hs, hb⟩
        | read c o m =>
          have : c ≠ otherBlock p.cur := fun hc => hr o m (by rw [hc])
          exact ⟨by rw [hs2, if_neg this]; exact he.1, hc2 _ he.2 this⟩
      have g2 : ∀ e ∈ readData p (dataLen p.d + 1) ++ writeBytes (otherBlock p.cur) 0 (dataLen p.d + 1) ++ [.read dsBlock 224 8], Fits dsLayout h2 e := by
        intro e he
        rw [List.mem_append, List.mem_append] at he
        rcases he with (he | he) | he
        · refine f2 e (fits_data k1 hdl e he) ?_ ?_
          · intro o m heq
            subst heq
            unfold readData readBytes at he
            split at he <;> (obtain ⟨j, _, hj⟩ := List.mem_map.1 he; injection hj with hj; first | exact c3 hj.symm | exact c5 hj.symm)
          · intro o m heq
            subst heq
            unfold readData readBytes at he
            split at he <;> (obtain ⟨j, _, hj⟩ := List.mem_map.1 he; cases hj)
        · exact fits_bytes c3 (by rw [hs2, if_pos rfl]) 0 _ (.inr (by omega)) e he
        · obtain rfl := List.mem_singleton.1 he
          exact f2 _ (fits_read k1 (c := (224, 8)) (by simp [dsCells])) (by intro o m heq; injection heq with heq; exact c3 heq.symm)
            (by intro o m heq; cases heq)
      obtain ⟨h3, l3⟩ := run_fits dsLayout_apart _ h2 hp2 g2
      -- the old block goes
      obtain ⟨h4, r4, hs4, hc4, ho4⟩ : ∃ h4, h3.run (if p.d.append.isSome then [.free p.cur] else []) = some h4 ∧
          (∀ c, c ≠ p.cur → h4.size c = h3.size c) ∧ h4.cells = h3.cells ∧
          (∀ l ∈ h4.live, l.1 = dsBlock ∨ l.1 = otherBlock p.cur ∨ (x = true ∧ l.1 = buffBlock)) := by
        cases ha : p.d.append with
        | none =>
          refine ⟨h3, rfl, fun _ _ => rfl, rfl, ?_⟩
          intro l hl
          rw [l3.live, hl2] at hl
          rcases List.mem_cons.1 hl with rfl | hl
          · exact .inr (.inl rfl)
          · rcases k1.only l hl with he | ⟨hne, _⟩ | he
            · exact .inl he
            · exact absurd ha hne
            · exact .inr (.inr he)
        | some b0 =>
          have hlive : (h3.size p.cur).isSome := by
            rw [l3.size, hs2, if_neg c5.symm, k1.block b0 ha]; rfl
          refine ⟨_, step_free hlive, fun c hc => size_filter hc, rfl, ?_⟩
          intro l hl
          obtain ⟨hl, hne⟩ := List.mem_filter.1 hl
          rw [l3.live, hl2] at hl
          rcases List.mem_cons.1 hl with rfl | hl
          · exact .inr (.inl rfl)
          · rcases k1.only l hl with he | ⟨_, he⟩ | he
            · exact .inl he
            · rw [he] at hne; simp at hne
            · exact .inr (.inr he)
      have k4 : Keeps ⟨⟨some b, u⟩, otherBlock p.cur⟩ x h4 := by
        refine ⟨c6, ?_, ?_, ?_, ?_, ?_, ?_, ?_⟩
        · rw [hs4 _ c1.symm, l3.size, hs2, if_neg c3.symm]; exact k1.ds
        · intro b' hb'
          cases hb'
          rw [hs4 _ c5, l3.size, hs2, if_pos rfl, hlen]
        · intro l hl
          rcases ho4 l hl with he | he | he
          · exact .inl he
          · exact .inr (.inl ⟨by simp, he⟩)
          · exact .inr (.inr he)
        · intro c hc
          rw [hc4]
          exact l3.mono _ (hc2 _ (k1.fields c hc) c3.symm)
        · intro j hj
          rw [hc4]
          exact l3.mono _ (hc2 _ (k1.sbuf j hj) c3.symm)
        · intro b' hb' j hj
          cases hb'
          rw [hc4]
          exact l3.mono _ (hw2 j (by omega))
        · intro c hc
          rw [hc4] at hc
          exact l3.place hp2 c hc
      obtain ⟨h5, l5, k5⟩ := run_leads k4 (es := [.write dsBlock 224 8, .write dsBlock 232 4] ++ [.read dsBlock 8 8, .write dsBlock 0 8])
        (fits_fields k4 (by simp [dsCells]))
      refine ⟨h5, b, ?_, ?_, rfl, ?_⟩
      · have : setupEv p n = (refreshEv p ++ [.read dsBlock 236 4, .read dsBlock 232 4]) ++
            ((.alloc (otherBlock p.cur) total :: writeBytes (otherBlock p.cur) 0 total) ++
            ((readData p (dataLen p.d + 1) ++ writeBytes (otherBlock p.cur) 0 (dataLen p.d + 1) ++ [.read dsBlock 224 8]) ++
            ((if p.d.append.isSome then [.free p.cur] else []) ++
            ([.write dsBlock 224 8, .write dsBlock 232 4] ++ [.read dsBlock 8 8, .write dsBlock 0 8])))) := by
          unfold setupEv
          rw [if_pos hgt, hsize]
          simp only [List.append_assoc, List.cons_append]
        rw [this, run_append, l1.run, Option.bind_some, run_append, r2, Option.bind_some, run_append, l3.run, Option.bind_some, run_append, r4]
        exact l5.run
      · rw [show setupCur p n = otherBlock p.cur by rw [setupCur, if_pos hgt]]
        exact k5
      · rw [l5.size, hs4 _ c2.symm, l3.size, hs2, if_neg c4.symm, l1.size]
  · rw [if_neg hgr] at hd
    have hgf : ¬grows p.d n = true := by rw [hg]; simpa using hgr
    cases ha : p.d.append with
    | none => rw [ha] at hd; cases hd
    | some b =>
      rw [ha] at hd
      cases hd
      have k1' : Keeps ⟨⟨some b, u⟩, p.cur⟩ x h1 :=
        ⟨k1.cur, k1.ds, fun b' hb' => by cases hb'; exact k1.block b ha, fun l hl => by
          rcases k1.only l hl with he | ⟨_, he⟩ | he
          · exact .inl he
          · exact .inr (.inl ⟨by simp, he⟩)
          · exact .inr (.inr he), k1.fields, k1.sbuf, fun b' hb' => by cases hb'; exact k1.bytes b ha, k1.place⟩
      obtain ⟨h2, l2, k2⟩ := run_leads k1' (es := [.read dsBlock 8 8, .write dsBlock 0 8]) (fits_fields k1' (by simp [dsCells]))
      refine ⟨h2, b, ?_, ?_, rfl, ?_⟩
      · unfold setupEv
        rw [if_neg hgf, List.append_nil, run_append, l1.run]
        exact l2.run
      · rw [show setupCur p n = p.cur by rw [setupCur, if_neg hgf]]
        exact k2
      · rw [l2.size, l1.size]

/-- `arg_dstr_cat`. -/
theorem cat_keeps {p : PMem} {x : Bool} {h : Heap} (k : Keeps p x h) {s : CStr} {d' : DStr} (hd : dstrCat s p.d = some d') :
    ∃ h', h.run (catEv p s ((setupAppendBuf p.d (s.length + 1)).getD dstrCreate)) = some h' ∧ Keeps ⟨d', setupCur p (s.length + 1)⟩ x h' ∧
      h'.size buffBlock = h.size buffBlock := by
  unfold dstrCat at hd
  simp only [Option.bind_eq_bind, Option.bind_eq_some_iff] at hd
  obtain ⟨d1, hd1, hd⟩ := hd
  obtain ⟨h1, b, r1, k1, hb, hbuf⟩ := setup_keeps k hd1
  rw [hb] at hd
  simp only [Option.bind_eq_some_iff] at hd
  obtain ⟨n, hn, b', hpk, hd⟩ := hd
  cases hd
  obtain ⟨hlen, hbound⟩ := pokes_some hpk
  have hnl := strlen_lt hn
  have hdl : dataLen d1 = n := by simp [dataLen, DStr.data, hb, hn]
  obtain ⟨c1, _, _, _, _, _⟩ := cur_ne k1
  have hs1 := k1.block b hb
  obtain ⟨h2, l2, k2⟩ := run_leads k1 (es := [.read dsBlock 0 8] ++ readBytes (setupCur p (s.length + 1)) 0 (dataLen d1 + 1) ++
      writeBytes (setupCur p (s.length + 1)) (dataLen d1) s.length) (by
    intro e he
    rw [List.mem_append, List.mem_append] at he
    rcases he with (he | he) | he
    · exact fits_fields k1 (by simp [dsCells]) e he
    · exact fits_reads (by rw [hs1]; rfl) 0 _ (fun j hj => by rw [Nat.zero_add]; exact k1.bytes b hb j (by omega)) e he
    · refine fits_bytes c1 hs1 _ _ ?_ e he
      rcases hbound with rfl | hbound
      · exact .inl rfl
      · exact .inr (by omega))
  refine ⟨h2, ?_, ?_, by rw [l2.size, hbuf]⟩
  · unfold catEv
    rw [hd1, Option.getD_some, run_append, r1]
    exact l2.run
  · exact ⟨k2.cur, k2.ds, fun b'' hb'' => by cases hb''; rw [hlen]; exact k2.block b hb, fun l hl => by
      rcases k2.only l hl with he | ⟨_, he⟩ | he
      · exact .inl he
      · exact .inr (.inl ⟨by simp, he⟩)
      · exact .inr (.inr he), k2.fields, k2.sbuf, fun b'' hb'' j hj => by cases hb''; exact k2.bytes b hb j (by omega), k2.place⟩

/-- `arg_dstr_catf`. -/
theorem catf_keeps {p : PMem} {d' : DStr} {cur' : Nat} {text : CStr} {cat : List MemEv} 
    (hcat : ∀ h, Keeps p true h → ∃ h', h.run cat = some h' ∧ Keeps ⟨d', cur'⟩ true h' ∧ h'.size buffBlock = h.size buffBlock) (n : Nat) :
    ∀ h, Keeps p false h → ∃ h', h.run (catfEv text n cat) = some h' ∧ Keeps ⟨d', cur'⟩ false h' := by
  -- with and without `buff`
  have widen : ∀ {q : PMem} {h h' : Heap} {m : Nat}, Keeps q false h → h'.live = (buffBlock, m) :: h.live →
      (∀ c ∈ h.cells, c.1 ≠ buffBlock → c ∈ h'.cells) → InPlace dsLayout h' → Keeps q true h' := by
    intro q h h' m k hl hc hp
    obtain ⟨_, c2, _⟩ := cur_ne k
    have hs : ∀ c, h'.size c = if c = buffBlock then some m else h.size c := fun c => size_cons hl
    refine ⟨k.cur, ?_, ?_, ?_, ?_, ?_, ?_, hp⟩
    · rw [hs, if_neg (by decide)]; exact k.ds
    · intro b hb; rw [hs, if_neg c2]; exact k.block b hb
    · intro l hm
      rw [hl] at hm
      rcases List.mem_cons.1 hm with rfl | hm
      · exact .inr (.inr ⟨rfl, rfl⟩)
      · rcases k.only l hm with he | he | ⟨hf, _⟩
        · exact .inl he
        · exact .inr (.inl he)
        · cases hf
    · intro c hm; exact hc _ (k.fields c hm) (show dsBlock ≠ buffBlock by decide)
    · intro j hj; exact hc _ (k.sbuf j hj) (show dsBlock ≠ buffBlock by decide)
    · intro b hb j hj; exact hc _ (k.bytes b hb j hj) c2
  have narrow : ∀ {q : PMem} {h : Heap}, Keeps q true h → Keeps q false ⟨h.live.filter (fun l => l.1 ≠ buffBlock), h.cells⟩ := by
    intro q h k
    obtain ⟨_, c2, _⟩ := cur_ne k
    refine ⟨k.cur, ?_, ?_, ?_, k.fields, k.sbuf, k.bytes, k.place⟩
    · rw [size_filter (by decide)]; exact k.ds
    · intro b hb; rw [size_filter c2]; exact k.block b hb
    · intro l hm
      obtain ⟨hm, hne⟩ := List.mem_filter.1 hm
      rcases k.only l hm with he | he | ⟨_, he⟩
      · exact .inl he
      · exact .inr (.inl he)
      · rw [he] at hne; simp at hne
  induction n using WellFounded.induction (r := fun a b => text.length + 1 - a < text.length + 1 - b)
    (InvImage.wf (fun n => text.length + 1 - n) Nat.lt_wfRel.wf) with
  | _ n ih =>
    intro h k
    have hnone : h.size buffBlock = none := size_none fun l hl => by
      obtain ⟨_, c2, _⟩ := cur_ne k
      rcases k.only l hl with he | ⟨_, he⟩ | ⟨hf, _⟩
      · rw [he]; decide
      · rw [he]; exact c2
      · cases hf
    obtain ⟨h1, r1, hl1, hc1, hw1, hp1⟩ := run_cleared (n := n + 2) k.place hnone (by decide)
    have k1 := widen k hl1 hc1 hp1
    have hs1 : h1.size buffBlock = some (n + 2) := by rw [size_cons hl1, if_pos rfl]
    have htk : (text.take n).length ≤ n := by rw [List.length_take]; omega
    have fr : ∀ e ∈ readBytes buffBlock 0 ((text.take n).length + 1), Fits dsLayout h1 e :=
      fits_reads (by rw [hs1]; rfl) 0 _ fun j hj => by rw [Nat.zero_add]; exact hw1 j (by omega)
    obtain ⟨h2, l2, k2⟩ := run_leads k1 (es := writeBytes buffBlock 0 ((text.take n).length + 1) ++ readBytes buffBlock 0 ((text.take n).length + 1)) (by
      intro e he
      rw [List.mem_append] at he
      rcases he with he | he
      · exact fits_bytes (by decide) hs1 0 _ (.inr (by omega)) e he
      · exact fr e he)
    have hs2 : h2.size buffBlock = some (n + 2) := by rw [l2.size, hs1]
    rw [catfEv]
    split
    · rename_i hbr
      obtain ⟨h3, l3, k3⟩ := run_leads k2 (es := readBytes buffBlock 0 ((text.take n).length + 1)) (fun e he => (fr e he).mono l2.size l2.mono)
      obtain ⟨h4, r4, k4, hs4⟩ := hcat h3 k3
      refine ⟨_, ?_, narrow k4⟩
      simp only [List.append_assoc]
      rw [run_append, r1, Option.bind_some, ← List.append_assoc, run_append, l2.run, Option.bind_some, run_append, l3.run, Option.bind_some, run_append, r4,
        Option.bind_some]
      exact step_free (by rw [hs4, l3.size, hs2]; rfl)
    · rename_i hbr
      have hlt : n ≤ (text.take n).length := by omega
      have hle : n ≤ text.length := by rw [List.length_take] at hlt; omega
      obtain ⟨h3, r3, k3⟩ := ih (if text.length > n then text.length else n + n) (by split <;> omega) _ (narrow k2)
      refine ⟨h3, ?_, k3⟩
      simp only [List.append_assoc]
      rw [run_append, r1, Option.bind_some, ← List.append_assoc, run_append, l2.run, Option.bind_some]
      rw [show ∀ l : List MemEv, MemEv.free buffBlock :: l = [MemEv.free buffBlock] ++ l from fun _ => rfl, run_append,
        step_free (by rw [hs2]; rfl)]
      exact r3

/-- Any of the two. -/
theorem op_keeps {p : PMem} {h : Heap} (k : Keeps p false h) (o : PrintOp) {d' : DStr} (hd : o.run p.d = some d') :
    ∃ h', h.run (o.ev p) = some h' ∧ Keeps ⟨d', setupCur p (o.text.length + 1)⟩ false h' := by
  cases o with
  | cat s =>
    obtain ⟨h', r, k', _⟩ := cat_keeps k (s := s) hd
    exact ⟨h', r, k'⟩
  | catf n t => exact catf_keeps (fun h k => cat_keeps k (s := PrintOp.text (.catf n t)) hd) _ h k

theorem ops_keep (ops : List PrintOp) : ∀ {p : PMem} {h : Heap}, Keeps p false h → (runOps ops p.d).isSome →
    ∃ h', h.run (opsEv ops p) = some h' ∧ Keeps (opsMem ops p) false h' ∧ runOps ops p.d = some (opsMem ops p).d := by
  induction ops with
  | nil => intro p h k _; exact ⟨h, rfl, k, rfl⟩
  | cons o ops ih =>
    intro p h k hs
    cases hd : o.run p.d with
    | none => simp [runOps, hd] at hs
    | some d' =>
      obtain ⟨h1, r1, k1⟩ := op_keeps k o hd
      obtain ⟨h2, r2, k2, e2⟩ := ih k1 (by simpa [runOps, hd] using hs)
      refine ⟨h2, ?_, ?_, ?_⟩
      · simp only [opsEv, hd, Option.getD_some]
        rw [run_append, r1]
        exact r2
      · simpa only [opsMem, hd, Option.getD_some] using k2
      · simpa only [runOps, opsMem, hd, Option.getD_some, Option.bind_eq_bind, Option.bind_some] using e2

/-! ## From the creation to the end -/

theorem create_keeps {h : Heap} (hl : h.live = []) (hp : InPlace dsLayout h) : ∃ h', h.run createEv = some h' ∧ Keeps ⟨dstrCreate, 201⟩ false h' := by
  obtain ⟨h1, r1, hl1, hc1, hw1, hp1⟩ := run_alloc dsLayout_apart hp (b := dsBlock) (n := 240)
    (es := (dsCells.map fun c => .write dsBlock c.1 c.2) ++ writeBytes dsBlock 16 201 ++ [.write dsBlock 16 1, .write dsBlock 0 8, .write dsBlock 8 8])
    (by simp [Heap.size, hl]) (by
      intro e he
      rw [List.mem_append, List.mem_append] at he
      rcases he with (he | he) | he
      · obtain ⟨c, hc, rfl⟩ := List.mem_map.1 he
        refine ⟨c.1, c.2, rfl, ?_⟩
        simp only [dsCells, List.mem_cons, List.not_mem_nil, or_false] at hc
        rcases hc with rfl | rfl | rfl | rfl | rfl <;> decide
      · obtain ⟨j, hj, rfl⟩ := List.mem_map.1 he
        have := List.mem_range.1 hj
        refine ⟨_, 1, rfl, by omega, by simp [aligned, Nat.mod_one], ?_⟩
        unfold dsLayout
        rw [if_pos rfl, if_neg (by omega), if_neg (by omega), if_pos (by omega)]
      · simp only [List.mem_cons, List.not_mem_nil, or_false] at he
        rcases he with rfl | rfl | rfl <;> exact ⟨_, _, rfl, by decide, by decide, by decide⟩)
  refine ⟨h1, r1, .inl rfl, by rw [size_cons hl1, if_pos rfl], (fun b hb => by cases hb), ?_, ?_, ?_, (fun b hb => by cases hb), hp1⟩
  · intro l hm
    rw [hl1, hl] at hm
    obtain rfl := List.mem_singleton.1 hm
    exact .inl rfl
  · intro c hc
    exact hw1 _ _ (List.mem_append_left _ (List.mem_append_left _ (List.mem_map.2 ⟨c, hc, rfl⟩)))
  · intro j hj
    exact hw1 _ _ (List.mem_append_left _ (List.mem_append_right _ (List.mem_map.2 ⟨j, List.mem_range.2 hj, rfl⟩)))

theorem destroy_keeps {p : PMem} {h : Heap} (k : Keeps p false h) (hne : p.d.append ≠ some []) : ∃ h', h.run (destroyEv p) = some h' ∧ h'.live = [] ∧ InPlace dsLayout h' := by
  obtain ⟨c1, _⟩ := cur_ne k
  obtain ⟨h1, l1, k1⟩ := run_leads k (es := [.read dsBlock 8 8, .read dsBlock 224 8, .read dsBlock 232 4]) (fits_fields k (by simp [dsCells]))
  -- the text goes
  obtain ⟨h2, r2, k2⟩ : ∃ h2, h1.run (if p.d.append.isSome ∧ p.d.size > 0 then [.free p.cur, .write dsBlock 224 8, .write dsBlock 232 4] else []) = some h2 ∧
      Keeps ⟨dstrCreate, p.cur⟩ false h2 := by
    cases ha : p.d.append with
    | none =>
      refine ⟨h1, by simp [Heap.run], ?_⟩
      exact ⟨k1.cur, k1.ds, (fun b hb => by cases hb), fun l hl => by
        rcases k1.only l hl with he | ⟨hne, _⟩ | he
        · exact .inl he
        · exact absurd ha hne
        · exact .inr (.inr he), k1.fields, k1.sbuf, (fun b hb => by cases hb), k1.place⟩
    | some b =>
      have hb : b ≠ [] := fun he => hne (by rw [ha, he])
      · have hpos : p.d.size > 0 := by
          simp only [DStr.size, ha, Option.getD_some]
          exact List.length_pos_iff.2 hb
        have hs : (h1.size p.cur).isSome := by rw [k1.block b ha]; rfl
        have k2 : Keeps ⟨dstrCreate, p.cur⟩ false ⟨h1.live.filter (fun l => l.1 ≠ p.cur), h1.cells⟩ := by
          refine ⟨k1.cur, by rw [size_filter c1.symm]; exact k1.ds, (fun b hb => by cases hb), ?_, k1.fields, k1.sbuf, (fun b hb => by cases hb), k1.place⟩
          intro l hl
          obtain ⟨hl, hne⟩ := List.mem_filter.1 hl
          rcases k1.only l hl with he | ⟨_, he⟩ | he
          · exact .inl he
          · rw [he] at hne; simp at hne
          · exact .inr (.inr he)
        obtain ⟨h3, l3, k3⟩ := run_leads k2 (es := [.write dsBlock 224 8, .write dsBlock 232 4]) (fits_fields k2 (by simp [dsCells]))
        refine ⟨h3, ?_, k3⟩
        rw [if_pos ⟨rfl, hpos⟩, show ∀ l : List MemEv, MemEv.free p.cur :: l = [MemEv.free p.cur] ++ l from fun _ => rfl, run_append, step_free hs]
        exact l3.run
  obtain ⟨h3, l3, k3⟩ := run_leads k2 (es := [.write dsBlock 0 8, .write dsBlock 16 1]) (by
    intro e he
    simp only [List.mem_cons, List.not_mem_nil, or_false] at he
    rcases he with rfl | rfl
    · exact fits_write k2 (c := (0, 8)) (by decide)
    · exact ⟨by decide, 240, k2.ds, by decide, by decide⟩)
  refine ⟨⟨h3.live.filter (fun l => l.1 ≠ dsBlock), h3.cells⟩, ?_, ?_, k3.place⟩
  · rw [destroyEv, run_append, run_append, l1.run, Option.bind_some, r2, Option.bind_some,
      show [MemEv.write dsBlock 0 8, .write dsBlock 16 1, .free dsBlock] = [.write dsBlock 0 8, .write dsBlock 16 1] ++ [.free dsBlock] from rfl, run_append, l3.run,
      Option.bind_some, step_free (by rw [k3.ds]; rfl)]
  · refine List.filter_eq_nil_iff.2 fun l hl => ?_
    rcases k3.only l hl with he | ⟨he, _⟩ | ⟨he, _⟩
    · simp [he]
    · exact absurd rfl he
    · cases he

/-- The text a sequence of appends puts together. -/
def opsText (ops : List PrintOp) : Option CStr := (runOps ops dstrCreate).bind fun d => stringAt d.data

theorem print_keeps {ops : List PrintOp} (hd : (opsText ops).isSome) {h : Heap} (hl : h.live = []) (hp : InPlace dsLayout h) :
    ∃ h', h.run (printEv ops) = some h' ∧ h'.live = [] ∧ InPlace dsLayout h' := by
  obtain ⟨t, ht⟩ := Option.isSome_iff_exists.1 hd
  obtain ⟨d, hd, ht⟩ := Option.bind_eq_some_iff.1 ht
  obtain ⟨h1, r1, k1⟩ := create_keeps hl hp
  obtain ⟨h2, r2, k2, e2⟩ := ops_keep ops k1 (by rw [hd]; rfl)
  have hd2 : (opsMem ops ⟨dstrCreate, 201⟩).d = d := Option.some.inj (e2.symm.trans hd)
  rw [← hd2] at ht
  have hlen := (dataLen_lt ht).1
  obtain ⟨h3, l3, k3⟩ := run_leads k2 (es := putsEv (opsMem ops ⟨dstrCreate, 201⟩)) (by
    intro e he
    rcases List.mem_cons.1 he with rfl | he
    · exact fits_read k2 (c := (0, 8)) (by decide)
    · exact fits_data k2 hlen e he)
  obtain ⟨h4, r4, hl4, hp4⟩ := destroy_keeps k3 (by
    intro he
    rw [DStr.data, he] at ht
    cases ht)
  refine ⟨h4, ?_, hl4, hp4⟩
  rw [printEv, run_append, run_append, run_append, r1, Option.bind_some, r2, Option.bind_some, l3.run, Option.bind_some, r4]

/-- C134: whatever texts are put together, one after another, no access is out of place, nothing is read before it is written, and all memory is given back. -/
theorem C134_freed (prints : List (List PrintOp)) (hd : ∀ ops ∈ prints, (opsText ops).isSome) : SoundAndFreed (prints.flatMap printEv) := by
  suffices ∀ h : Heap, h.live = [] → InPlace dsLayout h → ∃ h', h.run (prints.flatMap printEv) = some h' ∧ h'.live = [] from
    this ⟨[], []⟩ rfl (fun c hc => by cases hc)
  induction prints with
  | nil => intro h hl _; exact ⟨h, rfl, hl⟩
  | cons ops prints ih =>
    intro h hl hp
    obtain ⟨h1, r1, hl1, hp1⟩ := print_keeps (hd ops List.mem_cons_self) hl hp
    obtain ⟨h2, r2, hl2⟩ := ih (fun o ho => hd o (List.mem_cons_of_mem _ ho)) h1 hl1 hp1
    refine ⟨h2, ?_, hl2⟩
    rw [List.flatMap_cons, run_append, r1]
    exact r2

/-! ## What is put together -/

/-- The function appends, on every string, as this sequence does; or never gives a string. -/
def Appends (f : DStr → Option DStr) : Prop := ∃ o : Option (List PrintOp), ∀ d, f d = o.bind (runOps · d)

theorem runOps_append (a b : List PrintOp) (d : DStr) : runOps (a ++ b) d = (runOps a d).bind (runOps b) := by
  induction a generalizing d with
  | nil => rfl
  | cons o a ih =>
    simp only [List.cons_append, runOps, Option.bind_eq_bind]
    cases o.run d with
    | none => rfl
    | some d' => exact ih d'

theorem Appends.pure : Appends some := ⟨some [], fun _ => rfl⟩
theorem Appends.never : Appends (fun _ => none) := ⟨none, fun _ => rfl⟩
theorem Appends.cat (s : CStr) : Appends (dstrCat s) := ⟨some [.cat s], fun d => by simp [runOps, PrintOp.run]⟩
theorem Appends.catf (n : Nat) (t : CStr) : Appends (dstrCatf n t) := ⟨some [.catf n t], fun d => by simp [runOps, PrintOp.run]⟩

theorem Appends.bind {f g : DStr → Option DStr} (hf : Appends f) (hg : Appends g) : Appends (fun d => (f d).bind g) := by
  obtain ⟨a, ha⟩ := hf
  obtain ⟨b, hb⟩ := hg
  cases a with
  | none => exact ⟨none, fun d => by show (f d).bind g = _; rw [ha]; rfl⟩
  | some a =>
    cases b with
    | none =>
      refine ⟨none, fun d => ?_⟩
      show (f d).bind g = _
      rw [ha, Option.bind_some]
      cases runOps a d with
      | none => rfl
      | some d' => exact hb d'
    | some b =>
      refine ⟨some (a ++ b), fun d => ?_⟩
      show (f d).bind g = _
      rw [ha, Option.bind_some, Option.bind_some, runOps_append]
      cases runOps a d with
      | none => rfl
      | some d' => exact hb d'

theorem Appends.after {α : Type} (o : Option α) {f : α → DStr → Option DStr} (hf : ∀ a, Appends (f a)) : Appends (fun d => o.bind fun a => f a d) := by
  cases o with
  | none => exact .never
  | some a => exact hf a

theorem Appends.ofSome {f : DStr → Option DStr} (hf : Appends f) {d d' : DStr} (h : f d = some d') : ∃ ops, ∀ d, f d = runOps ops d := by
  obtain ⟨o, ho⟩ := hf
  cases o with
  | none => rw [ho] at h; cases h
  | some ops => exact ⟨ops, ho⟩

theorem printOption_appends (l t : Option CStr) (s : CStr) : Appends (printOption l t s) :=
  .after _ fun _ => .after _ fun x => .bind (.cat x) (.cat s)

theorem endError_appends (n : Nat) (v : CStr) : Appends (endError n v) := by
  refine .bind (.catf _ _) ?_
  dsimp only
  split
  · exact .bind (.cat _) (.cat _)
  · exact .bind (.cat _) (.cat _)
  · exact .bind (.catf _ _) (.cat _)
  · exact .bind (.catf _ _) (.cat _)
  · exact .bind (.catf _ _) (.cat _)
  · exact .bind (.catf _ _) (.cat _)

theorem intError_appends (l t : Option CStr) (c : ErrCode) (v : CStr) : Appends (intError l t c v) := by
  refine .bind (.catf _ _) ?_
  cases c <;> first
    | exact .bind (.cat _) (printOption_appends _ _ _)
    | exact .bind (.catf _ _) (printOption_appends _ _ _)
    | exact .bind (.cat _) (.bind (printOption_appends _ _ _) (.catf _ _))
    | exact .pure

theorem litError_appends (l t : Option CStr) (c : ErrCode) : Appends (litError l t c) := by
  cases c <;> first
    | exact .bind (.catf _ _) (printOption_appends _ _ _)
    | exact .bind (.catf _ _) (.bind (printOption_appends _ _ _) (.cat _))
    | exact .pure

theorem strError_appends (l t : Option CStr) (c : ErrCode) (v : CStr) : Appends (strError l t c v) := by
  refine .bind (.catf _ _) ?_
  cases c <;> first
    | exact .bind (.cat _) (printOption_appends _ _ _)
    | exact .pure

theorem printError_appends (r : ErrRec) : Appends (printError r) := by
  unfold printError
  cases r.parent with
  | none => exact endError_appends _ _
  | some i =>
    simp only
    split
    · split
      · exact litError_appends _ _ _
      · exact intError_appends _ _ _ _
      · exact strError_appends _ _ _ _
    · exact .never

/-- All rows. -/
theorem printErrors_appends (rs : List ErrRec) : Appends (printErrors rs) := by
  induction rs with
  | nil => exact .pure
  | cons r rs ih => exact .bind (printError_appends r) ih

theorem mandatory_appends (s : CStr) (n : Nat) : Appends (mandatory s n) := by
  induction n with
  | zero => exact .pure
  | succ n ih => exact .bind (.cat _) (.bind (.cat _) ih)

theorem optional_appends (s c : CStr) : Appends (optional s c) := .bind (.cat _) (.bind (.cat _) (.cat _))

theorem optionals_appends (s : CStr) (n : Nat) : Appends (optionals s n) := by
  unfold optionals
  split
  · exact .pure
  · exact optional_appends _ _
  · exact .bind (optional_appends _ _) (optional_appends _ _)
  · exact optional_appends _ _

theorem syntaxEntry_appends (e : ArgEntry) (t : Option CStr) : Appends (syntaxEntry e t) := by
  refine .after _ fun _ => .after _ fun s => ?_
  split
  · exact .bind (mandatory_appends _ _) (optionals_appends _ _)
  · exact .pure

theorem printSyntax_appends (es : List (ArgEntry × (Option CStr × CStr))) : Appends (printSyntax es) := by
  induction es with
  | nil => exact .pure
  | cons e es ih => exact .bind (syntaxEntry_appends _ _) ih

theorem glossaryEntry_appends (e : ArgEntry) (t : Option CStr × CStr) : Appends (glossaryEntry e t) :=
  .after _ fun _ => .after _ fun _ => .catf _ _

theorem printGlossary_appends (es : List (ArgEntry × (Option CStr × CStr))) : Appends (printGlossary es) := by
  induction es with
  | nil => exact .pure
  | cons e es ih => exact .bind (glossaryEntry_appends _ _) ih

/-- argtable3.c:5643-5700 `arg_print_syntax_ds` on main.c's table; the part of `helpText` that makes its first string. -/
def syntaxDs (d : DStr) : Option DStr := (dstrCatf 2 [] d).bind fun d => (printSyntax (mainTable.zip mainTexts) d).bind (dstrCat c!"\n\n")

theorem syntaxDs_appends : Appends syntaxDs := .bind (.catf _ _) (.bind (printSyntax_appends _) (.cat _))

theorem helpText_parts : helpText = (syntaxDs dstrCreate).bind fun d => (printGlossary (mainTable.zip mainTexts) dstrCreate).bind fun g =>
    (stringAt d.data).bind fun a => (stringAt g.data).bind fun b => some (c!"Usage: " ++ progname ++ a ++ b) := by
  unfold helpText syntaxDs
  simp only [Option.bind_eq_bind, Option.pure_def, Option.bind_assoc]

/-- C134, wrong command lines: for every command line whose mistakes are reported, the report is put together by appends to one string, and printing it uses
memory soundly and gives all of it back. -/
theorem C134_report (posix : Bool) (junk : Cells) (argv : List CStr) (hw : WordsOk argv) (recs : List ErrRec) (h : MainDoes posix junk argv (.errors recs)) :
    ∃ ops, (∀ d, printErrors recs d = runOps ops d) ∧ SoundAndFreed (printEv ops) := by
  obtain ⟨T, hT⟩ := C78_report_safe posix junk argv hw recs h
  obtain ⟨d, hd, hT⟩ := Option.bind_eq_some_iff.1 hT
  obtain ⟨t, ht, _⟩ := Option.bind_eq_some_iff.1 hT
  obtain ⟨ops, ho⟩ := (printErrors_appends recs).ofSome hd
  refine ⟨ops, ho, ?_⟩
  have := C134_freed [ops] (by
    intro o hm
    obtain rfl := List.mem_singleton.1 hm
    rw [opsText, ← ho, hd, Option.bind_some, ht]
    rfl)
  simpa using this

/-- C134, `--help`: the synopsis and the list of options are put together by appends to two strings, one after the other. -/
theorem C134_help : ∃ s g, (∀ d, syntaxDs d = runOps s d) ∧ (∀ d, printGlossary (mainTable.zip mainTexts) d = runOps g d) ∧
    SoundAndFreed (printEv s ++ printEv g) := by
  have hh := C80_help
  rw [helpText_parts] at hh
  obtain ⟨d, hd, hh⟩ := Option.bind_eq_some_iff.1 hh
  obtain ⟨g, hg, hh⟩ := Option.bind_eq_some_iff.1 hh
  obtain ⟨a, ha, hh⟩ := Option.bind_eq_some_iff.1 hh
  obtain ⟨b, hb, _⟩ := Option.bind_eq_some_iff.1 hh
  obtain ⟨so, hso⟩ := syntaxDs_appends.ofSome hd
  obtain ⟨go, hgo⟩ := (printGlossary_appends _).ofSome hg
  refine ⟨so, go, hso, hgo, ?_⟩
  have := C134_freed [so, go] (by
    intro o hm
    simp only [List.mem_cons, List.not_mem_nil, or_false] at hm
    rcases hm with rfl | rfl
    · rw [opsText, ← hso, hd, Option.bind_some, ha]; rfl
    · rw [opsText, ← hgo, hg, Option.bind_some, hb]; rfl)
  simpa using this

/-- The text of a sequence of three. -/
theorem sample_text : opsText [PrintOp.cat c!"judger: ", .catf 4 c!"unexpected arguments", .cat c!"\n"] = some c!"judger: unexpected arguments\n" := by
  have h : PrintOp.run (.catf 4 c!"unexpected arguments") = PrintOp.run (.cat c!"unexpected arguments") := by
    funext d
    simp only [PrintOp.run, dstrCatf]
    rw [catfLoop_text _ _ (by decide)]
  simp only [opsText, runOps, h]
  decide +kernel

/-- C134 is not about nothing: such a text is formatted three times, into blocks of 18, 22 and 42 bytes. -/
example : SoundAndFreed ([[PrintOp.cat c!"judger: ", .catf 4 c!"unexpected arguments", .cat c!"\n"], [.cat c!"again"]].flatMap printEv) ∧
    ((catfEv c!"unexpected arguments" 16 []).filter fun e => match e with | .alloc _ _ => true | .free _ => true | _ => false) =
      [.alloc 203 18, .free 203, .alloc 203 22, .free 203, .alloc 203 42, .free 203] := by
  constructor
  · refine C134_freed _ fun ops hm => ?_
    simp only [List.mem_cons, List.not_mem_nil, or_false] at hm
    rcases hm with rfl | rfl
    · rw [sample_text]; rfl
    · decide +kernel
  · rw [catfEv, if_neg (show ¬(16 = 0 ∨ (List.take 16 c!"unexpected arguments").length < 16) by decide), if_pos (by decide),
      show (c!"unexpected arguments").length = 20 from rfl, catfEv, if_neg (show ¬(20 = 0 ∨ (List.take 20 c!"unexpected arguments").length < 20) by decide), if_neg (by decide), catfEv, if_pos (by decide)]
    decide +kernel

/-- C134 can fail: without the last `free`, memory is left over. -/
example : ¬SoundAndFreed (createEv ++ opsEv [.cat c!"a"] ⟨dstrCreate, 201⟩ ++ [.free dsBlock]) := by
  intro ⟨h, hr, hl⟩
  have : (Heap.run ⟨[], []⟩ (createEv ++ opsEv [.cat c!"a"] ⟨dstrCreate, 201⟩ ++ [.free dsBlock])).map (·.live) = some [(202, 200)] := by decide +kernel
  rw [hr] at this
  simp [hl] at this

end Judger.Report
