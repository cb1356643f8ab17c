import Verif.Model.LuaMemory
import Verif.Lemmas.Heap
import Verif.Props.Lua
import Verif.Props.Runner

/-! # The memory of a Lua call (C133) -/

set_option autoImplicit false

namespace Judger.Lua

open Spec

/-! ## Specification -/

/-- C133: whatever a Lua call is given, it uses the memory it allocates soundly; and when it is over, by an error or with a result, all of it has been
freed. -/
def C133_full : Prop := ∀ (height : Nat) (table : Bool) (get : CStr → Option LuaVal) (prior : Result) (e : RunEnv),
  Sound (callEv height table get prior e).1 ∧
  ((callEv height table get prior e).2 = .error ∨ (∃ t, (callEv height table get prior e).2 = .returns t) →
    SoundAndFreed (callEv height table get prior e).1)

/-! ## Proof -/

/-- Texts are written byte by byte. -/
def bytes : Layout := fun _ _ => some 1

theorem bytes_apart : bytes.Apart := by
  intro b o n o' n' h h'
  cases h; cases h'
  omega

/-- The heap holds exactly these texts. -/
structure HoldsTexts (st : Stored) (h : Heap) : Prop where
  live : h.live = (st.map fun p => (p.1, p.2 + 1)).reverse
  cells : ∀ p ∈ st, ∀ j, j ≤ p.2 → (p.1, j, 1) ∈ h.cells
  place : InPlace bytes h

theorem lookup_none {b : Nat} {l : List (Nat × Nat)} (h : ∀ p ∈ l, p.1 ≠ b) : l.lookup b = none := by
  induction l with
  | nil => rfl
  | cons p l ih =>
    obtain ⟨x, y⟩ := p
    have h1 := h _ List.mem_cons_self
    rw [List.lookup_cons]
    have : (b == x) = false := by simpa using fun he => h1 he.symm
    rw [this]
    exact ih fun q hq => h q (List.mem_cons_of_mem _ hq)

theorem lookup_some {b : Nat} {l : List (Nat × Nat)} (h : ∃ p ∈ l, p.1 = b) : (l.lookup b).isSome := by
  induction l with
  | nil => obtain ⟨_, hp, _⟩ := h; cases hp
  | cons p l ih =>
    obtain ⟨x, y⟩ := p
    rw [List.lookup_cons]
    by_cases hb : b = x
    · simp [hb]
    · have : (b == x) = false := by simpa using hb
      rw [this]
      obtain ⟨q, hq, hqb⟩ := h
      rcases List.mem_cons.1 hq with rfl | hq
      · exact absurd hqb.symm hb
      · exact ih ⟨q, hq, hqb⟩

theorem holds_nil : HoldsTexts [] ⟨[], []⟩ := ⟨rfl, (fun _ h => by cases h), fun _ h => by cases h⟩

theorem holds_dup {st : Stored} {h : Heap} (hh : HoldsTexts st h) (b : Nat) (s : CStr) (hb : b ∉ st.map (·.1)) :
    ∃ h', h.run (dupEv b s) = some h' ∧ HoldsTexts (st ++ [(b, s.length)]) h' := by
  obtain ⟨h', h1, h2, h3, h4, h5⟩ := run_alloc (L := bytes) bytes_apart hh.place (b := b) (n := s.length + 1)
    (es := (List.range (s.length + 1)).map fun j => .write b j 1)
    (by
      unfold Heap.size
      apply lookup_none
      intro p hp he
      rw [hh.live, List.mem_reverse, List.mem_map] at hp
      obtain ⟨q, hq, rfl⟩ := hp
      exact hb (he ▸ List.mem_map.2 ⟨q, hq, rfl⟩))
    (by
      intro e he
      obtain ⟨j, hj, rfl⟩ := List.mem_map.1 he
      have := List.mem_range.1 hj
      exact ⟨j, 1, rfl, by omega, by simp [aligned, Nat.mod_one], rfl⟩)
  refine ⟨h', h1, ?_, ?_, h5⟩
  · rw [h2, hh.live]; simp
  · intro p hp j hj
    rcases List.mem_append.1 hp with hp | hp
    · exact h3 _ (hh.cells p hp j hj) fun he => hb (he ▸ List.mem_map_of_mem hp)
    · obtain rfl := List.mem_singleton.1 hp
      exact h4 j 1 (List.mem_map.2 ⟨j, List.mem_range.2 (by simp only at hj; omega), rfl⟩)

theorem holds_dups (l : List (Nat × CStr)) : ∀ {st : Stored} {h : Heap}, HoldsTexts st h → (∀ p ∈ l, p.1 ∉ st.map (·.1)) → (l.map (·.1)).Nodup →
    ∃ h', h.run (l.flatMap fun p => dupEv p.1 p.2) = some h' ∧ HoldsTexts (st ++ l.map fun p => (p.1, p.2.length)) h' := by
  induction l with
  | nil => intro st h hh _ _; exact ⟨h, rfl, by simpa using hh⟩
  | cons p l ih =>
    intro st h hh hb hn
    obtain ⟨h1, r1, hh1⟩ := holds_dup hh p.1 p.2 (hb p List.mem_cons_self)
    rw [List.map_cons, List.nodup_cons] at hn
    obtain ⟨h2, r2, hh2⟩ := ih hh1 (by
      intro q hq hm
      rw [List.map_append, List.mem_append] at hm
      rcases hm with hm | hm
      · exact hb q (List.mem_cons_of_mem _ hq) hm
      · have : q.1 = p.1 := by simpa using hm
        exact hn.1 (this ▸ List.mem_map_of_mem hq)) hn.2
    refine ⟨h2, ?_, by simpa using hh2⟩
    rw [List.flatMap_cons, run_append, r1]
    exact r2

/-- The copies made for field number `i`. -/
def copies (i : Nat) : LuaVal → List (Nat × CStr)
  | .string s => [(strBlock i, dup s)]
  | .table es => (checkStringTable (256 - 1) 0 es).1.map fun w => (itemBlock i w.1, w.2)
  | _ => []

theorem fieldEv_eq (i : Nat) (v : LuaVal) :
    fieldEv i v = ((copies i v).flatMap fun p => dupEv p.1 p.2, (copies i v).map fun p => (p.1, p.2.length)) := by
  cases v <;> simp [fieldEv, copies, List.flatMap_map, Function.comp_def]

theorem check_index (n : Nat) (es : List (LuaVal × LuaVal)) : ∀ k, k ≤ n → (∀ w ∈ (checkStringTable n k es).1, k ≤ w.1 ∧ w.1 < n) ∧
    ((checkStringTable n k es).1.map (·.1)).Nodup := by
  induction es with
  | nil => intro k _; simp [checkStringTable]
  | cons e es ih =>
    intro k hk
    obtain ⟨x, v⟩ := e
    cases v with
    | string s =>
      simp only [checkStringTable]
      split
      · split
        · simp
        · rename_i hne
          obtain ⟨h1, h2⟩ := ih (k + 1) (by omega)
          refine ⟨?_, ?_⟩
          · intro w hw
            rcases List.mem_cons.1 hw with rfl | hw
            · simp only; omega
            · have := h1 w hw; omega
          · simp only [List.map_cons, List.nodup_cons]
            refine ⟨?_, h2⟩
            intro hm
            obtain ⟨w, hw, he⟩ := List.mem_map.1 hm
            have := h1 w hw
            omega
      · simp
    | _ => simp [checkStringTable]

/-- The blocks of field number `i`. -/
def Owns (i b : Nat) : Prop := b = i ∨ (1000 * (i + 1) ≤ b ∧ b < 1000 * (i + 2))

theorem copies_owned (i : Nat) (v : LuaVal) : (∀ p ∈ copies i v, Owns i p.1) ∧ ((copies i v).map (·.1)).Nodup := by
  cases v with
  | string s => simp [copies, Owns, strBlock]
  | table es =>
    obtain ⟨h1, h2⟩ := check_index (256 - 1) es 0 (by omega)
    refine ⟨?_, ?_⟩
    · intro p hp
      obtain ⟨w, hw, rfl⟩ := List.mem_map.1 hp
      have := h1 w hw
      right
      simp only [itemBlock]
      omega
    · have : (copies i (.table es)).map (·.1) = ((checkStringTable (256 - 1) 0 es).1.map (·.1)).map (itemBlock i) := by
        simp [copies, Function.comp_def]
      rw [this]
      rw [List.nodup_iff_pairwise_ne, List.pairwise_map]
      exact (List.nodup_iff_pairwise_ne.1 h2).imp fun hne he => hne (by unfold itemBlock at he; omega)
  | nil => simp [copies]
  | number n => simp [copies]
  | other => simp [copies]

/-- The field has a pointer that is freed in the end. -/
def Kept (i : Nat) (m : CStr × Ty × Bool) : Prop :=
  (m.2.1 = .string → strBlock i ∈ destroyOrder) ∧ (m.2.1 = .table → ∀ j, j < 255 → itemBlock i j ∈ destroyOrder)

theorem copies_kept {i : Nat} {m : CStr × Ty × Bool} (hk : Kept i m) {v : LuaVal} (hv : (!v.is m.2.1 && !(m.2.2 && v.isNil)) = false) :
    ∀ p ∈ copies i v, p.1 ∈ destroyOrder := by
  obtain ⟨a, t, n⟩ := m
  cases v with
  | string s =>
    intro p hp
    cases List.mem_singleton.1 hp
    cases t <;> first | exact hk.1 rfl | (simp [LuaVal.is, LuaVal.isNil] at hv)
  | table es =>
    intro p hp
    obtain ⟨w, hw, rfl⟩ := List.mem_map.1 hp
    have := (check_index (256 - 1) es 0 (by omega)).1 w hw
    cases t <;> first | exact hk.2 rfl _ (by omega) | (simp [LuaVal.is, LuaVal.isNil] at hv)
  | nil => simp [copies]
  | number n => simp [copies]
  | other => simp [copies]

/-- What is stored when the loop has come to field number `i`. -/
structure StoredOk (i : Nat) (st : Stored) : Prop where
  owned : ∀ p ∈ st, ∃ k, k < i ∧ Owns k p.1
  kept : ∀ p ∈ st, p.1 ∈ destroyOrder

/-- What is stored at the end of the loop, if it comes to an end. -/
def LoopEnd.stored : LoopEnd → Option Stored
  | .raised => none
  | .refused st => some st
  | .done st => some st

theorem loop_holds (get : CStr → Option LuaVal) (ms : List (CStr × Ty × Bool)) : ∀ (i : Nat) (st : Stored) (h : Heap), i + ms.length ≤ 15 →
    (∀ k m, ms[k]? = some m → Kept (i + k) m) → HoldsTexts st h → StoredOk i st →
    ∃ h' st', h.run (loopEv get i ms st).1 = some h' ∧ HoldsTexts st' h' ∧ StoredOk 15 st' ∧
      (∀ st'', (loopEv get i ms st).2.stored = some st'' → st'' = st') := by
  induction ms with
  | nil =>
    intro i st h hi _ hh ho
    exact ⟨h, st, rfl, hh, ⟨fun p hp => by obtain ⟨k, hk, hw⟩ := ho.owned p hp; exact ⟨k, by simp at hi; omega, hw⟩, ho.kept⟩,
      fun _ he => by cases he; rfl⟩
  | cons m ms ih =>
    intro i st h hi hk hh ho
    have wide : ∀ {st : Stored} {i : Nat}, i ≤ 15 → StoredOk i st → StoredOk 15 st := fun hi ho =>
      ⟨fun p hp => by obtain ⟨k, hk, hw⟩ := ho.owned p hp; exact ⟨k, by omega, hw⟩, ho.kept⟩
    rw [List.length_cons] at hi
    simp only [loopEv]
    cases hg : get m.1 with
    | none => exact ⟨h, st, rfl, hh, wide (by omega) ho, fun _ he => by cases he⟩
    | some v =>
      simp only
      cases hv : (!v.is m.2.1 && !(m.2.2 && v.isNil)) with
      | true => exact ⟨h, st, rfl, hh, wide (by omega) ho, fun _ he => by cases he; rfl⟩
      | false =>
        simp only [Bool.false_eq_true, if_false, fieldEv_eq]
        obtain ⟨hown, hnd⟩ := copies_owned i v
        have hkept := copies_kept (hk 0 m rfl) hv
        obtain ⟨h1, r1, hh1⟩ := holds_dups (copies i v) hh (by
          intro p hp hm
          obtain ⟨q, hq, he⟩ := List.mem_map.1 hm
          obtain ⟨k, hk', hw⟩ := ho.owned q hq
          have hw' := hown p hp
          rw [← he] at hw'
          unfold Owns at hw hw'
          omega) hnd
        have ho1 : StoredOk (i + 1) (st ++ (copies i v).map fun p => (p.1, p.2.length)) := by
          refine ⟨fun p hp => ?_, fun p hp => ?_⟩
          · rcases List.mem_append.1 hp with hp | hp
            · obtain ⟨k, hk', hw⟩ := ho.owned p hp; exact ⟨k, by omega, hw⟩
            · obtain ⟨q, hq, rfl⟩ := List.mem_map.1 hp
              exact ⟨i, by omega, hown q hq⟩
          · rcases List.mem_append.1 hp with hp | hp
            · exact ho.kept p hp
            · obtain ⟨q, hq, rfl⟩ := List.mem_map.1 hp
              exact hkept q hq
        split
        · exact ⟨h1, _, r1, hh1, wide (by omega) ho1, fun _ he => by cases he; rfl⟩
        · obtain ⟨h2, st2, r2, hh2, ho2, he2⟩ := ih (i + 1) _ h1 (by omega) (by
            intro k m' hm'
            have := hk (k + 1) m' hm'
            rwa [show i + (k + 1) = i + 1 + k by omega] at this) hh1 ho1
          refine ⟨h2, st2, ?_, hh2, ho2, he2⟩
          rw [run_append, r1]
          exact r2

theorem mask_kept (k : Nat) (m : CStr × Ty × Bool) (h : argMask[k]? = some m) : Kept (0 + k) m := by
  have hs : ∀ i, 5 ≤ i → i ≤ 10 → strBlock i ∈ destroyOrder := by
    intro i h1 h2
    apply List.mem_append_left
    obtain rfl | rfl | rfl | rfl | rfl | rfl : i = 5 ∨ i = 6 ∨ i = 7 ∨ i = 8 ∨ i = 9 ∨ i = 10 := by omega
    all_goals simp
  have ht : ∀ i, i = 11 ∨ i = 12 → ∀ j, j < 255 → itemBlock i j ∈ destroyOrder := by
    intro i hi j hj
    apply List.mem_append_right
    refine List.mem_flatMap.2 ⟨j, List.mem_range.2 (by omega), ?_⟩
    rcases hi with rfl | rfl <;> simp
  have hk : k < 15 := by
    have := (List.getElem?_eq_some_iff.1 h).1
    exact this
  rw [Nat.zero_add]
  refine ⟨fun h' => hs k ?_ ?_, fun h' => ht k ?_⟩
  all_goals
    revert h'
    revert h
    revert m
    revert hk
    revert k
    simp only [argMask]
    intro k hk m hm
    have : k = 0 ∨ k = 1 ∨ k = 2 ∨ k = 3 ∨ k = 4 ∨ k = 5 ∨ k = 6 ∨ k = 7 ∨ k = 8 ∨ k = 9 ∨ k = 10 ∨ k = 11 ∨ k = 12 ∨ k = 13 ∨ k = 14 := by omega
    rcases this with rfl | rfl | rfl | rfl | rfl | rfl | rfl | rfl | rfl | rfl | rfl | rfl | rfl | rfl | rfl <;> cases hm <;> simp

theorem use_runs {st : Stored} {h : Heap} (hh : HoldsTexts st h) (l : Stored) (hl : ∀ p ∈ l, p ∈ st) : h.run (useEv l) = some h := by
  have one : ∀ (es : List MemEv), (∀ e ∈ es, ∃ p ∈ st, ∃ j, j ≤ p.2 ∧ e = .read p.1 j 1) → h.run es = some h := by
    intro es
    induction es with
    | nil => intro _; rfl
    | cons e es ih =>
      intro he
      obtain ⟨p, hp, j, hj, rfl⟩ := he e List.mem_cons_self
      have h1 : h.step (.read p.1 j 1) = some h := by
        simp only [Heap.step]
        rw [if_pos]
        refine ⟨lookup_some ⟨(p.1, p.2 + 1), ?_, rfl⟩, hh.cells p hp j hj⟩
        rw [hh.live, List.mem_reverse]
        exact List.mem_map.2 ⟨p, hp, rfl⟩
      simp only [Heap.run, h1]
      exact ih fun e' he' => he e' (List.mem_cons_of_mem _ he')
  apply one
  intro e he
  obtain ⟨p, hp, he⟩ := List.mem_flatMap.1 he
  obtain ⟨j, hj, rfl⟩ := List.mem_map.1 he
  have := List.mem_range.1 hj
  exact ⟨p, hl p hp, j, by omega, rfl⟩

theorem free_runs (bs : List Nat) : ∀ (h : Heap), bs.Nodup → (∀ b ∈ bs, ∃ l ∈ h.live, l.1 = b) →
    ∃ h', h.run (bs.map .free) = some h' ∧ h'.live = h.live.filter fun l => !bs.contains l.1 := by
  induction bs with
  | nil => intro h _ _; exact ⟨h, rfl, (List.filter_eq_self.2 fun _ _ => rfl).symm⟩
  | cons b bs ih =>
    intro h hn hl
    rw [List.nodup_cons] at hn
    have h1 : h.step (.free b) = some ⟨h.live.filter (fun l => l.1 ≠ b), h.cells⟩ := by
      simp only [Heap.step]
      rw [if_pos (show (h.size b).isSome = true from lookup_some (hl b List.mem_cons_self))]
    obtain ⟨h', r, hl'⟩ := ih ⟨h.live.filter (fun l => l.1 ≠ b), h.cells⟩ hn.2 (by
      intro b' hb'
      obtain ⟨l, hm, he⟩ := hl b' (List.mem_cons_of_mem _ hb')
      refine ⟨l, List.mem_filter.2 ⟨hm, ?_⟩, he⟩
      have : l.1 ≠ b := by rw [he]; exact fun hc => hn.1 (hc ▸ hb')
      simpa using this)
    refine ⟨h', ?_, ?_⟩
    · simp only [List.map_cons, Heap.run, h1]
      exact r
    · rw [hl', List.filter_filter]
      apply List.filter_congr
      intro l _
      simp [Bool.and_comm]

theorem order_nodup : destroyOrder.Nodup := by decide +kernel

theorem destroy_runs {st : Stored} {h : Heap} (hh : HoldsTexts st h) (hk : ∀ p ∈ st, p.1 ∈ destroyOrder) :
    ∃ h', h.run (destroyEv st) = some h' ∧ h'.live = [] := by
  obtain ⟨h', r, hl⟩ := free_runs (destroyOrder.filter fun b => (st.map (·.1)).contains b) h (order_nodup.filter _) (by
    intro b hb
    have := (List.mem_filter.1 hb).2
    rw [List.contains_iff_mem] at this
    obtain ⟨p, hp, rfl⟩ := List.mem_map.1 this
    exact ⟨(p.1, p.2 + 1), by rw [hh.live, List.mem_reverse]; exact List.mem_map.2 ⟨p, hp, rfl⟩, rfl⟩)
  refine ⟨h', r, ?_⟩
  rw [hl, List.filter_eq_nil_iff]
  intro l hm
  rw [hh.live, List.mem_reverse] at hm
  obtain ⟨p, hp, rfl⟩ := List.mem_map.1 hm
  simp only [Bool.not_eq_true', Bool.not_eq_false, List.contains_iff_mem, List.mem_filter]
  exact ⟨hk p hp, List.mem_map_of_mem hp⟩

/-- Where the loop of a call leads. -/
theorem loop_all (get : CStr → Option LuaVal) : ∃ h st, Heap.run ⟨[], []⟩ (loopEv get 0 argMask []).1 = some h ∧ HoldsTexts st h ∧ StoredOk 15 st ∧
    (∀ st', (loopEv get 0 argMask []).2.stored = some st' → st' = st) :=
  loop_holds get argMask 0 [] ⟨[], []⟩ (by decide) mask_kept holds_nil ⟨(fun _ h => by cases h), fun _ h => by cases h⟩

/-- No access raises an error. -/
theorem loop_not_raised (get : CStr → Option LuaVal) (ms : List (CStr × Ty × Bool)) (hg : ∀ m ∈ ms, (get m.1).isSome) :
    ∀ i st, (loopEv get i ms st).2.stored.isSome := by
  induction ms with
  | nil => intro i st; rfl
  | cons m ms ih =>
    intro i st
    obtain ⟨v, hv⟩ := Option.isSome_iff_exists.1 (hg m List.mem_cons_self)
    simp only [loopEv, hv]
    split
    · rfl
    · split
      · rfl
      · exact ih (fun m' hm' => hg m' (List.mem_cons_of_mem _ hm')) _ _

/-- A loop that came to its end has refused nothing. -/
theorem loop_done (get : CStr → Option LuaVal) (ms : List (CStr × Ty × Bool)) : ∀ i st st', (loopEv get i ms st).2 = .done st' →
    ms.find? (refused fun k => (get k).getD .nil) = none := by
  induction ms with
  | nil => intro i st st' _; rfl
  | cons m ms ih =>
    intro i st st' h
    simp only [loopEv] at h
    cases hg : get m.1 with
    | none => rw [hg] at h; cases h
    | some v =>
      rw [hg] at h
      simp only at h
      split at h
      · cases h
      · split at h
        · cases h
        · rename_i hr
          rw [List.find?_cons_of_neg]
          · exact ih _ _ _ h
          · have : refused (fun k => (get k).getD .nil) m = refused (fun _ => v) m := by simp only [refused, hg, Option.getD_some]
            rw [this]; exact hr

theorem global_runs {get : CStr → LuaVal} (h : argMask.find? (refused get) = none) : ∃ c, globalJudge get = .runs c := by
  unfold globalJudge
  rw [h]
  exact ⟨_, rfl⟩

/-! ## The claims -/

/-- **C133**, for every call: the memory is used soundly.  No text is read after it was freed or before it was copied, none is freed twice. -/
theorem C133_sound (height : Nat) (table : Bool) (get : CStr → Option LuaVal) (prior : Result) (e : RunEnv) :
    Sound (callEv height table get prior e).1 := by
  obtain ⟨h, st, r, hh, ho, he⟩ := loop_all get
  have hu := use_runs hh st fun _ hp => hp
  obtain ⟨h', rd, _⟩ := destroy_runs hh ho.kept
  unfold callEv
  split
  · simp only
    cases hl : (loopEv get 0 argMask []).2 with
    | raised => exact ⟨h, r⟩
    | refused st' =>
      obtain rfl := he st' (by rw [hl]; rfl)
      exact ⟨h', by simp only; rw [run_append, r]; exact rd⟩
    | done st' =>
      obtain rfl := he st' (by rw [hl]; rfl)
      simp only
      have ru : Heap.run ⟨[], []⟩ ((loopEv get 0 argMask []).1 ++ useEv st') = some h := by rw [run_append, r]; exact hu
      split
      · exact ⟨h, r⟩
      · split
        · exact ⟨h, ru⟩
        · split
          · exact ⟨h', by rw [run_append, ru]; exact rd⟩
          · exact ⟨h, ru⟩
  · exact ⟨_, rfl⟩

/-- **C133**, the part that holds: if no access to the table raises an error, a call that is over has freed all it allocated.  Missing: tables with a
metatable (`C133_witness`). -/
theorem C133_freed_partial (height : Nat) (table : Bool) (get : CStr → Option LuaVal) (prior : Result) (e : RunEnv)
    (hg : ∀ m ∈ argMask, (get m.1).isSome)
    (hend : (callEv height table get prior e).2 = .error ∨ ∃ t, (callEv height table get prior e).2 = .returns t) :
    SoundAndFreed (callEv height table get prior e).1 := by
  obtain ⟨h, st, r, hh, ho, he⟩ := loop_all get
  have hu := use_runs hh st fun _ hp => hp
  obtain ⟨h', rd, hf⟩ := destroy_runs hh ho.kept
  have hn := loop_not_raised get argMask hg 0 []
  cases table with
  | false => exact ⟨_, rfl, rfl⟩
  | true =>
    simp only [callEv, ↓reduceIte] at hend ⊢
    cases hl : (loopEv get 0 argMask []).2 with
    | raised => rw [hl] at hn; cases hn
    | refused st' =>
      obtain rfl := he st' (by rw [hl]; rfl)
      exact ⟨h', by simp only; rw [run_append, r]; exact rd, hf⟩
    | done st' =>
      obtain rfl := he st' (by rw [hl]; rfl)
      obtain ⟨c, hc⟩ := global_runs (loop_done get argMask 0 [] st' hl)
      rw [hl, hc] at hend
      simp only at hend
      simp only [hc]
      have ru : Heap.run ⟨[], []⟩ ((loopEv get 0 argMask []).1 ++ useEv st') = some h := by rw [run_append, r]; exact hu
      split
      · rename_i hr
        rw [hr] at hend
        rcases hend with hend | ⟨_, hend⟩ <;> cases hend
      · rename_i hr
        rw [hr] at hend
        simp only at hend
        split
        · exact ⟨h', by rw [run_append, ru]; exact rd, hf⟩
        · rename_i hne
          rw [if_neg hne] at hend
          rcases hend with hend | ⟨_, hend⟩ <;> cases hend

/-- For tables without metatable the call ends as `Lua.call` says. -/
theorem C133_same_end (es es' : List (LuaVal × LuaVal)) (args : List LuaVal) (prior : Result) (e : RunEnv) (h1 : args.head? = some (.table es))
    (h2 : args.getLast? = some (.table es')) :
    (callEv args.length true (fun k => some (field es' k)) prior e).2 = call args prior e := by
  unfold callEv call
  rw [h1, h2]
  simp only [↓reduceIte]
  have hn := loop_not_raised (fun k => some (field es' k)) argMask (fun _ _ => rfl) 0 []
  cases hl : (loopEv (fun k => some (field es' k)) 0 argMask []).2 with
  | raised => rw [hl] at hn; cases hn
  | refused st =>
    cases hf : argMask.find? (refused (field es')) with
    | some m => simp [globalJudge, hf]
    | none =>
      exfalso
      have none_refused : ∀ (ms : List (CStr × Ty × Bool)) i st st', ms.find? (refused (field es')) = none →
          (loopEv (fun k => some (field es' k)) i ms st).2 ≠ .refused st' := by
        intro ms
        induction ms with
        | nil => intro i st st' _ h; cases h
        | cons m ms ih =>
          intro i st st' hf h
          rw [List.find?_eq_none] at hf
          have hm := hf m List.mem_cons_self
          simp only [loopEv] at h
          split at h
          · rename_i hc
            apply hm
            simp only [refused, hc, Bool.true_or]
          · split at h
            · rename_i hc; exact hm hc
            · exact ih _ _ _ (List.find?_eq_none.2 fun m' hm' => hf m' (List.mem_cons_of_mem _ hm')) h
      exact none_refused argMask 0 [] st hf hl
  | done st =>
    obtain ⟨c, hc⟩ := global_runs (loop_done _ argMask 0 [] st hl)
    simp only [Option.getD_some] at hc
    simp only [Option.getD_some, hc]
    split
    · rename_i hr; simp only [hr]
    · rename_i hr
      simp only [hr]
      split <;> rfl

/-- A table like `luaTable` with a metatable whose `__index` raises an error for `log_path`. -/
def raisingGet (k : CStr) : Option LuaVal := if k = c!"log_path" then none else some (luaSample 5 [(.number 1, .string c!"a")] k)

/-- The copies of `exe_path`, `input_path`, `output_path` and `error_path` are never freed. -/
theorem C133_witness (prior : Result) (e : RunEnv) : (callEv 1 true raisingGet prior e).2 = .error ∧ ¬SoundAndFreed (callEv 1 true raisingGet prior e).1 := by
  have h1 : callEv 1 true raisingGet prior e = ((loopEv raisingGet 0 argMask []).1, .error) := rfl
  rw [h1]
  refine ⟨rfl, ?_⟩
  rintro ⟨h, hr, hl⟩
  have h2 : (Heap.run ⟨[], []⟩ (loopEv raisingGet 0 argMask []).1).map (·.live.length) = some 4 := by decide +kernel
  rw [hr, Option.map_some, hl] at h2
  cases h2

/-- C133 is false of the code. -/
theorem C133_false : ¬C133_full := fun h =>
  (C133_witness (noResult 0) (sampleEnv 0)).2 ((h 1 true raisingGet (noResult 0) (sampleEnv 0)).2 (.inl (C133_witness _ _).1))

/-- Non-vacuous: a call that copies nine texts, returns and has freed them; and one that is refused after copying. -/
example : (∀ m ∈ argMask, ((fun k => some (luaSample 5 [(.number 1, .string c!"a")] k)) m.1).isSome) ∧
    (∃ t, (callEv 1 true (fun k => some (luaSample 5 [(.number 1, .string c!"a")] k)) (noResult 0) (sampleEnv 0)).2 = .returns t) ∧
    MemEv.free (itemBlock 11 0) ∈ (callEv 1 true (fun k => some (luaSample 5 [(.number 1, .string c!"a")] k)) (noResult 0) (sampleEnv 0)).1 :=
  ⟨fun _ _ => rfl, ⟨_, rfl⟩, by decide +kernel⟩

example : (callEv 1 true (fun k => some (luaSample 5 [(.number 1, .string c!"a"), (.number 2, .nil)] k)) (noResult 0) (sampleEnv 0)).2 = .error ∧
    MemEv.free (itemBlock 11 0) ∈ (callEv 1 true (fun k => some (luaSample 5 [(.number 1, .string c!"a"), (.number 2, .nil)] k)) (noResult 0) (sampleEnv 0)).1 :=
  ⟨rfl, by decide +kernel⟩

/-! ### Exactly where it holds -/

/-- Reading this value copies a text: it is a string, or a table that is not empty. -/
def HoldsText : LuaVal → Prop
  | .string _ => True
  | .table es => es ≠ []
  | _ => False

/-- The field can be read and is accepted. -/
def Accepted (get : CStr → Option LuaVal) (m : CStr × Ty × Bool) : Prop := ∃ v, get m.1 = some v ∧ refused (fun _ => v) m = false

/-- Reading a field raises an error after all fields before it were accepted, and one of those before it holds a text. -/
def RaisesLate (get : CStr → Option LuaVal) : Prop := ∃ pre m post, argMask = pre ++ m :: post ∧ get m.1 = none ∧ (∀ x ∈ pre, Accepted get x) ∧
  ∃ x ∈ pre, ∃ v, get x.1 = some v ∧ HoldsText v

theorem copies_none {i : Nat} {v : LuaVal} (h : ¬HoldsText v) : copies i v = [] := by
  cases v with
  | string s => exact absurd trivial h
  | table es =>
    obtain rfl : es = [] := Decidable.byContradiction h
    rfl
  | nil => rfl
  | number n => rfl
  | other => rfl

theorem copies_some {i : Nat} {v : LuaVal} {m : CStr × Ty × Bool} (h : HoldsText v) (hr : refused (fun _ => v) m = false) : copies i v ≠ [] := by
  cases v with
  | string s => exact List.cons_ne_nil _ _
  | table es =>
    cases es with
    | nil => exact absurd rfl h
    | cons e es =>
      obtain ⟨k, x⟩ := e
      simp only [refused, Bool.or_eq_false_iff] at hr
      have h2 := hr.2
      cases x with
      | string s =>
        simp only [tableStores, checkStringTable] at h2
        simp only [copies, checkStringTable]
        by_cases hk : k.is .number = true
        · simp [hk]
        · simp [hk] at h2
      | _ => simp [tableStores, checkStringTable] at h2
  | nil => exact absurd h id
  | number n => exact absurd h id
  | other => exact absurd h id

theorem loop_late (get : CStr → Option LuaVal) (m : CStr × Ty × Bool) (post : List (CStr × Ty × Bool)) (hm : get m.1 = none) (pre : List (CStr × Ty × Bool))
    (hp : ∀ x ∈ pre, Accepted get x) : ∀ i st, (loopEv get i (pre ++ m :: post) st).2 = .raised ∧
      (∀ e ∈ (loopEv get i (pre ++ m :: post) st).1, ∀ b, e ≠ .free b) ∧
      ((∃ x ∈ pre, ∃ v, get x.1 = some v ∧ HoldsText v) → ∃ b n, .alloc b n ∈ (loopEv get i (pre ++ m :: post) st).1) ∧
      (¬(∃ x ∈ pre, ∃ v, get x.1 = some v ∧ HoldsText v) → (loopEv get i (pre ++ m :: post) st).1 = []) := by
  induction pre with
  | nil =>
    intro i st
    simp [loopEv, hm]
  | cons x pre ih =>
    intro i st
    obtain ⟨v, hv, hr⟩ := hp x List.mem_cons_self
    have h1 : (!v.is x.2.1 && !(x.2.2 && v.isNil)) = false := by
      simp only [refused, Bool.or_eq_false_iff] at hr
      exact hr.1
    have he : loopEv get i (x :: pre ++ m :: post) st =
        ((fieldEv i v).1 ++ (loopEv get (i + 1) (pre ++ m :: post) (st ++ (fieldEv i v).2)).1,
          (loopEv get (i + 1) (pre ++ m :: post) (st ++ (fieldEv i v).2)).2) := by
      simp only [List.cons_append, loopEv, hv, h1, hr, Bool.false_eq_true, if_false]
    obtain ⟨a1, a2, a3, a4⟩ := ih (fun y hy => hp y (List.mem_cons_of_mem _ hy)) (i + 1) (st ++ (fieldEv i v).2)
    rw [he]
    refine ⟨a1, ?_, ?_, ?_⟩
    · intro e hm' b
      rcases List.mem_append.1 hm' with h | h
      · rw [fieldEv_eq] at h
        obtain ⟨p, _, h⟩ := List.mem_flatMap.1 h
        rcases List.mem_cons.1 h with rfl | h
        · exact fun hc => by cases hc
        · obtain ⟨j, _, rfl⟩ := List.mem_map.1 h
          exact fun hc => by cases hc
      · exact a2 e h b
    · rintro ⟨y, hy, w, hw, ht⟩
      rcases List.mem_cons.1 hy with rfl | hy
      · obtain rfl : v = w := Option.some.inj (hv.symm.trans hw)
        obtain ⟨p, l, hc⟩ := List.exists_cons_of_ne_nil (copies_some (i := i) ht hr)
        refine ⟨p.1, p.2.length + 1, List.mem_append_left _ ?_⟩
        rw [fieldEv_eq, hc]
        exact List.mem_cons_self
      · obtain ⟨b, n, h⟩ := a3 ⟨y, hy, w, hw, ht⟩
        exact ⟨b, n, List.mem_append_right _ h⟩
    · intro hn
      have h2 : copies i v = [] := copies_none fun ht => hn ⟨x, List.mem_cons_self, v, hv, ht⟩
      have h3 := a4 fun ⟨y, hy, w, hw⟩ => hn ⟨y, List.mem_cons_of_mem _ hy, w, hw⟩
      have h4 : (fieldEv i v).1 = [] := by rw [fieldEv_eq, h2]; rfl
      show (fieldEv i v).1 ++ _ = []
      rw [h3, h4]
      rfl

theorem loop_raised (get : CStr → Option LuaVal) (ms : List (CStr × Ty × Bool)) : ∀ i st, (loopEv get i ms st).2 = .raised →
    ∃ pre m post, ms = pre ++ m :: post ∧ get m.1 = none ∧ ∀ x ∈ pre, Accepted get x := by
  induction ms with
  | nil => intro i st h; cases h
  | cons m ms ih =>
    intro i st h
    simp only [loopEv] at h
    cases hg : get m.1 with
    | none => exact ⟨[], m, ms, rfl, hg, fun _ h => by cases h⟩
    | some v =>
      rw [hg] at h
      simp only at h
      split at h
      · cases h
      · split at h
        · cases h
        · rename_i hr
          obtain ⟨pre, m', post, rfl, h1, h2⟩ := ih _ _ h
          refine ⟨m :: pre, m', post, rfl, h1, fun x hx => ?_⟩
          rcases List.mem_cons.1 hx with rfl | hx
          · exact ⟨v, hg, Bool.eq_false_iff.2 hr⟩
          · exact h2 x hx

/-- What is allocated and not freed stays. -/
theorem run_stays (es : List MemEv) : ∀ (h h' : Heap), (∀ e ∈ es, ∀ b, e ≠ .free b) → h.run es = some h' →
    (h.live ≠ [] ∨ ∃ b n, MemEv.alloc b n ∈ es) → h'.live ≠ [] := by
  induction es with
  | nil =>
    intro h h' _ hr hl
    cases hr
    rcases hl with hl | ⟨_, _, hl⟩
    · exact hl
    · cases hl
  | cons e es ih =>
    intro h h' hf hr hl
    simp only [Heap.run] at hr
    cases hs : h.step e with
    | none => rw [hs] at hr; cases hr
    | some h1 =>
      rw [hs] at hr
      refine ih h1 h' (fun e' he' => hf e' (List.mem_cons_of_mem _ he')) hr ?_
      have hne := hf e List.mem_cons_self
      cases e with
      | free b => exact absurd rfl (hne b)
      | alloc b n =>
        left
        simp only [Heap.step] at hs
        split at hs <;> cases hs <;> exact List.cons_ne_nil _ _
      | _ =>
        rcases hl with hl | ⟨b, n, hm⟩
        · left
          simp only [Heap.step] at hs
          split at hs <;> first | (cases hs; done) | (cases hs; exact hl) | (split at hs <;> cases hs <;> exact hl)
        · right
          rcases List.mem_cons.1 hm with hm | hm
          · cases hm
          · exact ⟨b, n, hm⟩

/-- **C133**, settled: a call that is over has freed all it allocated exactly if reading the table did not raise an error after a text was copied. -/
theorem C133_exact (height : Nat) (table : Bool) (get : CStr → Option LuaVal) (prior : Result) (e : RunEnv)
    (hend : (callEv height table get prior e).2 = .error ∨ ∃ t, (callEv height table get prior e).2 = .returns t) :
    SoundAndFreed (callEv height table get prior e).1 ↔ ¬(table = true ∧ RaisesLate get) := by
  obtain ⟨h, st, r, hh, ho, he⟩ := loop_all get
  have hu := use_runs hh st fun _ hp => hp
  obtain ⟨h', rd, hf⟩ := destroy_runs hh ho.kept
  cases table with
  | false => exact ⟨fun _ hc => (by cases hc.1), fun _ => ⟨_, rfl, rfl⟩⟩
  | true =>
    have late : RaisesLate get → (loopEv get 0 argMask []).2 = .raised := by
      rintro ⟨pre, m, post, hm, h1, h2, _⟩
      rw [hm]
      exact (loop_late get m post h1 pre h2 0 []).1
    simp only [callEv, ↓reduceIte] at hend ⊢
    cases hl : (loopEv get 0 argMask []).2 with
    | raised =>
      simp only
      constructor
      · rintro ⟨h1, r1, l1⟩ ⟨_, pre, m, post, hm, h2, h3, h4⟩
        rw [hm] at r1
        obtain ⟨_, b1, b2, _⟩ := loop_late get m post h2 pre h3 0 []
        exact run_stays _ _ _ b1 r1 (.inr (b2 h4)) l1
      · intro hn
        obtain ⟨pre, m, post, hm, h2, h3⟩ := loop_raised get argMask 0 [] hl
        have h4 := (loop_late get m post h2 pre h3 0 []).2.2.2 fun h4 => hn ⟨trivial, pre, m, post, hm, h2, h3, h4⟩
        rw [hm, h4]
        exact ⟨_, rfl, rfl⟩
    | refused st' =>
      obtain rfl := he st' (by rw [hl]; rfl)
      refine ⟨fun _ hc => ?_, fun _ => ⟨h', by simp only; rw [run_append, r]; exact rd, hf⟩⟩
      rw [late hc.2] at hl; cases hl
    | done st' =>
      obtain rfl := he st' (by rw [hl]; rfl)
      refine ⟨fun _ hc => ?_, fun _ => ?_⟩
      · rw [late hc.2] at hl; cases hl
      obtain ⟨c, hc⟩ := global_runs (loop_done get argMask 0 [] st' hl)
      rw [hl, hc] at hend
      simp only at hend
      simp only [hc]
      have ru : Heap.run ⟨[], []⟩ ((loopEv get 0 argMask []).1 ++ useEv st') = some h := by rw [run_append, r]; exact hu
      split
      · rename_i hr
        rw [hr] at hend
        rcases hend with hend | ⟨_, hend⟩ <;> cases hend
      · rename_i hr
        rw [hr] at hend
        simp only at hend
        split
        · exact ⟨h', by rw [run_append, ru]; exact rd, hf⟩
        · rename_i hne
          rw [if_neg hne] at hend
          rcases hend with hend | ⟨_, hend⟩ <;> cases hend

/-- Non-vacuous: a call that is over and leaks, and one that is over with an error raised before anything was copied. -/
example : (callEv 1 true raisingGet (noResult 0) (sampleEnv 0)).2 = .error ∧ RaisesLate raisingGet :=
  ⟨rfl, Classical.byContradiction fun hn =>
    (C133_witness (noResult 0) (sampleEnv 0)).2 ((C133_exact 1 true raisingGet (noResult 0) (sampleEnv 0) (.inl rfl)).2 fun h => hn h.2)⟩

example (prior : Result) (e : RunEnv) : (callEv 1 true (fun _ => none) prior e).2 = .error ∧ SoundAndFreed (callEv 1 true (fun _ => none) prior e).1 :=
  ⟨rfl, _, rfl, rfl⟩

end Judger.Lua
