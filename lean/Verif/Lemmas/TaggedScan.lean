import Verif.Lemmas.Tagged

/-! # The loop of `arg_parse_tagged` as a whole -/

set_option autoImplicit false

namespace Judger

variable {posix : Bool} {max : Nat} {table : List ArgEntry} {argc : Nat}

/-- The state after a positional word has been skipped. -/
def skipState (p : PState) : PState :=
  { p with g := { noteNonOption { p.g with optarg := none } with place := [], optind := p.g.optind + 1 } }

theorem skip_ready {p : PState} {w ws pos} (h : AtWord argc p.g) (hi : Inv p.g (w :: ws) pos) :
    AtWord argc (skipState p).g ∧ Inv (skipState p).g ws (pos ++ [w]) ∧ (skipState p).g.place = [] ∧
      (skipState p).g.optarg = none := by
  have hi' : Inv { p.g with optarg := none } (w :: ws) pos := hi.congr rfl rfl rfl rfl
  have h2 := noteNonOption_inv hi' []
  refine ⟨⟨?_, by simp [skipState], ?_⟩, h2, rfl, ?_⟩
  · have l1 := hi.length
    have l2 := h2.length
    have : (skipState p).g.argv.length = p.g.argv.length := by
      simp only [skipState] at *
      simp at l1 l2
      omega
    rw [this]; exact h.len
  · simp only [skipState, noteNonOption]
    split
    · exact h.reset
    · simp only [permuted]; split <;> exact h.reset
    · exact h.reset
  · simp only [skipState, noteNonOption]
    split
    · rfl
    · simp only [permuted]; split <;> rfl
    · rfl

theorem tagged_congr {p q : PState} (hs : p.slots = q.slots) (he : p.errs = q.errs)
    (hf : fetchWord argc (!posix) (beginCall p.g) = fetchWord argc (!posix) (beginCall q.g)) (fuel : Nat) :
    tagged posix max table argc fuel p = tagged posix max table argc fuel q := by
  cases fuel with
  | zero => rfl
  | succ n =>
    have : taggedStep posix max table argc p = taggedStep posix max table argc q := by
      unfold taggedStep getoptLong
      rw [hf, hs, he]
    rw [tagged, tagged, this]

theorem tagged_skip {p : PState} {w ws pos} (h : AtWord argc p.g) (hp : p.g.place = []) (hi : Inv p.g (w :: ws) pos)
    (hposix : posix = false) (hw : w.head? ≠ some '-' ∨ w.tail = []) (fuel : Nat) :
    tagged posix max table argc fuel p = tagged posix max table argc fuel (skipState p) := by
  obtain ⟨h1, _, h3, h4⟩ := skip_ready h hi
  refine tagged_congr (p := p) (q := skipState p) rfl rfl ?_ fuel
  rw [fetch_fresh h hp, fetch_fresh h1 h3]
  have hi' : Inv { p.g with optarg := none } (w :: ws) pos := hi.congr rfl rfl rfl rfl
  have hl := hi'.length
  rw [nextWord, if_neg (by have := h.len; simp at hl ⊢; omega)]
  simp only [hi'.get, Option.getD_some]
  rw [if_pos hw, if_pos (by simp [hposix])]
  congr 1
  have : ({ (skipState p).g with optarg := none } : GState) = (skipState p).g := by
    rw [← h4]
  rw [this]
  rfl

/-- More calls do not change a finished parse. -/
theorem tagged_mono {p p' : PState} {n : Nat} (h : tagged posix max table argc n p = some p') (m : Nat) :
    tagged posix max table argc (n + m) p = some p' := by
  induction n generalizing p with
  | zero => simp [tagged] at h
  | succ n ih =>
    rw [show n + 1 + m = (n + m) + 1 by omega, tagged]
    rw [tagged] at h
    cases hs : taggedStep posix max table argc p with
    | inl q => rw [hs] at h; exact ih h
    | inr q => rw [hs] at h; exact h

theorem tagged_none_of {p q : PState} {k : Nat}
    (h : ∀ fuel, tagged posix max table argc (fuel + k) p = tagged posix max table argc fuel q)
    (hq : ∀ fuel, tagged posix max table argc fuel q = none) (fuel : Nat) :
    tagged posix max table argc fuel p = none := by
  cases hp : tagged posix max table argc fuel p with
  | none => rfl
  | some r =>
    have := tagged_mono hp k
    rw [h, hq] at this
    simp at this

/-- The complete description of `arg_parse_tagged`. -/
theorem tagged_scan (hs : shortOptions table = [':']) (n : Nat) :
    ∀ (ws : List CStr), ws.length ≤ n → ∀ (p : PState) (pos : List CStr), AtWord argc p.g → p.g.place = [] →
      Inv p.g ws pos → (posix = true → pos = []) →
      match scanWords posix (longOptions table 0) ws with
      | none => ∀ fuel, tagged posix max table argc fuel p = none
      | some (evs, rest) => ∃ k p', (∀ fuel, tagged posix max table argc (fuel + k) p = some p') ∧
          (p'.slots, p'.errs) = evs.foldl (applyEv max table) (p.slots, p.errs) ∧
          Finished argc p'.g (pos ++ rest) := by
  induction n with
  | zero =>
    intro ws hws p pos hr hp hi hpos
    have : ws = [] := List.length_eq_zero_iff.mp (Nat.le_zero.mp hws)
    subst this
    simp only [scanWords]
    refine ⟨1, { p with g := endOfWords { p.g with optarg := none } }, fun fuel => ?_, rfl, ?_⟩
    · apply tagged_ret
      rw [fetch_fresh hr hp, nextWord, if_pos (by have := hi.length; have := hr.len; simp at *; omega)]
    · have := endOfWords_finished (g := { p.g with optarg := none }) (pos := pos) (hi.congr rfl rfl rfl rfl)
      simp only [hr.len] at this
      simpa using this
  | succ n ih =>
    intro ws hws p pos hr hp hi hpos
    cases ws with
    | nil => exact (by
        have := ih [] (by simp) p pos hr hp hi hpos
        exact this)
    | cons w ws =>
      rw [scanWords.eq_2]
      by_cases hnon : w.head? ≠ some '-' ∨ w.tail = []
      · simp only [if_pos hnon]
        cases hpx : posix with
        | true =>
          have := hpos hpx
          subst this
          simp only [if_true]
          refine ⟨1, { p with g := { p.g with optarg := none, place := [] } }, fun fuel => ?_, rfl, ?_⟩
          · rw [← hpx]
            apply tagged_ret
            rw [fetch_fresh hr hp]
            have hi' : Inv { p.g with optarg := none } (w :: ws) [] := hi.congr rfl rfl rfl rfl
            have hl := hi'.length
            rw [nextWord, if_neg (by have := hr.len; simp at hl ⊢; omega)]
            simp only [hi'.get, Option.getD_some]
            rw [if_pos hnon, if_neg (by simp [hpx])]
          · refine ⟨?_, hr.len⟩
            simpa using hi.drop
        | false =>
          obtain ⟨h1, h2, h3, _⟩ := skip_ready hr hi
          have := ih ws (by simp at hws; omega) (skipState p) (pos ++ [w]) h1 h3 h2 (by simp [hpx])
          rw [hpx] at this
          simp only [Bool.false_eq_true, if_false]
          cases hsw : scanWords false (longOptions table 0) ws with
          | none =>
            rw [hsw] at this
            simp only [Option.map_none]
            intro fuel
            rw [tagged_skip hr hp hi rfl hnon fuel]
            exact this fuel
          | some r =>
            obtain ⟨evs, rest⟩ := r
            rw [hsw] at this
            simp only [Option.map_some]
            obtain ⟨k, p', a, b, c⟩ := this
            refine ⟨k, p', fun fuel => ?_, b, ?_⟩
            · rw [tagged_skip hr hp hi rfl hnon (fuel + k)]
              exact a fuel
            · simpa using c
      · simp only [if_neg hnon]
        by_cases hdd : w.tail = ['-']
        · simp only [if_pos hdd]
          have hi' : Inv { p.g with optarg := none } (w :: ws) pos := hi.congr rfl rfl rfl rfl
          have hio := noteOption_inv hi'
          refine ⟨1, { p with g := dashDash (noteOption { p.g with optarg := none }) }, fun fuel => ?_, rfl, ?_⟩
          · apply tagged_ret
            rw [fetch_fresh hr hp]
            have hl := hi'.length
            rw [nextWord, if_neg (by have := hr.len; simp at hl ⊢; omega)]
            simp only [hi'.get, Option.getD_some]
            rw [if_neg hnon, if_pos hdd]
          · have := dashDash_finished hio
            have hlen : (noteOption { p.g with optarg := none }).argv.length = argc := by
              simp only [noteOption]; split <;> exact hr.len
            rw [hlen] at this
            exact this
        · simp only [if_neg hdd]
          have hw : IsOptWord w := ⟨hnon, hdd⟩
          obtain ⟨g', i1, i2, i3, i4, i5⟩ := tagged_option (posix := posix) (max := max) (table := table) hr hp (.inl hi) hw
          have htail : w.tail ≠ [] := fun h => hnon (Or.inr h)
          have hcl := cluster_run (posix := posix) (max := max) hs w ws pos w.tail { p with g := g' } i3 htail i2 i1 i4
          cases hc : (cluster w.tail).2 with
          | hang =>
            simp only
            intro fuel
            cases fuel with
            | zero => rfl
            | succ m =>
              rw [i5 m]
              exact hang_run hs w ws pos hw hc m _ w.tail hc i3 i2 i1
          | stop =>
            rw [hc] at hcl
            obtain ⟨k, p1, a1, a2, a3, a4, a5⟩ := hcl
            have := ih ws (by simp at hws; omega) p1 pos a2 a4 a3 hpos
            simp only
            cases hsw : scanWords posix (longOptions table 0) ws with
            | none =>
              rw [hsw] at this
              simp only [Option.map_none]
              exact tagged_none_of (k := k + 1) (fun fuel => by rw [← Nat.add_assoc, i5, a1]) this
            | some r =>
              obtain ⟨evs, rest⟩ := r
              rw [hsw] at this
              simp only [Option.map_some]
              obtain ⟨k', p', b1, b2, b3⟩ := this
              refine ⟨k' + (k + 1), p', fun fuel => ?_, ?_, b3⟩
              · rw [show fuel + (k' + (k + 1)) = (fuel + k' + k) + 1 by omega, i5, a1, b1]
              · rw [b2, a5, List.foldl_append]
          | long body =>
            rw [hc] at hcl
            obtain ⟨k, p1, a1, a2, a3, a4, a5, a6, a7⟩ := hcl
            simp only
            -- one-word and two-word forms
            have one : ∀ (u : Ev),
                (match longUse (longOptions table 0) body with
                  | .bad => u = .badLong w
                  | .flag o => u = .opt o.val none w
                  | .inline o v => u = .opt o.val (some v) w
                  | .next _ => ws = [] ∧ u = .missing w) →
                match (scanWords posix (longOptions table 0) ws).map fun r => ((cluster w.tail).1 ++ u :: r.1, r.2) with
                | none => ∀ fuel, tagged posix max table argc fuel p = none
                | some (evs, rest) => ∃ k p', (∀ fuel, tagged posix max table argc (fuel + k) p = some p') ∧
                    (p'.slots, p'.errs) = evs.foldl (applyEv max table) (p.slots, p.errs) ∧
                    Finished argc p'.g (pos ++ rest) := by
              intro u hu
              obtain ⟨p2, c1, c2, c3, c4, c5⟩ := long_one (posix := posix) (max := max) a2 a3 a4 a5 a6 hu
              have := ih ws (by simp at hws; omega) p2 pos c2 c4 c3 hpos
              cases hsw : scanWords posix (longOptions table 0) ws with
              | none =>
                rw [hsw] at this
                simp only [Option.map_none]
                exact tagged_none_of (k := k + 1) (fun fuel => by rw [← Nat.add_assoc, i5, a1, c1]) this
              | some r =>
                obtain ⟨evs, rest⟩ := r
                rw [hsw] at this
                simp only [Option.map_some]
                obtain ⟨k', p', b1, b2, b3⟩ := this
                refine ⟨k' + (k + 1), p', fun fuel => ?_, ?_, b3⟩
                · rw [show fuel + (k' + (k + 1)) = (fuel + k' + k) + 1 by omega, i5, a1, c1, b1]
                · rw [b2, c5, a7, List.foldl_append, List.foldl_cons]
            cases hl : longUse (longOptions table 0) body with
            | bad => simpa only [hl] using one (.badLong w) (by rw [hl])
            | flag o => simpa only [hl] using one (.opt o.val none w) (by rw [hl])
            | inline o v => simpa only [hl] using one (.opt o.val (some v) w) (by rw [hl])
            | next o =>
              cases ws with
              | nil => simpa [scanWords] using one (.missing w) (by rw [hl]; exact ⟨rfl, rfl⟩)
              | cons v ws =>
                simp only
                obtain ⟨p2, c1, c2, c3, c4, c5⟩ := long_two (posix := posix) (max := max) a2 a3 a4 a5 a6 hl
                have := ih ws (by simp at hws; omega) p2 pos c2 c4 c3 hpos
                cases hsw : scanWords posix (longOptions table 0) ws with
                | none =>
                  rw [hsw] at this
                  simp only [Option.map_none]
                  exact tagged_none_of (k := k + 1) (fun fuel => by rw [← Nat.add_assoc, i5, a1, c1]) this
                | some r =>
                  obtain ⟨evs, rest⟩ := r
                  rw [hsw] at this
                  simp only [Option.map_some]
                  obtain ⟨k', p', b1, b2, b3⟩ := this
                  refine ⟨k' + (k + 1), p', fun fuel => ?_, ?_, b3⟩
                  · rw [show fuel + (k' + (k + 1)) = (fuel + k' + k) + 1 by omega, i5, a1, c1, b1]
                  · rw [b2, c5, a7, List.foldl_append, List.foldl_cons]

/-- The values and error rows after getopt has reported `evs` and left the positional words `rest`. -/
def parseResult (max : Nat) (table : List ArgEntry) (evs : List Ev) (rest : List CStr) : (Nat → Slot) × List ErrRec :=
  let q := evs.foldl (applyEv max table) ((fun _ => {}), [])
  let errs := rejectRest max rest q.2
  (q.1, if errs = [] then parseCheck max q.1 table 0 [] else errs)

/-- The complete description of `arg_parse`. -/
theorem argParse_scan (hs : shortOptions table = [':']) (a : CStr) (ws : List CStr) :
    match scanWords posix (longOptions table 0) ws with
    | none => ∀ fuel, argParse posix max table (a :: ws) fuel = none
    | some (evs, rest) => ∃ k, ∀ fuel, argParse posix max table (a :: ws) (fuel + k) = some (parseResult max table evs rest) := by
  let p0 : PState := startState (a :: ws)
  let p1 : PState := { p0 with g := { p0.g with optind := 1 } }
  have hr : AtWord (a :: ws).length p1.g := ⟨rfl, by simp [p1], rfl⟩
  have hi : Inv p1.g ws [] := .fresh _ [a] ws rfl rfl rfl rfl
  have hstart : ∀ fuel, tagged posix max table (a :: ws).length fuel (startState (a :: ws)) =
      tagged posix max table (a :: ws).length fuel p1 := by
    intro fuel
    refine tagged_congr (p := startState (a :: ws)) (q := p1) rfl rfl ?_ fuel
    rw [beginCall_ready hr]
    simp [beginCall, startState, fetchWord, p1, p0]
  have := tagged_scan (posix := posix) (max := max) hs ws.length ws (Nat.le_refl _) p1 [] hr rfl hi (fun _ => rfl)
  cases hsw : scanWords posix (longOptions table 0) ws with
  | none =>
    rw [hsw] at this
    simp only at this ⊢
    intro fuel
    unfold argParse
    rw [if_neg (by simp), hstart, this fuel]
  | some r =>
    obtain ⟨evs, rest⟩ := r
    rw [hsw] at this
    simp only at this ⊢
    obtain ⟨k, p', h1, h2, h3⟩ := this
    refine ⟨k, fun fuel => ?_⟩
    have hun : (untagged max (a :: ws).length p').slots = p'.slots ∧
        (untagged max (a :: ws).length p').errs = rejectRest max rest p'.errs := by
      have hrest : p'.g.argv.drop p'.g.optind = rest := by simpa using h3.rest
      unfold untagged
      split
      · rename_i hle
        have : rest = [] := by
          rw [← hrest]; apply List.drop_eq_nil_of_le; rw [h3.len]; exact hle
        subst this
        exact ⟨rfl, rfl⟩
      · exact ⟨rfl, by simp [hrest]⟩
    have h2' : p'.slots = (evs.foldl (applyEv max table) ((fun _ => {}), [])).1 ∧
        p'.errs = (evs.foldl (applyEv max table) ((fun _ => {}), [])).2 := by
      have : (p1.slots, p1.errs) = ((fun _ => {}), []) := rfl
      rw [this] at h2
      rw [← h2]; exact ⟨rfl, rfl⟩
    unfold argParse
    rw [if_neg (by simp), hstart, h1]
    simp only [hun.1, hun.2, parseResult, h2'.1, h2'.2]
    split
    · rename_i h; rw [h]
    · rfl

end Judger
