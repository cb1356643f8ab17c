import Verif.Lemmas.Tagged

/-! # Every state getopt reaches: the words are only reordered, and the indices stay inside the vector -/

set_option autoImplicit false

namespace Judger

/-- Cutting a vector into the two blocks and what surrounds them. -/
theorem permuteArgs_perm {s e o : Nat} {argv : List CStr} (h1 : s ≤ e) (h2 : e < o) (h3 : o ≤ argv.length) :
    ∃ w, permuteArgs s e o argv = some w ∧ w.Perm argv := by
  obtain ⟨A, P, B, R, rfl, rfl, rfl, rfl⟩ : ∃ A P B R : List CStr, argv = A ++ (P ++ (B ++ R)) ∧ s = A.length ∧
      e = A.length + P.length ∧ o = A.length + P.length + B.length := by
    refine ⟨argv.take s, (argv.drop s).take (e - s), (argv.drop e).take (o - e), argv.drop o, ?_, ?_, ?_, ?_⟩
    · have e1 : argv.drop e = (argv.drop e).take (o - e) ++ argv.drop o := by
        have := (List.take_append_drop (o - e) (argv.drop e)).symm
        rwa [List.drop_drop, show e + (o - e) = o by omega] at this
      have e2 : argv.drop s = (argv.drop s).take (e - s) ++ argv.drop e := by
        have := (List.take_append_drop (e - s) (argv.drop s)).symm
        rwa [List.drop_drop, show s + (e - s) = e by omega] at this
      rw [← e1, ← e2, List.take_append_drop]
    · simp; omega
    · simp; omega
    · simp; omega
  have hB : B ≠ [] := by rintro rfl; simp at h2
  refine ⟨_, permuteArgs_blocks A P B R hB, ?_⟩
  refine List.Perm.append_left A ?_
  rw [← List.append_assoc, ← List.append_assoc]
  exact List.Perm.append_right R List.perm_append_comm

/-- The invariant: the words are those of the command line in some order, no fault so far, and the recorded block of positional
words lies before `optind`; where it ends at `optind`, an option word follows. -/
structure Safe (argv : List CStr) (g : GState) : Prop where
  perm : g.argv.Perm argv
  ok : g.fault = false
  low : g.optind ≠ 0
  high : g.optind ≤ argv.length
  inWord : g.place ≠ [] → g.optind < argv.length
  opened : ∀ s, g.nonoptStart = some s → g.nonoptEnd = none → 0 < s ∧ s < g.optind
  closed : ∀ e, g.nonoptEnd = some e → ∃ s, g.nonoptStart = some s ∧ 0 < s ∧ s < e ∧ e ≤ g.optind ∧
    (e = g.optind → IsOptWord (g.argv[g.optind]?.getD []))

variable {argv : List CStr}

/-- The fields the invariant looks at. -/
theorem Safe.congr {g g' : GState} (h : Safe argv g) (h1 : g'.argv = g.argv) (h2 : g'.optind = g.optind)
    (h3 : g'.nonoptStart = g.nonoptStart) (h4 : g'.nonoptEnd = g.nonoptEnd) (h5 : g'.fault = g.fault)
    (h6 : g'.place = g.place ∨ g'.place = [] ∨ g.place ≠ []) : Safe argv g' := by
  refine ⟨h1 ▸ h.perm, h5 ▸ h.ok, h2 ▸ h.low, h2 ▸ h.high, ?_, ?_, ?_⟩
  · intro hp
    rw [h2]
    rcases h6 with h6 | h6 | h6
    · exact h.inWord (h6 ▸ hp)
    · exact absurd h6 hp
    · exact h.inWord h6
  · rw [h2, h3, h4]; exact h.opened
  · rw [h1, h2, h3, h4]; exact h.closed

/-- Moving on by one or more words. -/
theorem Safe.step {g g' : GState} (h : Safe argv g) (h1 : g'.argv = g.argv) (h2 : g.optind < g'.optind)
    (h3 : g'.nonoptStart = g.nonoptStart) (h4 : g'.nonoptEnd = g.nonoptEnd) (h5 : g'.fault = g.fault)
    (h6 : g'.place = []) (h7 : g'.optind ≤ argv.length) : Safe argv g' := by
  refine ⟨h1 ▸ h.perm, h5 ▸ h.ok, by omega, h7, fun hp => absurd h6 hp, ?_, ?_⟩
  · rw [h3, h4]
    intro s hs he
    have := h.opened s hs he
    omega
  · rw [h3, h4]
    intro e he
    obtain ⟨s, a, z, b, c, _⟩ := h.closed e he
    exact ⟨s, a, z, b, by omega, fun _ => by omega⟩

theorem permuted_safe {g : GState} {s e o : Nat} (hp : g.argv.Perm argv) (h1 : s ≤ e) (h2 : e < o) (h3 : o ≤ argv.length) :
    ∃ w : List CStr, w.Perm argv ∧ permuted s e o g = { g with argv := w } := by
  obtain ⟨w, a, b⟩ := permuteArgs_perm h1 h2 (hp.length_eq ▸ h3)
  exact ⟨w, b.trans hp, by rw [permuted, a]⟩

/-- With the record of positional words cleared. -/
theorem Safe.cleared {g : GState} (h1 : g.argv.Perm argv) (h2 : g.fault = false) (h3 : g.optind ≠ 0) (h4 : g.optind ≤ argv.length)
    (h5 : g.place = []) (h6 : g.nonoptStart = none) (h7 : g.nonoptEnd = none) : Safe argv g :=
  ⟨h1, h2, h3, h4, fun hp => absurd h5 hp, by rw [h6]; intro s hs; simp at hs, by rw [h7]; intro e he; simp at he⟩

theorem endOfWords_safe {g : GState} (h : Safe argv g) (he : argv.length ≤ g.optind) : Safe argv (endOfWords g) := by
  unfold endOfWords
  split
  · rename_i s e hs hend
    obtain ⟨s', a, z, b, c, d⟩ := h.closed e hend
    rw [hs] at a
    cases a
    have hlt : e < g.optind := by
      rcases Nat.lt_or_ge e g.optind with hlt | hge
      · exact hlt
      · have := d (by omega)
        rw [List.getElem?_eq_none (by rw [h.perm.length_eq]; exact he)] at this
        exact absurd (Or.inr rfl) this.1
    obtain ⟨w, hw, hw2⟩ := permuted_safe (g := g) h.perm (Nat.le_of_lt b) hlt h.high
    rw [hw2]
    have := h.high
    exact .cleared hw h.ok (by simp; omega) (by simp; omega) rfl rfl rfl
  · rename_i s hs hend
    have := h.opened s hs hend
    have := h.high
    exact .cleared h.perm h.ok (by simp; omega) (by simp; omega) rfl rfl rfl
  · exact .cleared h.perm h.ok h.low h.high rfl rfl rfl

/-- Skipping a positional word. -/
theorem skip_safe {g : GState} (h : Safe argv g) (hlt : g.optind < argv.length)
    (hw : ¬ IsOptWord (g.argv[g.optind]?.getD [])) :
    Safe argv { noteNonOption g with place := [], optind := g.optind + 1 } := by
  unfold noteNonOption
  have hlow := h.low
  split
  · rename_i hs
    refine ⟨h.perm, h.ok, by simp, by simp; omega, fun hp => absurd rfl hp, ?_, ?_⟩
    · intro s hs' _
      simp at hs' ⊢
      omega
    · intro e he
      obtain ⟨s, a, _⟩ := h.closed e he
      rw [hs] at a; simp at a
  · rename_i s e hs hend
    obtain ⟨s', a, z, b, c, d⟩ := h.closed e hend
    rw [hs] at a
    cases a
    have hlt' : e < g.optind := by
      rcases Nat.lt_or_ge e g.optind with hl | hge
      · exact hl
      · exact absurd (d (by omega)) hw
    obtain ⟨w, hw', hw2⟩ := permuted_safe (g := g) h.perm (Nat.le_of_lt b) hlt' h.high
    rw [hw2]
    refine ⟨hw', h.ok, by simp, by simp; omega, fun hp => absurd rfl hp, ?_, ?_⟩
    · intro s hs' _
      simp at hs' ⊢
      omega
    · intro e he
      simp at he
  · rename_i s hs hend
    have := h.opened s hs hend
    exact h.step rfl (by simp) rfl rfl rfl rfl (by simp; omega)

/-- Entering an option word. -/
theorem noteOption_safe {g : GState} (h : Safe argv g) (hw : IsOptWord (g.argv[g.optind]?.getD [])) :
    Safe argv (noteOption g) := by
  unfold noteOption
  split
  · rename_i hc
    refine ⟨h.perm, h.ok, h.low, h.high, h.inWord, ?_, ?_⟩
    · intro s _ he; simp at he
    · intro e he
      simp at he
      obtain ⟨s, hs⟩ := Option.ne_none_iff_exists'.1 hc.1
      have := h.opened s hs hc.2
      exact ⟨s, hs, by omega, by omega, by simp; omega, fun _ => hw⟩
  · exact h

/-- The word `--`. -/
theorem dashDash_safe {g : GState} (h : Safe argv g) (hlt : g.optind < argv.length) : Safe argv (dashDash (noteOption g)) := by
  have key : ∀ g' : GState, g'.argv = g.argv → g'.fault = g.fault → g'.optind = g.optind →
      (∀ s e, g'.nonoptStart = some s → g'.nonoptEnd = some e → 0 < s ∧ s < e ∧ e ≤ g.optind) → Safe argv (dashDash g') := by
    intro g' h1 h2 h3 h4
    unfold dashDash
    split
    · rename_i s e hs he
      obtain ⟨z, b, c⟩ := h4 s e hs he
      obtain ⟨w, hw, hw2⟩ := permuted_safe (g := g') (o := g'.optind + 1) (h1 ▸ h.perm) (Nat.le_of_lt b) (by omega) (by omega)
      rw [hw2]
      exact .cleared hw (h2.trans h.ok) (by simp; omega) (by simp; omega) rfl rfl rfl
    · exact .cleared (h1 ▸ h.perm) (h2.trans h.ok) (by simp) (by simp; omega) rfl rfl rfl
  unfold noteOption
  split
  · rename_i hc
    refine key _ rfl rfl rfl ?_
    intro s e hs he
    simp at he
    have := h.opened s hs hc.2
    omega
  · refine key g rfl rfl rfl ?_
    intro s e hs he
    obtain ⟨s', a, z, b, c, _⟩ := h.closed e he
    rw [hs] at a
    cases a
    exact ⟨z, b, c⟩

/-- What fetching the next word leaves. -/
def FetchSafe (argv : List CStr) : Fetch → Prop
  | .ret _ g => Safe argv g
  | .go g => Safe argv g

/-- Fetching the next word. -/
theorem nextWord_safe {permute : Bool} (g : GState) (h : Safe argv g) : FetchSafe argv (nextWord argv.length permute g) := by
  induction hn : argv.length - g.optind using Nat.strongRecOn generalizing g with
  | ind n ih =>
    rw [nextWord]
    by_cases he : argv.length ≤ g.optind
    · rw [if_pos he]
      exact endOfWords_safe h he
    · rw [if_neg he]
      have hlt : g.optind < argv.length := by omega
      simp only
      by_cases hw : (g.argv[g.optind]?.getD []).head? ≠ some '-' ∨ (g.argv[g.optind]?.getD []).tail = []
      · rw [if_pos hw]
        split
        · refine ih _ ?_ { noteNonOption g with place := [], optind := g.optind + 1 } ?_ rfl
          · simp; omega
          · exact skip_safe h hlt fun hc => hc.1 hw
        · exact h.congr rfl rfl rfl rfl rfl (.inr (.inl rfl))
      · rw [if_neg hw]
        by_cases hd : (g.argv[g.optind]?.getD []).tail = ['-']
        · rw [if_pos hd]
          exact dashDash_safe h hlt
        · rw [if_neg hd]
          have hs := noteOption_safe h ⟨hw, hd⟩
          have ho := noteOption_optind g
          exact ⟨hs.perm, hs.ok, hs.low, hs.high, fun _ => by simp only; omega, hs.opened, hs.closed⟩

theorem parseLong_safe {L : List LongOpt} {g : GState} (h : Safe argv g) (hp : g.place ≠ []) :
    Safe argv { (parseLongOptions L g).2 with place := [] } := by
  have hlt := h.inWord hp
  have one : ∀ (oo : Option Char) (oa : Option CStr) (v : Nat),
      Safe argv { g with optind := g.optind + 1, place := [], optopt := oo, optarg := oa, getoptval := v } := fun _ _ _ =>
    h.step rfl (by simp) rfl rfl rfl rfl (by simp; omega)
  unfold parseLongOptions
  simp only
  generalize strchr g.place '=' = eq
  generalize findLong g.place _ L _ = f
  by_cases h0 : (!f.exact && f.second) = true
  · simp only [h0, if_true]; exact one _ _ _
  · simp only [h0]
    cases f.matched with
    | none => exact one _ _ _
    | some o =>
      simp only
      by_cases h2 : o.hasArg = 0 ∧ eq ≠ none
      · rw [if_neg (by simp), if_pos h2]; exact one _ _ _
      · simp only [h2]
        cases eq with
        | some r =>
          by_cases h1 : o.hasArg = 1 ∨ o.hasArg = 2
          · simp only [h1, if_true]
            simp
            exact one _ _ _
          · have h3 : o.hasArg ≠ 1 := fun h => h1 (.inl h)
            have h4 : o.hasArg ≠ 2 := fun h => h1 (.inr h)
            simp [h3, h4]
            exact one _ _ _
        | none =>
          by_cases h1 : o.hasArg = 1
          · simp only [h1]
            cases hv : g.argv[g.optind + 1]? with
            | none =>
              simp
              exact one _ _ _
            | some v =>
              have := (List.getElem?_eq_some_iff.1 hv).1
              rw [h.perm.length_eq] at this
              simp
              exact h.step rfl (by simp only; omega) rfl rfl rfl rfl (by simp; omega)
          · simp [h1]
            exact one _ _ _

theorem parseShort_safe {opts : CStr} {g : GState} (h : Safe argv g) : Safe argv (parseShort argv.length opts g).2 := by
  unfold parseShort
  split
  · exact h
  · rename_i c rest hp
    have hlt := h.inWord (by rw [hp]; simp)
    have hne : g.place ≠ [] := by rw [hp]; simp
    have hbad : Safe argv (parseShort.bad c rest { g with place := rest }).2 := by
      unfold parseShort.bad
      split
      · exact h.congr rfl rfl rfl rfl rfl (.inr (.inr hne))
      · by_cases hr : rest = []
        · simp only [hr, if_true]
          exact h.step rfl (by simp) rfl rfl rfl rfl (by simp; omega)
        · simp only [hr, if_false]
          exact h.congr rfl rfl rfl rfl rfl (.inr (.inr hne))
    simp only
    split
    · split
      · exact hbad
      · split
        · by_cases hr : rest = []
          · simp only [hr, if_true]
            exact h.step rfl (by simp) rfl rfl rfl rfl (by simp; omega)
          · simp only [hr, if_false]
            exact h.congr rfl rfl rfl rfl rfl (.inr (.inr hne))
        · split
          · exact h.step rfl (by simp) rfl rfl rfl rfl (by simp; omega)
          · split
            · split
              · exact h.step rfl (by simp) rfl rfl rfl rfl (by simp; omega)
              · rename_i hlast
                exact h.step rfl (by simp; omega) rfl rfl rfl rfl (by simp; omega)
            · exact h.step rfl (by simp) rfl rfl rfl rfl (by simp; omega)
    · exact hbad

theorem readOption_safe {opts : CStr} {L : List LongOpt} {g : GState} (h : Safe argv g) :
    Safe argv (readOption argv.length opts L g).2 := by
  unfold readOption
  split
  · rename_i body hp
    split
    · exact h.congr rfl rfl rfl rfl rfl (.inr (.inl rfl))
    · rename_i hb
      exact parseLong_safe (g := { g with place := body })
        (h.congr rfl rfl rfl rfl rfl (.inr (.inr (by rw [hp]; simp)))) hb
  · exact parseShort_safe h

theorem getoptLong_safe {posix : Bool} {opts : CStr} {L : List LongOpt} {g : GState} (h : Safe argv (beginCall g)) :
    Safe argv (getoptLong posix argv.length opts L g).2 := by
  unfold getoptLong fetchWord
  split
  · rename_i hf
    split at hf
    · have := nextWord_safe (permute := !posix) { beginCall g with optreset := false } (h.congr rfl rfl rfl rfl rfl (.inl rfl))
      rw [hf] at this
      exact this
    · simp at hf
  · rename_i hf
    apply readOption_safe
    split at hf
    · have := nextWord_safe (permute := !posix) { beginCall g with optreset := false } (h.congr rfl rfl rfl rfl rfl (.inl rfl))
      rw [hf] at this
      exact this
    · cases hf
      exact h

theorem beginCall_safe {g : GState} (h : Safe argv g) : Safe argv (beginCall g) := by
  unfold beginCall
  simp only [h.low, if_false]
  split
  · exact ⟨h.perm, h.ok, h.low, h.high, h.inWord, by intro s hs; simp at hs, by intro e he; simp at he⟩
  · exact h.congr rfl rfl rfl rfl rfl (.inl rfl)

theorem beginCall_start (ha : argv ≠ []) : Safe argv (beginCall (startState argv).g) :=
  .cleared (List.Perm.refl _) rfl (by simp [beginCall, startState])
    (by simp only [beginCall, startState]; exact List.length_pos_iff.2 ha) rfl rfl rfl

theorem scanInto_g (max : Nat) (table : List ArgEntry) (i : Nat) (p : PState) : (scanInto max table i p).g = p.g := by
  unfold scanInto
  split
  · rfl
  · simp only
    split <;> rfl

theorem handle_g {max : Nat} {table : List ArgEntry} {r : GRet} {p p' : PState} (h : handle max table r p = some p') :
    p'.g = p.g := by
  unfold handle at h
  split at h
  · simp at h
  · cases h
    rw [scanInto_g]
    split <;> rfl
  · split at h <;> cases h <;> rfl
  · cases h; rfl
  · split at h
    · cases h; rfl
    · cases h; exact scanInto_g ..

end Judger
