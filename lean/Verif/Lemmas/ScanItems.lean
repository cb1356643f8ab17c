import Verif.Lemmas.LongName

/-! # The word-by-word reading agrees with the specification `Spec.Cli.Scan` -/

set_option autoImplicit false

namespace Judger

open Spec.Cli

/-- main.c's long options. -/
abbrev mainLong : List LongOpt := longOptions mainTable 0

theorem nameLen_none {b : CStr} (h : strchr b '=' = none) : nameLen b = b.length := by simp [nameLen, h]

theorem nameLen_some {n v : CStr} (h : '=' ∉ n) : nameLen (n ++ '=' :: v) = n.length := by
  simp [nameLen, strchr_split h]

theorem hasArg_long (o : Opt) : (Opt.long o).hasArg = if o.takes = .nothing then 0 else 1 := rfl

theorem longUse_value {n v : CStr} {o : Opt} (h : Calls n o) (ht : o.takes ≠ .nothing) :
    longUse mainLong (n ++ '=' :: v) = .inline (Opt.long o) v := by
  have hn := (Calls.noEq h)
  obtain ⟨f1, _⟩ := findLong_calls (n ++ '=' :: v) n (by simp)
  obtain ⟨a, b⟩ := f1 o h
  simp only [longUse, nameLen_some hn, strchr_split hn]
  rw [a, b]
  simp [hasArg_long, ht]

theorem longUse_bare {n : CStr} {o : Opt} (h : Calls n o) :
    longUse mainLong n = if o.takes = .nothing then .flag (Opt.long o) else .next (Opt.long o) := by
  have hn := strchr_none.mpr (Calls.noEq h)
  obtain ⟨f1, _⟩ := findLong_calls n n (by simp)
  obtain ⟨a, b⟩ := f1 o h
  simp only [longUse, nameLen_none hn, hn]
  rw [a, b]
  by_cases ht : o.takes = .nothing <;> simp [hasArg_long, ht]

theorem longUse_bad {b : CStr} (h1 : ∀ o, ¬Calls b o)
    (h2 : ∀ n v o, b = n ++ '=' :: v → Calls n o → o.takes = .nothing) : longUse mainLong b = .bad := by
  cases hs : strchr b '=' with
  | none =>
    obtain ⟨_, f2⟩ := findLong_calls b b (by simp)
    simp only [longUse, nameLen_none hs, hs]
    rcases f2 h1 with h | h
    · rw [h]; rfl
    · rw [h]; simp
  | some r =>
    obtain ⟨n, v, hn, rfl, rfl⟩ := strchr_some hs
    simp only [longUse, nameLen_some hn, hs]
    by_cases hc : ∃ o, Calls n o
    · obtain ⟨o, ho⟩ := hc
      obtain ⟨f1, _⟩ := findLong_calls (n ++ '=' :: v) n (by simp)
      obtain ⟨a, c⟩ := f1 o ho
      rw [a, c]
      simp [hasArg_long, h2 n v o rfl ho]
    · obtain ⟨_, f2⟩ := findLong_calls (n ++ '=' :: v) n (by simp)
      rcases f2 (fun o ho => hc ⟨o, ho⟩) with h | h
      · rw [h]; rfl
      · rw [h]; simp

/-! ## Letters -/

theorem cluster_letters {s : CStr} (h : '-' ∉ s) : cluster s = (s.map .badShort, .stop) := by
  induction s with
  | nil => rfl
  | cons c r ih =>
    simp at h
    have : c ≠ '-' := fun e => h.1 e.symm
    rw [cluster_letter this, ih h.2]; rfl

theorem cluster_lettersLong {s b : CStr} (h : '-' ∉ s) :
    cluster (s ++ '-' :: b) = (s.map .badShort, if b = [] then .hang else .long b) := by
  induction s with
  | nil => simp [cluster]
  | cons c r ih =>
    simp at h
    have : c ≠ '-' := fun e => h.1 e.symm
    rw [List.cons_append, cluster_letter this, ih h.2]; rfl

theorem dash_split (t : CStr) : '-' ∉ t ∨ ∃ s b, t = s ++ '-' :: b ∧ '-' ∉ s := by
  by_cases h : '-' ∈ t
  · right
    cases hs : strchr t '-' with
    | none => exact absurd h (strchr_none.mp hs)
    | some r =>
      obtain ⟨n, v, h1, h2, _⟩ := strchr_some hs
      exact ⟨n, v, h2, h1⟩
  · exact Or.inl h

/-- The reading of `-letters-body` and, with no letters, of `--body`. -/
theorem scanWords_long {posix : Bool} {s b : CStr} (ws : List CStr) (hs : '-' ∉ s) (hb : b ≠ []) :
    scanWords posix mainLong (('-' :: (s ++ '-' :: b)) :: ws) =
      match longUse mainLong b with
      | .bad => (scanWords posix mainLong ws).map fun r => (s.map Ev.badShort ++ .badLong ('-' :: (s ++ '-' :: b)) :: r.1, r.2)
      | .flag o => (scanWords posix mainLong ws).map fun r =>
          (s.map Ev.badShort ++ .opt o.val none ('-' :: (s ++ '-' :: b)) :: r.1, r.2)
      | .inline o v => (scanWords posix mainLong ws).map fun r =>
          (s.map Ev.badShort ++ .opt o.val (some v) ('-' :: (s ++ '-' :: b)) :: r.1, r.2)
      | .next o =>
        match ws with
        | [] => some (s.map Ev.badShort ++ [.missing ('-' :: (s ++ '-' :: b))], [])
        | v :: ws' => (scanWords posix mainLong ws').map fun r => (s.map Ev.badShort ++ .opt o.val (some v) v :: r.1, r.2) := by
  have h1 : s ++ '-' :: b ≠ ['-'] := by
    intro h
    cases s with
    | nil => simp at h; exact hb h
    | cons c r => simp at h
  rw [scanWords.eq_2]
  rw [if_neg (by simp), if_neg (by simpa using h1)]
  simp only [List.tail_cons, cluster_lettersLong hs, hb, if_false]
  cases longUse mainLong b <;> try rfl

/-- Options and their values, in order. -/
def evOpts : List Ev → List (Nat × Option CStr)
  | [] => []
  | .opt i a _ :: es => (i, a) :: evOpts es
  | _ :: es => evOpts es

def evBad : Ev → Bool
  | .opt .. => false
  | _ => true

def itemOpts : List Item → List (Nat × Option CStr)
  | [] => []
  | .opt o v :: is => (Opt.ix o, v) :: itemOpts is
  | .mistake :: is => itemOpts is

/-- The reports of getopt say the same as the items. -/
structure Same (evs : List Ev) (rest : List CStr) (is : List Item) : Prop where
  opts : evOpts evs = itemOpts is
  bad : Item.mistake ∈ is ↔ (evs.any evBad = true ∨ rest ≠ [])

theorem evOpts_append (a b : List Ev) : evOpts (a ++ b) = evOpts a ++ evOpts b := by
  induction a with
  | nil => rfl
  | cons e es ih => cases e <;> simp [evOpts, ih]

theorem evOpts_letters (s : CStr) : evOpts (s.map .badShort) = [] := by
  induction s with
  | nil => rfl
  | cons c r ih => simpa [evOpts] using ih

theorem any_letters (s : CStr) : (s.map Ev.badShort).any evBad = !s.isEmpty := by
  cases s <;> simp [evBad]

variable {posix : Bool}

/-- Prepending letters to a long option word changes nothing else. -/
theorem scan_letters {s b : CStr} {ws : List CStr} {evs rest} (hs : '-' ∉ s) (hne : s ≠ []) (hb : b ≠ [])
    (h : scanWords posix mainLong (('-' :: '-' :: b) :: ws) = some (evs, rest)) :
    ∃ evs', scanWords posix mainLong (('-' :: (s ++ '-' :: b)) :: ws) = some (evs', rest) ∧ evOpts evs' = evOpts evs ∧
      evs'.any evBad = true := by
  have h0 := scanWords_long (posix := posix) (s := []) ws (by simp) hb
  simp only [List.nil_append] at h0
  rw [h0] at h
  rw [scanWords_long ws hs hb]
  have hsne : (s.map Ev.badShort).any evBad = true := by
    rw [any_letters]; cases s <;> simp at hne ⊢
  cases hl : longUse mainLong b with
  | bad =>
    rw [hl] at h
    cases hw : scanWords posix mainLong ws with
    | none => simp [hw] at h
    | some r =>
      simp [hw] at h
      refine ⟨_, by simp [h.2]; rfl, ?_, ?_⟩
      · rw [← h.1, evOpts_append, evOpts_letters]; rfl
      · rw [List.any_append, hsne]; rfl
  | flag o =>
    rw [hl] at h
    cases hw : scanWords posix mainLong ws with
    | none => simp [hw] at h
    | some r =>
      simp [hw] at h
      refine ⟨_, by simp [h.2]; rfl, ?_, ?_⟩
      · rw [← h.1, evOpts_append, evOpts_letters]; rfl
      · rw [List.any_append, hsne]; rfl
  | inline o v =>
    rw [hl] at h
    cases hw : scanWords posix mainLong ws with
    | none => simp [hw] at h
    | some r =>
      simp [hw] at h
      refine ⟨_, by simp [h.2]; rfl, ?_, ?_⟩
      · rw [← h.1, evOpts_append, evOpts_letters]; rfl
      · rw [List.any_append, hsne]; rfl
  | next o =>
    rw [hl] at h
    cases ws with
    | nil =>
      simp at h
      refine ⟨_, by simp [← h.2]; rfl, ?_, ?_⟩
      · rw [← h.1, evOpts_append, evOpts_letters]; rfl
      · rw [List.any_append, hsne]; rfl
    | cons v ws =>
      cases hw : scanWords posix mainLong ws with
      | none => simp [hw] at h
      | some r =>
        simp [hw] at h
        refine ⟨_, by simp [hw, h.2]; rfl, ?_, ?_⟩
        · rw [← h.1, evOpts_append, evOpts_letters]; rfl
        · rw [List.any_append, hsne]; rfl

theorem positional_iff {w : CStr} : Positional w ↔ (w.head? ≠ some '-' ∨ w.tail = []) := by
  unfold Positional
  constructor
  · rintro (h | rfl)
    · exact Or.inl h
    · exact Or.inr rfl
  · rintro (h | h)
    · exact Or.inl h
    · cases w with
      | nil => left; simp
      | cons c r =>
        simp at h; subst h
        by_cases hc : c = '-'
        · right; rw [hc]
        · left; simpa using hc

/-- What the specification reads is what getopt reports. -/
theorem scanWords_of_scan {ws : List CStr} {is : List Item} (h : Scan posix ws is) :
    ∃ evs rest, scanWords posix mainLong ws = some (evs, rest) ∧ Same evs rest is := by
  induction h with
  | nil => exact ⟨[], [], by simp [scanWords], rfl, by simp⟩
  | value n v o ws is hc ht _ ih =>
    obtain ⟨evs, rest, h1, h2⟩ := ih
    have := scanWords_long (posix := posix) (s := []) (b := n ++ '=' :: v) ws (by simp) (by simp)
    simp only [List.nil_append] at this
    rw [this, longUse_value hc ht]
    refine ⟨_, rest, by simp [h1]; rfl, ?_, ?_⟩
    · simp [evOpts, itemOpts, Opt.long, h2.opts]
    · simp [evBad, h2.bad]
  | spaced n v o ws is hc ht _ ih =>
    obtain ⟨evs, rest, h1, h2⟩ := ih
    have := scanWords_long (posix := posix) (s := []) (b := n) (v :: ws) (by simp) (Calls.ne_nil hc)
    simp only [List.nil_append] at this
    rw [this, longUse_bare hc, if_neg ht]
    refine ⟨_, rest, by simp [h1]; rfl, ?_, ?_⟩
    · simp [evOpts, itemOpts, Opt.long, h2.opts]
    · simp [evBad, h2.bad]
  | flag n o ws is hc ht _ ih =>
    obtain ⟨evs, rest, h1, h2⟩ := ih
    have := scanWords_long (posix := posix) (s := []) (b := n) ws (by simp) (Calls.ne_nil hc)
    simp only [List.nil_append] at this
    rw [this, longUse_bare hc, if_pos ht]
    refine ⟨_, rest, by simp [h1]; rfl, ?_, ?_⟩
    · simp [evOpts, itemOpts, Opt.long, h2.opts]
    · simp [evBad, h2.bad]
  | missing n o hc ht =>
    have := scanWords_long (posix := posix) (s := []) (b := n) [] (by simp) (Calls.ne_nil hc)
    simp only [List.nil_append] at this
    rw [this, longUse_bare hc, if_neg ht]
    refine ⟨_, [], rfl, ?_, ?_⟩
    · simp [evOpts, itemOpts]
    · simp [evBad]
  | unknown b ws is hb h1 h2 _ ih =>
    obtain ⟨evs, rest, h3, h4⟩ := ih
    have := scanWords_long (posix := posix) (s := []) (b := b) ws (by simp) hb
    simp only [List.nil_append] at this
    rw [this, longUse_bad h1 h2]
    refine ⟨_, rest, by simp [h3]; rfl, ?_, ?_⟩
    · simp [evOpts, itemOpts, h4.opts]
    · simp [evBad]
  | letters s ws is hs hd _ ih =>
    obtain ⟨evs, rest, h3, h4⟩ := ih
    rw [scanWords.eq_2]
    rw [if_neg (by simp [hs]), if_neg (by rintro h; simp at h; subst h; simp at hd)]
    simp only [List.tail_cons, cluster_letters hd]
    refine ⟨_, rest, by simp [h3]; rfl, ?_, ?_⟩
    · rw [evOpts_append, evOpts_letters]; simpa [itemOpts] using h4.opts
    · rw [List.any_append, any_letters]
      cases s <;> simp at hs ⊢
  | lettersLong s b ws is hs hd hb _ ih =>
    obtain ⟨evs, rest, h3, h4⟩ := ih
    obtain ⟨evs', h5, h6, h7⟩ := scan_letters hd hs hb h3
    exact ⟨evs', rest, h5, by rw [h6, h4.opts]; rfl, by simp [h7]⟩
  | positional w ws is hp hx _ ih =>
    obtain ⟨evs, rest, h3, h4⟩ := ih
    rw [scanWords.eq_2, if_pos (positional_iff.mp hp), if_neg (by simp [hx])]
    exact ⟨_, _, by simp [h3]; exact ⟨rfl, rfl⟩, by simpa [itemOpts] using h4.opts, by simp⟩
  | positionalEnd w ws hp hx =>
    rw [scanWords.eq_2, if_pos (positional_iff.mp hp), if_pos hx]
    exact ⟨_, _, rfl, rfl, by simp⟩
  | dashes ws =>
    rw [scanWords.eq_2, if_neg (by simp), if_pos (by rfl)]
    refine ⟨_, _, rfl, ?_, ?_⟩
    · split <;> rfl
    · cases ws <;> simp

/-- Every command line getopt finishes is read by the specification. -/
theorem scan_of_scanWords (n : Nat) : ∀ (ws : List CStr), ws.length ≤ n → scanWords posix mainLong ws ≠ none →
    ∃ is, Scan posix ws is := by
  induction n with
  | zero =>
    intro ws hl _
    have : ws = [] := List.length_eq_zero_iff.mp (Nat.le_zero.mp hl)
    subst this
    exact ⟨[], .nil⟩
  | succ n ih =>
    intro ws hl h
    cases ws with
    | nil => exact ⟨[], .nil⟩
    | cons w ws =>
      simp at hl
      -- a long option word
      have long : ∀ b, b ≠ [] → scanWords posix mainLong (('-' :: '-' :: b) :: ws) ≠ none →
          ∃ is, Scan posix (('-' :: '-' :: b) :: ws) is := by
        intro b hb h
        have := scanWords_long (posix := posix) (s := []) (b := b) ws (by simp) hb
        simp only [List.nil_append] at this
        rw [this] at h
        by_cases h1 : ∃ o, Calls b o
        · obtain ⟨o, ho⟩ := h1
          rw [longUse_bare ho] at h
          by_cases ht : o.takes = .nothing
          · rw [if_pos ht] at h
            obtain ⟨is, hi⟩ := ih ws hl (by intro h'; simp [h'] at h)
            exact ⟨_, .flag b o ws is ho ht hi⟩
          · rw [if_neg ht] at h
            cases ws with
            | nil => exact ⟨_, .missing b o ho ht⟩
            | cons v ws =>
              obtain ⟨is, hi⟩ := ih ws (by simp at hl; omega) (by intro h'; simp [h'] at h)
              exact ⟨_, .spaced b v o ws is ho ht hi⟩
        · by_cases h2 : ∃ n v o, b = n ++ '=' :: v ∧ Calls n o ∧ o.takes ≠ .nothing
          · obtain ⟨m, v, o, rfl, ho, ht⟩ := h2
            rw [longUse_value ho ht] at h
            obtain ⟨is, hi⟩ := ih ws hl (by intro h'; simp [h'] at h)
            exact ⟨_, .value m v o ws is ho ht hi⟩
          · have h1' : ∀ o, ¬Calls b o := fun o ho => h1 ⟨o, ho⟩
            have h2' : ∀ n v o, b = n ++ '=' :: v → Calls n o → o.takes = .nothing := fun n v o e ho =>
              Classical.byContradiction fun ht => h2 ⟨n, v, o, e, ho, ht⟩
            rw [longUse_bad h1' h2'] at h
            obtain ⟨is, hi⟩ := ih ws hl (by intro h'; simp [h'] at h)
            exact ⟨_, .unknown b ws is hb h1' h2' hi⟩
      by_cases hp : w.head? ≠ some '-' ∨ w.tail = []
      · cases hx : posix with
        | true => exact ⟨_, .positionalEnd w ws (positional_iff.mpr hp) rfl⟩
        | false =>
          rw [scanWords.eq_2, if_pos hp, if_neg (by simp [hx])] at h
          obtain ⟨is, hi⟩ := ih ws hl (by intro h'; simp [h'] at h)
          exact ⟨_, .positional w ws is (positional_iff.mpr hp) rfl (hx ▸ hi)⟩
      · have hw : ∃ t, w = '-' :: t ∧ t ≠ [] := by
          cases w with
          | nil => simp at hp
          | cons c r =>
            simp at hp
            exact ⟨r, by rw [hp.1], hp.2⟩
        obtain ⟨t, rfl, ht⟩ := hw
        by_cases hdd : t = ['-']
        · subst hdd; exact ⟨_, .dashes ws⟩
        · rcases dash_split t with hd | ⟨s, b, rfl, hd⟩
          · rw [scanWords.eq_2, if_neg hp, if_neg (by simpa using hdd)] at h
            simp only [List.tail_cons, cluster_letters hd] at h
            obtain ⟨is, hi⟩ := ih ws hl (by intro h'; simp [h'] at h)
            exact ⟨_, .letters t ws is ht hd hi⟩
          · by_cases hb : b = []
            · subst hb
              rw [scanWords.eq_2, if_neg hp, if_neg (by simpa using hdd)] at h
              simp only [List.tail_cons, cluster_lettersLong hd, if_true] at h
              simp at h
            · by_cases hs : s = []
              · subst hs
                exact long b hb h
              · have h' : scanWords posix mainLong (('-' :: '-' :: b) :: ws) ≠ none := by
                  have e0 := scanWords_long (posix := posix) (s := []) (b := b) ws (by simp) hb
                  simp only [List.nil_append] at e0
                  rw [scanWords_long ws hd hb] at h
                  rw [e0]
                  cases hl : longUse mainLong b with
                  | bad => rw [hl] at h; intro hn; apply h; simpa using hn
                  | flag o => rw [hl] at h; intro hn; apply h; simpa using hn
                  | inline o v => rw [hl] at h; intro hn; apply h; simpa using hn
                  | next o =>
                    rw [hl] at h; intro hn; apply h
                    cases ws with
                    | nil => simp at hn
                    | cons v ws => simpa using hn
                obtain ⟨is, hi⟩ := long b hb h'
                exact ⟨_, .lettersLong s b ws is hs hd hb hi⟩

end Judger
