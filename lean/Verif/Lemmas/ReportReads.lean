import Verif.Lemmas.ReportRows

/-! # From the words to the rows of the error report -/

set_option autoImplicit false

namespace Judger.Report

open Spec.Cli

variable {posix : Bool}

/-! ## Reading -/

/-- What getopt reports for something found. -/
def evOf : Finding → Ev
  | .option o v w => .opt (Opt.ix o) v w
  | .unknown w => .badLong w
  | .letter c => .badShort c
  | .incomplete w => .missing w

theorem map_letters (s : CStr) : (s.map Finding.letter).map evOf = s.map Ev.badShort := by
  rw [List.map_map]; rfl

theorem scanWords_of_long {s b : CStr} {ws ws' : List CStr} {f : Finding} (hs : '-' ∉ s) (hb : b ≠ [])
    (h : Long ('-' :: (s ++ '-' :: b)) b ws f ws') :
    scanWords posix mainLong (('-' :: (s ++ '-' :: b)) :: ws) =
      (scanWords posix mainLong ws').map fun r => (s.map Ev.badShort ++ evOf f :: r.1, r.2) := by
  rw [scanWords_long ws hs hb]
  cases h with
  | value n v o _ hc ht => rw [longUse_value hc ht]; rfl
  | spaced n v o _ hc ht => rw [longUse_bare hc, if_neg ht]; rfl
  | flag n o _ hc ht => rw [longUse_bare hc, if_pos ht]; rfl
  | missing n o hc ht => rw [longUse_bare hc, if_neg ht]; simp [scanWords, evOf]
  | unknown _ _ h1 h2 => rw [longUse_bad h1 h2]; rfl

theorem scanWords_of_reads {ws : List CStr} {fs : List Finding} {rest : List CStr} (h : Reads posix ws fs rest) :
    scanWords posix mainLong ws = some (fs.map evOf, rest) := by
  induction h with
  | nil => simp [scanWords]
  | long s b ws ws' f fs rest hs hb hl _ ih =>
    rw [scanWords_of_long hs hb hl, ih]
    simp only [Option.map_some, List.map_append, map_letters, List.map_cons]
  | letters s ws fs rest hs hd _ ih =>
    rw [scanWords.eq_2]
    rw [if_neg (by simp [hs]), if_neg (by rintro h; simp at h; subst h; simp at hd)]
    simp only [List.tail_cons, cluster_letters hd]
    rw [ih]
    simp only [Option.map_some, List.map_append, map_letters]
  | positional w ws fs rest hp hx _ ih =>
    rw [scanWords.eq_2, if_pos (positional_iff.mp hp), if_neg (by simp [hx]), ih]
    rfl
  | positionalEnd w ws hp hx => rw [scanWords.eq_2, if_pos (positional_iff.mp hp), if_pos hx]; rfl
  | dashes ws => rw [scanWords.eq_2, if_neg (by simp), if_pos (by rfl)]; rfl

theorem long_total (w b : CStr) (ws : List CStr) : ∃ f ws', Long w b ws f ws' ∧ ws'.length ≤ ws.length := by
  by_cases h1 : ∃ o, Calls b o
  · obtain ⟨o, ho⟩ := h1
    by_cases ht : o.takes = .nothing
    · exact ⟨_, _, .flag b o ws ho ht, Nat.le_refl _⟩
    · cases ws with
      | nil => exact ⟨_, _, .missing b o ho ht, Nat.le_refl _⟩
      | cons v ws => exact ⟨_, _, .spaced b v o ws ho ht, by simp⟩
  · by_cases h2 : ∃ n v o, b = n ++ '=' :: v ∧ Calls n o ∧ o.takes ≠ .nothing
    · obtain ⟨m, v, o, rfl, ho, ht⟩ := h2
      exact ⟨_, _, .value m v o ws ho ht, Nat.le_refl _⟩
    · exact ⟨_, _, .unknown b ws (fun o ho => h1 ⟨o, ho⟩)
        (fun n v o e ho => Classical.byContradiction fun ht => h2 ⟨n, v, o, e, ho, ht⟩), Nat.le_refl _⟩

theorem reads_of_scanWords (n : Nat) : ∀ (ws : List CStr), ws.length ≤ n → scanWords posix mainLong ws ≠ none →
    ∃ fs rest, Reads posix ws fs rest := by
  induction n with
  | zero =>
    intro ws hl _
    have : ws = [] := List.length_eq_zero_iff.mp (Nat.le_zero.mp hl)
    subst this
    exact ⟨[], [], .nil⟩
  | succ n ih =>
    intro ws hl h
    cases ws with
    | nil => exact ⟨[], [], .nil⟩
    | cons w ws =>
      simp at hl
      by_cases hp : w.head? ≠ some '-' ∨ w.tail = []
      · cases hx : posix with
        | true => exact ⟨_, _, .positionalEnd w ws (positional_iff.mpr hp) rfl⟩
        | false =>
          rw [scanWords.eq_2, if_pos hp, if_neg (by simp [hx])] at h
          obtain ⟨fs, rest, hi⟩ := ih ws hl (by intro h'; simp [h'] at h)
          exact ⟨_, _, .positional w ws fs rest (positional_iff.mpr hp) rfl (hx ▸ hi)⟩
      · have hw : ∃ t, w = '-' :: t ∧ t ≠ [] := by
          cases w with
          | nil => simp at hp
          | cons c r =>
            simp at hp
            exact ⟨r, by rw [hp.1], hp.2⟩
        obtain ⟨t, rfl, ht⟩ := hw
        by_cases hdd : t = ['-']
        · subst hdd; exact ⟨_, _, .dashes ws⟩
        · rcases dash_split t with hd | ⟨s, b, rfl, hd⟩
          · rw [scanWords.eq_2, if_neg hp, if_neg (by simpa using hdd)] at h
            simp only [List.tail_cons, cluster_letters hd] at h
            obtain ⟨fs, rest, hi⟩ := ih ws hl (by intro h'; simp [h'] at h)
            exact ⟨_, _, .letters t ws fs rest ht hd hi⟩
          · by_cases hb : b = []
            · subst hb
              rw [scanWords.eq_2, if_neg hp, if_neg (by simpa using hdd)] at h
              simp only [List.tail_cons, cluster_lettersLong hd, if_true] at h
              simp at h
            · obtain ⟨f, ws', hf, hl'⟩ := long_total ('-' :: (s ++ '-' :: b)) b ws
              rw [scanWords_of_long hd hb hf] at h
              obtain ⟨fs, rest, hi⟩ := ih ws' (by omega) (by intro h'; simp [h'] at h)
              exact ⟨_, _, .long s b ws ws' f fs rest hd hb hf hi⟩

/-- Options that take a value have one. -/
def Valued (fs : List Finding) : Prop := ∀ o v w, Finding.option o v w ∈ fs → (v = none ↔ o.takes = .nothing)

theorem reads_valued {ws : List CStr} {fs : List Finding} {rest : List CStr} (h : Reads posix ws fs rest) : Valued fs := by
  induction h with
  | nil => intro o v w h; cases h
  | long s b ws ws' f fs rest hs hb hl _ ih =>
    intro o v w hm
    simp only [List.mem_append, List.mem_map, List.mem_cons, reduceCtorEq, and_false, exists_false, false_or] at hm
    rcases hm with rfl | hm
    · cases hl with
      | value n v o _ hc ht => simp [ht]
      | spaced n v o _ hc ht => simp [ht]
      | flag n o _ hc ht => simp [ht]
    · exact ih _ _ _ hm
  | letters s ws fs rest hs hd _ ih =>
    intro o v w hm
    simp only [List.mem_append, List.mem_map, reduceCtorEq, and_false, exists_false, false_or] at hm
    exact ih _ _ _ hm
  | positional w ws fs rest hp hx _ ih => exact ih
  | positionalEnd w ws hp hx => intro o v w h; cases h
  | dashes ws => intro o v w h; cases h

/-- All words free of NUL and shorter than 128 KiB. -/
def Plain (ws : List CStr) : Prop := ∀ w ∈ ws, NoNul w ∧ w.length < 131072

/-- The texts in what was found are free of NUL and shorter than 128 KiB. -/
def PlainFound : Finding → Prop
  | .option _ v w => (∀ t, v = some t → NoNul t ∧ t.length < 131072) ∧ NoNul w ∧ w.length < 131072
  | .unknown w => NoNul w ∧ w.length < 131072
  | .letter c => c ≠ nul
  | .incomplete w => NoNul w ∧ w.length < 131072

theorem reads_plain {ws : List CStr} {fs : List Finding} {rest : List CStr} (h : Reads posix ws fs rest) (hp : Plain ws) :
    (∀ f ∈ fs, PlainFound f) ∧ Plain rest := by
  induction h with
  | nil => exact ⟨(by simp), hp⟩
  | long s b ws ws' f fs rest hs hb hl _ ih =>
    have hw := hp _ (List.mem_cons_self ..)
    have hws : Plain ws := fun w h => hp w (List.mem_cons_of_mem _ h)
    have hws' : Plain ws' := by
      cases hl with
      | spaced n v o _ hc ht => exact fun w h => hws w (List.mem_cons_of_mem _ h)
      | _ => exact hws
    refine ⟨?_, (ih hws').2⟩
    intro g hg
    simp only [List.mem_append, List.mem_map, List.mem_cons] at hg
    rcases hg with ⟨c, hc, rfl⟩ | rfl | hg
    · exact fun he => hw.1 (by simp [← he, hc])
    · cases hl with
      | value n v o _ hc ht =>
        refine ⟨?_, hw⟩
        rintro _ ⟨⟩
        refine ⟨fun h => hw.1 (by simp [h]), ?_⟩
        have := hw.2
        simp at this
        omega
      | spaced n v o _ hc ht =>
        have hv := hws v (List.mem_cons_self ..)
        refine ⟨?_, hv⟩
        rintro _ ⟨⟩
        exact hv
      | flag n o _ hc ht => exact ⟨by simp, hw⟩
      | missing n o hc ht => exact hw
      | unknown _ _ h1 h2 => exact hw
    · exact (ih hws').1 g hg
  | letters s ws fs rest hs hd _ ih =>
    have hw := hp _ (List.mem_cons_self ..)
    obtain ⟨i1, i2⟩ := ih fun w h => hp w (List.mem_cons_of_mem _ h)
    refine ⟨?_, i2⟩
    intro g hg
    simp only [List.mem_append, List.mem_map] at hg
    rcases hg with ⟨c, hc, rfl⟩ | hg
    · exact fun he => hw.1 (by simp [← he, hc])
    · exact i1 g hg
  | positional w ws fs rest _ hx _ ih =>
    obtain ⟨i1, i2⟩ := ih fun w h => hp w (List.mem_cons_of_mem _ h)
    refine ⟨i1, ?_⟩
    intro x hx
    simp only [List.mem_cons] at hx
    rcases hx with rfl | hx
    · exact hp _ (List.mem_cons_self ..)
    · exact i2 x hx
  | positionalEnd w ws _ hx => exact ⟨by simp, hp⟩
  | dashes ws => exact ⟨by simp, fun w h => hp w (List.mem_cons_of_mem _ h)⟩

/-! ## Integers -/

theorem loose_of_convert {t e : CStr} {v f : Int} (h1 : convertInt t = some (v, e)) (h2 : sufFactor e = some f) : ∃ n, LooseIntText t n := by
  obtain ⟨sf, post, he, hsf, hpost⟩ := sufFactor_spec h2
  rcases convertInt_cases h1 with ⟨X, base, hX, h6⟩ | h6
  · have hb : base ≤ 16 := by rcases hX with ⟨_, rfl⟩ | ⟨_, rfl⟩ | ⟨_, rfl⟩ <;> decide
    obtain ⟨pre, sg, pf, r, k, v', g1, g2, g3, g4, g5, g6⟩ := strtol0X_spec h6
    obtain ⟨pre', sg', pf', ds, k', m, g7, g8, g9, g10, g11, g12⟩ := strtol_spec hb g5
    obtain ⟨hp1, hp2⟩ := prefix_of hX g4
    exact ⟨_, Or.inr ⟨pre, sg, pf, pre', sg', pf', ds, sf, post, k, k', base, m, f, by rw [g1, g7, he], g2, g8, hpost, g3, g9, hp1, hp2,
      g10, g11, hsf, rfl⟩⟩
  · obtain ⟨pre, sg, pf, ds, k, m, g1, g2, g3, g4, g5, g6⟩ := strtol_spec (by decide) h6
    have : pf = [] := by
      rcases g4 with h | ⟨h, _⟩
      · exact h
      · exact absurd h (by decide)
    subst this
    exact ⟨_, Or.inl ⟨pre, sg, [], ds, sf, post, k, 10, m, f, by rw [g1, he], g2, hpost, g3, Or.inl ⟨rfl, rfl⟩, g5, hsf, rfl⟩⟩

theorem scanIntText_bad {t : CStr} (h : ∀ n, ¬LooseIntText t n) : scanIntText t = .error .badint := by
  rw [scanIntText_eq]
  split
  · rfl
  · rename_i v e hc
    split
    · rfl
    · rename_i f hf
      obtain ⟨n, hn⟩ := loose_of_convert hc hf
      exact absurd hn (h n)

theorem scanIntText_large {t : CStr} {n : Int} (h : LooseIntText t n) (hn : ¬IsInt n) : scanIntText t = .error .overflow := by
  rw [scanIntText_loose h, inRange, if_neg hn]

/-! ## Rows -/

/-- Registering several rows. -/
def registerAll (max : Nat) (es rs : List ErrRec) : List ErrRec := rs.foldl (registerError max) es

theorem registerAll_append (max : Nat) (es a b : List ErrRec) : registerAll max es (a ++ b) = registerAll max (registerAll max es a) b :=
  List.foldl_append ..

theorem registerAll_few {max : Nat} (rs : List ErrRec) : ∀ es : List ErrRec, es.length + rs.length ≤ max → registerAll max es rs = es ++ rs := by
  induction rs with
  | nil => intro es _; simp [registerAll]
  | cons r rs ih =>
    intro es h
    simp only [List.length_cons] at h
    have : registerAll max es (r :: rs) = registerAll max (registerError max es r) rs := rfl
    rw [this, registerError, if_pos (by omega), ih _ (by simp; omega)]
    simp

theorem registerAll_full (n : Nat) (rs : List ErrRec) : ∀ es : List ErrRec, es.length = n →
    registerAll (n + 1) (es ++ [limitRec]) rs = es ++ [limitRec] := by
  induction rs with
  | nil => intro es _; rfl
  | cons r rs ih =>
    intro es h
    have : registerAll (n + 1) (es ++ [limitRec]) (r :: rs) = registerAll (n + 1) (registerError (n + 1) (es ++ [limitRec]) r) rs := rfl
    have hr : registerError (n + 1) (es ++ [limitRec]) r = es ++ [limitRec] := by
      rw [registerError, if_neg (by simp; omega)]
      rw [List.set_append_right _ _ (by omega)]
      simp [h, limitRec]
    rw [this, hr, ih es h]

/-- At most `n + 1` rows; the last one says so if there were more. -/
theorem registerAll_many (n : Nat) (rs : List ErrRec) (h : n + 1 < rs.length) : registerAll (n + 1) [] rs = rs.take n ++ [limitRec] := by
  obtain ⟨a, hn, r, b, rfl, ha⟩ : ∃ a hn r b, rs = a ++ hn :: r :: b ∧ a.length = n := by
    refine ⟨rs.take n, rs[n], rs[n + 1], rs.drop (n + 2), ?_, by simp; omega⟩
    rw [← List.drop_eq_getElem_cons, ← List.drop_eq_getElem_cons, List.take_append_drop]
  have e1 : a ++ hn :: r :: b = (a ++ [hn]) ++ (r :: b) := by simp
  have e2 : registerAll (n + 1) (a ++ [hn]) (r :: b) = registerAll (n + 1) (registerError (n + 1) (a ++ [hn]) r) b := rfl
  have e3 : registerError (n + 1) (a ++ [hn]) r = a ++ [limitRec] := by
    rw [registerError, if_neg (by simp; omega), List.set_append_right _ _ (by omega)]
    simp [ha, limitRec]
  rw [e1, registerAll_append, registerAll_few (a ++ [hn]) [] (by simp; omega), List.nil_append, e2, e3, registerAll_full n b a ha,
    List.append_assoc, List.take_append_of_le_length (by omega), List.take_of_length_le (by omega)]

theorem scan_judged {o : Opt} {s : Slot} {v : Option CStr} {ms : List Mistake} {ok : Bool} (hj : Judged s.count o v ms ok)
    (hv : v = none ↔ o.takes = .nothing) :
    (scan (Opt.entry o) s v).1.count = (if ok then s.count + 1 else s.count) ∧
      ((scan (Opt.entry o) s v).2 = none ∧ ms = [] ∨
       ∃ c m, (scan (Opt.entry o) s v).2 = some c ∧ ms = [m] ∧ toRec m = ⟨c, some (Opt.ix o), v⟩) := by
  have hmax : (Opt.entry o).maxcount = o.atMost := rfl
  cases hj with
  | tooOften _ hn =>
    cases ht : o.takes with
    | nothing =>
      have hvn := hv.2 ht
      subst hvn
      simp only [scan, entry_lit ht, hmax, if_neg (show ¬s.count < o.atMost by omega)]
      exact ⟨by simp, Or.inr ⟨_, _, rfl, rfl, by simp [toRec, ht]⟩⟩
    | int =>
      cases v with
      | none => exact absurd (hv.1 rfl) (by simp [ht])
      | some t =>
        simp only [scan, entry_int ht, hmax, if_pos hn]
        exact ⟨by simp, Or.inr ⟨_, _, rfl, rfl, by simp [toRec, ht]⟩⟩
    | text =>
      cases v with
      | none => exact absurd (hv.1 rfl) (by simp [ht])
      | some t =>
        simp only [scan, entry_str ht, hmax, if_pos hn]
        exact ⟨by simp, Or.inr ⟨_, _, rfl, rfl, by simp [toRec, ht]⟩⟩
  | accepted _ hn hi =>
    cases ht : o.takes with
    | nothing =>
      simp only [scan, entry_lit ht, hmax, if_pos hn]
      exact ⟨by simp, Or.inl ⟨trivial, trivial⟩⟩
    | int =>
      obtain ⟨t, k, rfl, h1, h2⟩ := hi ht
      simp only [scan, entry_int ht, hmax, if_neg (show ¬s.count = o.atMost by omega), scanIntText_complete h1 h2]
      exact ⟨by simp, Or.inl ⟨trivial, trivial⟩⟩
    | text =>
      cases v with
      | none => exact absurd (hv.1 rfl) (by simp [ht])
      | some t =>
        simp only [scan, entry_str ht, hmax, if_neg (show ¬s.count = o.atMost by omega)]
        exact ⟨by simp, Or.inl ⟨trivial, trivial⟩⟩
  | notInteger t hn ht hb =>
    simp only [scan, entry_int ht, hmax, if_neg (show ¬s.count = o.atMost by omega), scanIntText_bad hb]
    exact ⟨by simp, Or.inr ⟨_, _, rfl, rfl, rfl⟩⟩
  | tooLarge t k hn ht h1 h2 =>
    simp only [scan, entry_int ht, hmax, if_neg (show ¬s.count = o.atMost by omega), scanIntText_large h1 h2]
    exact ⟨by simp, Or.inr ⟨_, _, rfl, rfl, rfl⟩⟩

theorem applyEv_option {max : Nat} {o : Opt} {v : Option CStr} {w : CStr} {ms : List Mistake} {ok : Bool}
    {q : (Nat → Slot) × List ErrRec} (hj : Judged (q.1 (Opt.ix o)).count o v ms ok) (hv : v = none ↔ o.takes = .nothing) :
    (applyEv max mainTable q (.opt (Opt.ix o) v w)).2 =
      registerAll max q.2 (((if v = some [] then [Mistake.noValue w] else []) ++ ms).map toRec) ∧
    ∀ o', ((applyEv max mainTable q (.opt (Opt.ix o) v w)).1 (Opt.ix o')).count =
      if o' = o then (if ok then (q.1 (Opt.ix o)).count + 1 else (q.1 (Opt.ix o)).count) else (q.1 (Opt.ix o')).count := by
  obtain ⟨h1, h2⟩ := scan_judged hj hv
  have hcond : (v = some [] ∧ (mainTable[Opt.ix o]?.map (·.kind.hasArg)) = some 1) ↔ v = some [] := by
    rw [mainTable_get]
    constructor
    · exact fun h => h.1
    · intro h
      refine ⟨h, ?_⟩
      have : o.takes ≠ .nothing := fun ht => by rw [hv.2 ht] at h; cases h
      simp [(entry_hasArg o).2 this]
  simp only [applyEv, hcond]
  simp only [mainTable_get]
  constructor
  · rw [List.map_append, registerAll_append]
    have e : (if v = some [] then registerError max q.2 { code := .emissarg, parent := none, argval := some w } else q.2) =
        registerAll max q.2 ((if v = some [] then [Mistake.noValue w] else []).map toRec) := by
      split <;> rfl
    rw [← e]
    rcases h2 with ⟨h2, rfl⟩ | ⟨c, m, h2, rfl, h3⟩
    · simp only [h2]; rfl
    · simp only [h2, List.map_cons, List.map_nil, h3]; rfl
  · intro o'
    simp only [setSlot]
    by_cases he : o' = o
    · subst he
      simp only [if_true, h1]
    · rw [if_neg (fun h => he (ix_inj h)), if_neg he]

theorem fold_mistakes {max : Nat} {seen : Opt → Nat} {fs : List Finding} {ms : List Mistake} (h : Mistakes seen fs ms) (hv : Valued fs)
    (q : (Nat → Slot) × List ErrRec) (hq : ∀ o, (q.1 (Opt.ix o)).count = seen o) :
    ((fs.map evOf).foldl (applyEv max mainTable) q).2 = registerAll max q.2 (ms.map toRec) ∧
    (∀ o, seen o ≤ (((fs.map evOf).foldl (applyEv max mainTable) q).1 (Opt.ix o)).count) ∧
    (∀ o, (∀ v w, Finding.option o v w ∉ fs) → (((fs.map evOf).foldl (applyEv max mainTable) q).1 (Opt.ix o)).count = seen o) ∧
    (ms = [] → ∀ o v w, Finding.option o v w ∈ fs → 0 < (((fs.map evOf).foldl (applyEv max mainTable) q).1 (Opt.ix o)).count) := by
  induction h generalizing q with
  | nil seen => exact ⟨rfl, fun o => Nat.le_of_eq (hq o).symm, fun o _ => hq o, by simp⟩
  | option seen o v w fs ms ok rest hj _ ih =>
    have hv' : Valued fs := fun o v w hm => hv o v w (List.mem_cons_of_mem _ hm)
    obtain ⟨a1, a2⟩ := applyEv_option (max := max) (w := w) (q := q) ((hq o).symm ▸ hj) (hv o v w (List.mem_cons_self ..))
    simp only [List.map_cons, List.foldl_cons, evOf]
    have hc : ∀ o', ((applyEv max mainTable q (.opt (Opt.ix o) v w)).1 (Opt.ix o')).count = (if ok then bump o seen else seen) o' := by
      intro o'
      rw [a2 o', hq o, hq o']
      by_cases he : o' = o
      · subst he
        cases ok <;> simp [bump]
      · cases ok <;> simp [bump, he]
    obtain ⟨b1, b2, b3, b4⟩ := ih hv' (applyEv max mainTable q (.opt (Opt.ix o) v w)) hc
    have hle : ∀ o', seen o' ≤ (if ok then bump o seen else seen) o' := by
      intro o'
      cases ok
      · simp
      · simp only [bump, if_true]
        split
        · rename_i he; subst he; omega
        · omega
    refine ⟨?_, fun o' => Nat.le_trans (hle o') (b2 o'), ?_, ?_⟩
    · rw [b1, a1, ← registerAll_append, ← List.map_append]
    · intro o' ho
      have hne : o' ≠ o := by
        rintro rfl
        exact ho v w (List.mem_cons_self ..)
      rw [b3 o' (fun v w hm => ho v w (List.mem_cons_of_mem _ hm))]
      cases ok <;> simp [bump, hne]
    · intro hms o' v' w' hm
      simp only [List.append_eq_nil_iff] at hms
      simp only [List.mem_cons, Finding.option.injEq] at hm
      rcases hm with ⟨rfl, rfl, rfl⟩ | hm
      · have hok : ok = true := by
          rw [hms.1.2] at hj
          cases hj
          rfl
        subst hok
        have := b2 o'
        simp only [if_true, bump] at this
        omega
      · exact b4 hms.2 o' v' w' hm
  | unknown seen w fs rest _ ih =>
    have hv' : Valued fs := fun o v w hm => hv o v w (List.mem_cons_of_mem _ hm)
    obtain ⟨b1, b2, b3, b4⟩ := ih hv' (applyEv max mainTable q (.badLong w)) hq
    refine ⟨b1, b2, fun o ho => b3 o fun v w hm => ho v w (List.mem_cons_of_mem _ hm), by simp⟩
  | letter seen c fs rest _ ih =>
    have hv' : Valued fs := fun o v w hm => hv o v w (List.mem_cons_of_mem _ hm)
    obtain ⟨b1, b2, b3, b4⟩ := ih hv' (applyEv max mainTable q (.badShort c)) hq
    refine ⟨b1, b2, fun o ho => b3 o fun v w hm => ho v w (List.mem_cons_of_mem _ hm), by simp⟩
  | incomplete seen w fs rest _ ih =>
    have hv' : Valued fs := fun o v w hm => hv o v w (List.mem_cons_of_mem _ hm)
    obtain ⟨b1, b2, b3, b4⟩ := ih hv' (applyEv max mainTable q (.missing w)) hq
    refine ⟨b1, b2, fun o ho => b3 o fun v w hm => ho v w (List.mem_cons_of_mem _ hm), by simp⟩

/-- Whatever was found, its mistakes can be told. -/
theorem mistakes_total (fs : List Finding) : ∀ seen : Opt → Nat, Valued fs → (∀ o, seen o ≤ o.atMost) → ∃ ms, Mistakes seen fs ms := by
  induction fs with
  | nil => exact fun seen _ _ => ⟨[], .nil seen⟩
  | cons f fs ih =>
    intro seen hv hs
    have hv' : Valued fs := fun o v w hm => hv o v w (List.mem_cons_of_mem _ hm)
    cases f with
    | unknown w => obtain ⟨ms, h⟩ := ih seen hv' hs; exact ⟨_, .unknown _ _ _ _ h⟩
    | letter c => obtain ⟨ms, h⟩ := ih seen hv' hs; exact ⟨_, .letter _ _ _ _ h⟩
    | incomplete w => obtain ⟨ms, h⟩ := ih seen hv' hs; exact ⟨_, .incomplete _ _ _ _ h⟩
    | option o v w =>
      have hvo := hv o v w (List.mem_cons_self ..)
      have key : ∃ ms ok, Judged (seen o) o v ms ok ∧ (ok = true → seen o < o.atMost) := by
        rcases Nat.lt_or_eq_of_le (hs o) with hlt | heq
        · by_cases ht : o.takes = .int
          · cases v with
            | none => exact absurd (hvo.1 rfl) (by simp [ht])
            | some t =>
              by_cases hl : ∃ k, LooseIntText t k
              · obtain ⟨k, hk⟩ := hl
                by_cases hi : IsInt k
                · exact ⟨_, _, .accepted _ hlt (fun _ => ⟨t, k, rfl, hk, hi⟩), fun _ => hlt⟩
                · exact ⟨_, _, .tooLarge t k hlt ht hk hi, fun _ => hlt⟩
              · exact ⟨_, _, .notInteger t hlt ht (fun k hk => hl ⟨k, hk⟩), fun _ => hlt⟩
          · exact ⟨_, _, .accepted v hlt (fun h => absurd h ht), fun _ => hlt⟩
        · exact ⟨_, _, .tooOften v heq, by simp⟩
      obtain ⟨ms, ok, h1, h2⟩ := key
      obtain ⟨rest, h3⟩ := ih (if ok then bump o seen else seen) hv' (by
        intro o'
        cases ok
        · exact hs o'
        · simp only [if_true, bump]
          split
          · rename_i he; subst he; exact h2 rfl
          · exact hs o')
      exact ⟨_, .option _ _ _ _ _ _ _ _ h1 h3⟩

/-! ## All rows -/

theorem rejectRest_eq (max : Nat) (rest : List CStr) (es : List ErrRec) :
    rejectRest max rest es = registerAll max es ((rest.map Mistake.unexpected).map toRec) := by
  induction rest generalizing es with
  | nil => rfl
  | cons w ws ih => exact ih _

theorem parseCheck_eq (slots : Nat → Slot) :
    parseCheck maxErrors slots mainTable 0 [] = if (slots 9).count < 1 then [toRec (.absent .exePath)] else [] := by
  by_cases h : (slots 9).count < 1
  · simp only [parseCheck, mainTable, check, Nat.not_lt_zero, if_false, Nat.zero_add, Nat.reduceAdd, h, if_true]
    rfl
  · simp only [parseCheck, mainTable, check, Nat.not_lt_zero, if_false, Nat.zero_add, Nat.reduceAdd, h]

theorem parse_rows {ws : List CStr} {ms : List Mistake} (h : Wrongs posix ws ms) :
    ∃ evs rest, scanWords posix mainLong ws = some (evs, rest) ∧
      (parseResult maxErrors mainTable evs rest).2 = registerAll maxErrors [] (ms.map toRec) := by
  obtain ⟨fs, rest, os, h1, h2, h3⟩ := h
  refine ⟨_, _, scanWords_of_reads h1, ?_⟩
  obtain ⟨b1, b2, b3, b4⟩ := fold_mistakes (max := maxErrors) h2 (reads_valued h1) ((fun _ => {}), []) (fun _ => rfl)
  unfold parseResult
  simp only [rejectRest_eq, b1, ← registerAll_append, ← List.map_append, parseCheck_eq]
  have hne : ∀ l : List Mistake, l ≠ [] → registerAll maxErrors [] (l.map toRec) ≠ [] := by
    intro l hl
    by_cases hlen : l.length ≤ 10
    · rw [registerAll_few _ _ (by simpa [maxErrors] using hlen)]
      simpa using hl
    · rw [show maxErrors = 9 + 1 from rfl, registerAll_many 9 _ (by simp; omega)]
      simp
  rcases h3 with ⟨h3, rfl⟩ | ⟨h3, h4, rfl⟩ | ⟨h3, ⟨v, w, h4⟩, rfl⟩
  · rw [if_neg (hne _ h3)]
  · rw [h3, if_pos (show registerAll maxErrors [] (List.map toRec []) = [] from rfl)]
    have := b3 .exePath h4
    have e : Opt.ix .exePath = 9 := rfl
    rw [e] at this
    rw [if_pos (by omega)]
    rfl
  · rw [h3, if_pos (show registerAll maxErrors [] (List.map toRec []) = [] from rfl)]
    have := b4 (List.append_eq_nil_iff.1 h3).1 .exePath v w h4
    have e : Opt.ix .exePath = 9 := rfl
    rw [e] at this
    rw [if_neg (by omega)]
    rfl

theorem wrongs_total {ws : List CStr} (h : scanWords posix mainLong ws ≠ none) : ∃ ms, Wrongs posix ws ms := by
  obtain ⟨fs, rest, h1⟩ := reads_of_scanWords ws.length ws (Nat.le_refl _) h
  obtain ⟨os, h2⟩ := mistakes_total fs (fun _ => 0) (reads_valued h1) (fun _ => Nat.zero_le _)
  by_cases h3 : os ++ rest.map .unexpected = []
  · by_cases h4 : ∃ v w, .option .exePath v w ∈ fs
    · exact ⟨_, fs, rest, os, h1, h2, Or.inr (Or.inr ⟨h3, h4, rfl⟩)⟩
    · exact ⟨_, fs, rest, os, h1, h2, Or.inr (Or.inl ⟨h3, fun v w hm => h4 ⟨v, w, hm⟩, rfl⟩)⟩
  · exact ⟨_, fs, rest, os, h1, h2, Or.inl ⟨h3, rfl⟩⟩

theorem mistakes_plain {seen : Opt → Nat} {fs : List Finding} {ms : List Mistake} (h : Mistakes seen fs ms) (hp : ∀ f ∈ fs, PlainFound f) :
    ∀ m ∈ ms, NoNul (quoted m) ∧ (quoted m).length < 131072 ∧ Sensible m := by
  induction h with
  | nil => simp
  | option seen o v w fs ms ok rest hj _ ih =>
    have hf := hp _ (List.mem_cons_self ..)
    have ih' := ih fun f hm => hp f (List.mem_cons_of_mem _ hm)
    intro m hm
    simp only [List.mem_append] at hm
    rcases hm with (hm | hm) | hm
    · split at hm
      · simp only [List.mem_singleton] at hm
        subst hm
        exact ⟨hf.2.1, hf.2.2, trivial⟩
      · cases hm
    · cases hj with
      | tooOften _ _ =>
        simp only [List.mem_singleton] at hm
        subst hm
        cases v with
        | none => exact ⟨by simp [quoted, NoNul], by simp [quoted], trivial⟩
        | some t => exact ⟨(hf.1 t rfl).1, (hf.1 t rfl).2, trivial⟩
      | accepted => cases hm
      | notInteger t _ ht _ =>
        simp only [List.mem_singleton] at hm
        subst hm
        exact ⟨(hf.1 t rfl).1, (hf.1 t rfl).2, ht⟩
      | tooLarge t _ _ ht _ _ =>
        simp only [List.mem_singleton] at hm
        subst hm
        exact ⟨(hf.1 t rfl).1, (hf.1 t rfl).2, ht⟩
    · exact ih' m hm
  | unknown seen w fs rest _ ih =>
    have hf := hp _ (List.mem_cons_self ..)
    have ih' := ih fun f hm => hp f (List.mem_cons_of_mem _ hm)
    intro m hm
    simp only [List.mem_cons] at hm
    rcases hm with rfl | hm
    · exact ⟨hf.1, hf.2, trivial⟩
    · exact ih' m hm
  | letter seen c fs rest _ ih =>
    have hf := hp _ (List.mem_cons_self ..)
    have ih' := ih fun f hm => hp f (List.mem_cons_of_mem _ hm)
    intro m hm
    simp only [List.mem_cons] at hm
    rcases hm with rfl | hm
    · refine ⟨?_, by simp [quoted], trivial⟩
      simp only [quoted, NoNul, List.mem_singleton]
      exact fun h => hf h.symm
    · exact ih' m hm
  | incomplete seen w fs rest _ ih =>
    have hf := hp _ (List.mem_cons_self ..)
    have ih' := ih fun f hm => hp f (List.mem_cons_of_mem _ hm)
    intro m hm
    simp only [List.mem_cons] at hm
    rcases hm with rfl | hm
    · exact ⟨hf.1, hf.2, trivial⟩
    · exact ih' m hm

theorem wrongs_plain {ws : List CStr} {ms : List Mistake} (h : Wrongs posix ws ms) (hp : Plain ws) :
    ∀ m ∈ ms, NoNul (quoted m) ∧ (quoted m).length < 131072 ∧ Sensible m := by
  obtain ⟨fs, rest, os, h1, h2, h3⟩ := h
  obtain ⟨p1, p2⟩ := reads_plain h1 hp
  rcases h3 with ⟨h3, rfl⟩ | ⟨h3, h4, rfl⟩ | ⟨h3, _, rfl⟩
  · intro m hm
    simp only [List.mem_append, List.mem_map] at hm
    rcases hm with hm | ⟨w, hw, rfl⟩
    · exact mistakes_plain h2 p1 m hm
    · exact ⟨(p2 w hw).1, (p2 w hw).2, trivial⟩
  · intro m hm
    simp only [List.mem_singleton] at hm
    subst hm
    exact ⟨by decide, by decide, by simp [Sensible, Opt.takes]⟩
  · simp

/-! ## The report -/

/-- The lines printed for these mistakes. -/
def printedLines (ms : List Mistake) : List CStr :=
  if ms.length ≤ 10 then ms.map lineOf else (ms.take 9).map lineOf ++ [reportLine c!"too many errors to display"]

theorem rows_lines {ms : List Mistake} (h : ∀ m ∈ ms, NoNul (quoted m) ∧ Sensible m) :
    List.Forall₂ (fun r l => Adds (printError r) l) (registerAll maxErrors [] (ms.map toRec)) (printedLines ms) := by
  have key : ∀ l : List Mistake, (∀ m ∈ l, NoNul (quoted m) ∧ Sensible m) →
      List.Forall₂ (fun r l => Adds (printError r) l) (l.map toRec) (l.map lineOf) := by
    intro l
    induction l with
    | nil => exact fun _ => .nil
    | cons m l ih =>
      intro h
      exact .cons (adds_row (h m (List.mem_cons_self ..)).1 (h m (List.mem_cons_self ..)).2) (ih fun m hm => h m (List.mem_cons_of_mem _ hm))
  unfold printedLines
  by_cases hlen : ms.length ≤ 10
  · rw [if_pos hlen, registerAll_few _ _ (by simpa [maxErrors] using hlen)]
    exact key ms h
  · rw [if_neg hlen, show maxErrors = 9 + 1 from rfl, registerAll_many 9 _ (by simp; omega), ← List.map_take]
    have h1 := key (ms.take 9) fun m hm => h m (List.mem_of_mem_take hm)
    generalize (ms.take 9).map toRec = a at h1
    generalize (ms.take 9).map lineOf = b at h1
    induction h1 with
    | nil => exact .cons adds_limit .nil
    | cons x _ ih => exact .cons x ih

theorem printed_length {ms : List Mistake} (h : ∀ m ∈ ms, (quoted m).length < 131072) : (printedLines ms).flatten.length ≤ 1000000000 := by
  have key : ∀ l : List Mistake, (∀ m ∈ l, (quoted m).length < 131072) → (l.map lineOf).flatten.length ≤ l.length * 131472 := by
    intro l
    induction l with
    | nil => simp
    | cons m l ih =>
      intro h
      have h1 := lineOf_length m
      have h2 := h m (List.mem_cons_self ..)
      have h3 := ih fun m hm => h m (List.mem_cons_of_mem _ hm)
      simp only [List.map_cons, List.flatten_cons, List.length_append, List.length_cons]
      omega
  unfold printedLines
  split
  · have := key ms h
    omega
  · have := key (ms.take 9) fun m hm => h m (List.mem_of_mem_take hm)
    rw [List.length_take] at this
    rw [List.flatten_append, List.length_append]
    have e : [reportLine c!"too many errors to display"].flatten.length = 41 := by decide
    rw [e]
    omega

theorem reportText_rows {ms : List Mistake} (h : ∀ m ∈ ms, NoNul (quoted m) ∧ (quoted m).length < 131072 ∧ Sensible m) :
    reportText (registerAll maxErrors [] (ms.map toRec)) =
      some ((printedLines ms).flatten ++ c!"Try 'libjudger.so --help' for more information.\n") := by
  have h1 := adds_rows (rows_lines fun m hm => ⟨(h m hm).1, (h m hm).2.2⟩)
  obtain ⟨d, g1, g2⟩ := h1 dstrCreate [] rep_create (by
    have := printed_length fun m hm => (h m hm).2.1
    simpa using this)
  unfold reportText
  simp only [g1, Option.bind_eq_bind, Option.bind_some, g2.text, List.nil_append, List.append_assoc]
  rfl

theorem printed_eq {ms : List Mistake} (h : ∀ m ∈ ms, NoNul (quoted m)) (hc : ∀ m ∈ ms, ¬m.Control) :
    (printedLines ms).flatten ++ c!"Try 'libjudger.so --help' for more information.\n" = report ms := by
  unfold report
  congr 1
  unfold printedLines reportLines
  have key : ∀ l : List Mistake, (∀ m ∈ l, m ∈ ms) → l.map lineOf = (l.map Mistake.text).map reportLine := by
    intro l hl
    rw [List.map_map]
    exact List.map_congr_left fun m hm => lineOf_eq (hc m (hl m hm)) (h m (hl m hm))
  split
  · rw [key ms fun _ h => h]
    rfl
  · rw [key _ fun m hm => List.mem_of_mem_take hm]
    simp [List.flatMap]

end Judger.Report
