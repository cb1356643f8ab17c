import Verif.Lemmas.Getopt

/-! # The loop of `arg_parse_tagged` does what `scanWords` says -/

set_option autoImplicit false

namespace Judger

/-- The effect of one report of getopt on the values and the error rows. -/
def applyEv (max : Nat) (table : List ArgEntry) (q : (Nat → Slot) × List ErrRec) : Ev → (Nat → Slot) × List ErrRec
  | .opt i arg last =>
    let errs :=
      if arg = some [] ∧ (table[i]?.map (·.kind.hasArg)) = some 1 then
        registerError max q.2 { code := .emissarg, parent := none, argval := some last }
      else q.2
    match table[i]? with
    | none => (q.1, errs)
    | some e =>
      (setSlot q.1 i (scan e (q.1 i) arg).1,
        match (scan e (q.1 i) arg).2 with
        | none => errs
        | some c => registerError max errs { code := c, parent := some i, argval := arg })
  | .badLong last => (q.1, registerError max q.2 { code := .elongopt, parent := none, argval := some last })
  | .badShort c => (q.1, registerError max q.2 { code := .badShort c, parent := none, argval := none })
  | .missing last => (q.1, registerError max q.2 { code := .emissarg, parent := none, argval := some last })

/-- What the loop does with an option at `place`, then `fuel` more calls. -/
def afterOption (posix : Bool) (max : Nat) (table : List ArgEntry) (argc fuel : Nat) (p : PState) : Option PState :=
  match handle max table (readOption argc (shortOptions table) (longOptions table 0) p.g).1
      { p with g := (readOption argc (shortOptions table) (longOptions table 0) p.g).2 } with
  | some p' => tagged posix max table argc fuel p'
  | none => some { p with g := (readOption argc (shortOptions table) (longOptions table 0) p.g).2 }

/-- Between two calls of getopt. -/
structure AtWord (argc : Nat) (g : GState) : Prop where
  len : g.argv.length = argc
  pos : g.optind ≠ 0
  reset : g.optreset = false

variable {posix : Bool} {max : Nat} {table : List ArgEntry} {argc : Nat}

theorem tagged_zero (p : PState) : tagged posix max table argc 0 p = none := rfl

theorem beginCall_ready {g : GState} (h : AtWord argc g) : beginCall g = { g with optarg := none } := by
  unfold beginCall
  simp [h.pos, h.reset]

theorem tagged_go {p : PState} {g' : GState} (fuel : Nat)
    (hf : fetchWord argc (!posix) (beginCall p.g) = .go g') :
    tagged posix max table argc (fuel + 1) p = afterOption posix max table argc fuel { p with g := g' } := by
  rw [tagged]
  unfold taggedStep getoptLong
  rw [hf]
  simp only [afterOption]
  generalize readOption argc (shortOptions table) (longOptions table 0) g' = x
  obtain ⟨r, g⟩ := x
  cases hh : handle max table r { p with g := g } <;> simp

theorem tagged_ret {p : PState} {g' : GState} (fuel : Nat)
    (hf : fetchWord argc (!posix) (beginCall p.g) = .ret .done g') :
    tagged posix max table argc (fuel + 1) p = some { p with g := g' } := by
  rw [tagged]
  unfold taggedStep getoptLong
  rw [hf]
  simp [handle]

theorem tagged_mid {p : PState} (h : AtWord argc p.g) (hp : p.g.place ≠ []) (fuel : Nat) :
    tagged posix max table argc (fuel + 1) p =
      afterOption posix max table argc fuel { p with g := { p.g with optarg := none } } := by
  apply tagged_go
  rw [beginCall_ready h]
  simp [fetchWord, h.reset, hp]

theorem fetch_fresh {g : GState} (h : AtWord argc g) (hp : g.place = []) :
    fetchWord argc (!posix) (beginCall g) = nextWord argc (!posix) { g with optarg := none } := by
  rw [beginCall_ready h]
  have := h.reset
  simp [fetchWord, hp, this]

/-- A word that getopt reads as an option. -/
def IsOptWord (w : CStr) : Prop := ¬(w.head? ≠ some '-' ∨ w.tail = []) ∧ w.tail ≠ ['-']

theorem nextWord_option {permute : Bool} {g : GState} {w : CStr} (hg : g.argv[g.optind]? = some w) (hlen : g.argv.length = argc)
    (hw : IsOptWord w) : nextWord argc permute g = .go { noteOption g with place := w.tail } := by
  have hl := (List.getElem?_eq_some_iff.1 hg).1
  rw [nextWord]
  rw [if_neg (by omega)]
  simp only [hg, Option.getD_some]
  rw [if_neg hw.1, if_neg hw.2]

theorem AtWord.note {g : GState} (h : AtWord argc g) (pl : CStr) : AtWord argc { noteOption g with place := pl } := by
  constructor
  · simp only [noteOption]; split <;> exact h.len
  · simp only [noteOption]; split <;> exact h.pos
  · simp only [noteOption]; split <;> exact h.reset

/-- Starting on an option word, or on it again. -/
theorem tagged_option {p : PState} {w ws pos} (h : AtWord argc p.g) (hp : p.g.place = [])
    (hi : Inv p.g (w :: ws) pos ∨ InvOpt p.g (w :: ws) pos) (hw : IsOptWord w) :
    ∃ g', InvOpt g' (w :: ws) pos ∧ AtWord argc g' ∧ g'.place = w.tail ∧ g'.optarg = none ∧
      ∀ fuel, tagged posix max table argc (fuel + 1) p = afterOption posix max table argc fuel { p with g := g' } := by
  have hi' : InvOpt (noteOption { p.g with optarg := none }) (w :: ws) pos := by
    rcases hi with hi | hi
    · exact noteOption_inv (hi.congr rfl rfl rfl rfl)
    · exact noteOption_invOpt (hi.congr rfl rfl rfl rfl)
  have hget : p.g.argv[p.g.optind]? = some w := by
    rcases hi with hi | hi
    · exact hi.get
    · exact hi.get
  have hr : AtWord argc { p.g with optarg := none } := ⟨h.len, h.pos, h.reset⟩
  refine ⟨{ noteOption { p.g with optarg := none } with place := w.tail }, ?_, hr.note _, rfl, ?_, ?_⟩
  · exact hi'.congr rfl rfl rfl rfl
  · simp only [noteOption]; split <;> rfl
  · intro fuel
    apply tagged_go
    rw [fetch_fresh h hp, nextWord_option (g := { p.g with optarg := none }) hget h.len hw]

/-! ## Option letters -/

theorem readOption_letter {c r} {g : GState} (hs : shortOptions table = [':']) (hp : g.place = c :: r) (hc : c ≠ '-') :
    readOption argc (shortOptions table) (longOptions table 0) g =
      (.badch, { g with place := r, optopt := some c, optind := if r = [] then g.optind + 1 else g.optind }) := by
  have h1 : readOption argc (shortOptions table) (longOptions table 0) g = parseShort argc (shortOptions table) g := by
    unfold readOption
    rw [hp]
    split
    · rename_i heq; simp at heq; exact absurd heq.1 hc
    · rfl
  rw [h1, hs]
  unfold parseShort
  rw [hp]
  by_cases hcol : c = ':'
  · subst hcol
    simp [strchr, parseShort.bad]
    split <;> simp
  · have : (':' : Char) ≠ c := fun h => hcol h.symm
    simp [strchr, this, parseShort.bad, hc]
    split <;> simp

theorem readOption_hang {g : GState} (hp : g.place = ['-']) :
    readOption argc (shortOptions table) (longOptions table 0) g = (.badarg, { g with place := [] }) := by
  simp [readOption, hp]

theorem cluster_letter {c : Char} {r : CStr} (hc : c ≠ '-') :
    cluster (c :: r) = (.badShort c :: (cluster r).1, (cluster r).2) := by
  simp [cluster, hc]

/-- The state after an unknown letter `c`, `r` being the rest of the word. -/
def letterState (max : Nat) (p : PState) (c : Char) (r : CStr) : PState :=
  { p with
    g := { p.g with place := r, optopt := some c, optind := if r = [] then p.g.optind + 1 else p.g.optind }
    errs := registerError max p.errs { code := .badShort c, parent := none, argval := none } }

theorem letterState_ready {p : PState} {c r} (h : AtWord argc p.g) : AtWord argc (letterState max p c r).g := by
  refine ⟨h.len, ?_, h.reset⟩
  have := h.pos
  simp only [letterState]
  split <;> omega

theorem afterOption_letter {p : PState} {c r} (fuel : Nat) (hs : shortOptions table = [':']) (hp : p.g.place = c :: r)
    (hc : c ≠ '-') :
    afterOption posix max table argc fuel p = tagged posix max table argc fuel (letterState max p c r) := by
  unfold afterOption
  rw [readOption_letter hs hp hc]
  simp [handle, letterState]

/-- A word with letters only, or letters before a long option. -/
theorem cluster_run (hs : shortOptions table = [':']) (w : CStr) (ws pos : List CStr) (cs : CStr) :
    ∀ p : PState, p.g.place = cs → cs ≠ [] → AtWord argc p.g → InvOpt p.g (w :: ws) pos → p.g.optarg = none →
    match (cluster cs).2 with
    | .hang => True
    | .stop => ∃ k p', (∀ fuel, afterOption posix max table argc (fuel + k) p = tagged posix max table argc fuel p') ∧
        AtWord argc p'.g ∧ Inv p'.g ws pos ∧ p'.g.place = [] ∧
        (p'.slots, p'.errs) = (cluster cs).1.foldl (applyEv max table) (p.slots, p.errs)
    | .long body => ∃ k p', (∀ fuel, afterOption posix max table argc (fuel + k) p = afterOption posix max table argc fuel p') ∧
        AtWord argc p'.g ∧ InvOpt p'.g (w :: ws) pos ∧ p'.g.place = '-' :: body ∧ p'.g.optarg = none ∧ body ≠ [] ∧
        (p'.slots, p'.errs) = (cluster cs).1.foldl (applyEv max table) (p.slots, p.errs) := by
  induction cs with
  | nil => intro p _ h; exact absurd rfl h
  | cons c r ih =>
    intro p hp _ hr hi ho
    by_cases hc : c = '-'
    · subst hc
      by_cases hb : r = []
      · subst hb; simp [cluster]
      · simp only [cluster, if_true, hb, if_false]
        exact ⟨0, p, fun _ => rfl, hr, hi, hp, ho, hb, rfl⟩
    · rw [cluster_letter hc]
      by_cases hb : r = []
      · subst hb
        simp only [cluster]
        refine ⟨0, letterState max p c [], fun fuel => afterOption_letter fuel hs hp hc, letterState_ready hr, ?_, rfl, ?_⟩
        · exact hi.stepInv (g' := (letterState max p c []).g) rfl (by simp [letterState]) rfl rfl
        · simp [applyEv, letterState]
      · let q : PState :=
          { p with
            g := { p.g with place := r, optopt := some c, optarg := none }
            errs := registerError max p.errs { code := .badShort c, parent := none, argval := none } }
        have hrq : AtWord argc q.g := ⟨hr.len, hr.pos, hr.reset⟩
        have key : ∀ fuel, afterOption posix max table argc (fuel + 1) p = afterOption posix max table argc fuel q := by
          intro fuel
          rw [afterOption_letter (fuel + 1) hs hp hc]
          rw [tagged_mid (p := letterState max p c r) (letterState_ready hr) hb]
          simp [q, hb, letterState]
        have := ih q rfl hb hrq (hi.congr rfl rfl rfl rfl) rfl
        simp only
        split
        · trivial
        · rename_i heq
          rw [heq] at this
          obtain ⟨k, p', h1, h2, h3, h4, h5⟩ := this
          refine ⟨k + 1, p', fun fuel => ?_, h2, h3, h4, ?_⟩
          · rw [← Nat.add_assoc, key, h1]
          · rw [h5]; simp [q, applyEv]
        · rename_i body heq
          rw [heq] at this
          obtain ⟨k, p', h1, h2, h3, h4, h5, h6, h7⟩ := this
          refine ⟨k + 1, p', fun fuel => ?_, h2, h3, h4, h5, h6, ?_⟩
          · rw [← Nat.add_assoc, key, h1]
          · rw [h7]; simp [q, applyEv]

/-- A hanging word is never finished. -/
theorem hang_run (hs : shortOptions table = [':']) (w : CStr) (ws pos : List CStr) (hw : IsOptWord w)
    (hh : (cluster w.tail).2 = .hang) (fuel : Nat) :
    ∀ (p : PState) (cs : CStr), (cluster cs).2 = .hang → p.g.place = cs → AtWord argc p.g → InvOpt p.g (w :: ws) pos →
      afterOption posix max table argc fuel p = none := by
  induction fuel with
  | zero =>
    intro p cs hcs hp hr hi
    cases cs with
    | nil => simp [cluster] at hcs
    | cons c r =>
      by_cases hc : c = '-'
      · subst hc
        have hb : r = [] := by
          by_cases hb : r = []
          · exact hb
          · simp [cluster, hb] at hcs
        subst hb
        unfold afterOption
        rw [readOption_hang hp]
        simp [handle, tagged]
      · rw [afterOption_letter 0 hs hp hc, tagged]
  | succ fuel ih =>
    intro p cs hcs hp hr hi
    cases cs with
    | nil => simp [cluster] at hcs
    | cons c r =>
      by_cases hc : c = '-'
      · subst hc
        have hb : r = [] := by
          by_cases hb : r = []
          · exact hb
          · simp [cluster, hb] at hcs
        subst hb
        unfold afterOption
        rw [readOption_hang hp]
        simp only [handle]
        obtain ⟨g', h1, h2, h3, h4, h5⟩ := tagged_option (posix := posix) (max := max) (table := table)
          (p := { p with
            g := { p.g with place := [] }
            errs := registerError max p.errs { code := .emissarg, parent := none, argval := lastWord { p.g with place := [] } } })
          (argc := argc) (w := w) (ws := ws) (pos := pos) ⟨hr.len, hr.pos, hr.reset⟩ rfl
          (.inr (hi.congr rfl rfl rfl rfl)) hw
        rw [h5 fuel]
        exact ih _ w.tail hh h3 h2 h1
      · rw [afterOption_letter (fuel + 1) hs hp hc]
        rw [cluster_letter hc] at hcs
        have hb : r ≠ [] := by
          intro hb; subst hb; simp [cluster] at hcs
        rw [tagged_mid (p := letterState max p c r) (letterState_ready hr) hb]
        have hr' : AtWord argc (letterState max p c r).g := letterState_ready hr
        exact ih _ r hcs rfl ⟨hr'.len, hr'.pos, hr'.reset⟩ (hi.congr rfl (by simp [letterState, hb]) rfl rfl)

/-! ## Long options -/

theorem parseLong_eq (L : List LongOpt) {g : GState} (ho : g.optarg = none) :
    parseLongOptions L g =
      match longUse L g.place with
      | .bad => (.badch, { g with optind := g.optind + 1, optopt := none })
      | .flag o => (.long, { g with optind := g.optind + 1, getoptval := o.val })
      | .inline o v => (.long, { g with optind := g.optind + 1, optarg := some v, getoptval := o.val })
      | .next o =>
        match g.argv[g.optind + 1]? with
        | none => (.badarg, { g with optind := g.optind + 1, optopt := none })
        | some v => (.long, { g with optind := g.optind + 1 + 1, optarg := some v, getoptval := o.val }) := by
  unfold parseLongOptions longUse nameLen
  simp only
  generalize findLong g.place _ L _ = f
  by_cases h1 : (!f.exact && f.second) = true
  · simp [h1]
  · simp only [h1]
    cases hm : f.matched with
    | none => simp
    | some o =>
      cases he : strchr g.place '=' with
      | none =>
        by_cases h2 : o.hasArg = 1
        · cases hv : g.argv[g.optind + 1]? <;> simp [h2, ho]
        · simp [h2, ho]
      | some r =>
        by_cases h0 : o.hasArg = 0
        · simp [h0]
        · by_cases h2 : o.hasArg = 1 ∨ o.hasArg = 2
          · simp [h0, h2]
          · have : o.hasArg ≠ 1 := fun h => h2 (Or.inl h)
            have h3 : o.hasArg ≠ 2 := fun h => h2 (Or.inr h)
            simp [h0, h3, this]

theorem Inv.last {g w ws pos} {g' : GState} (h : Inv g (w :: ws) pos) (ha : g'.argv = g.argv)
    (hi : g'.optind = g.optind + 1) : lastWord g' = some w := by
  unfold lastWord
  rw [ha, hi]
  exact h.get

theorem InvOpt.last {g w ws pos} {g' : GState} (h : InvOpt g (w :: ws) pos) (ha : g'.argv = g.argv)
    (hi : g'.optind = g.optind + 1) : lastWord g' = some w := by
  unfold lastWord
  rw [ha, hi]
  exact h.get

theorem afterOption_eq {p : PState} {r : GRet} {g : GState} (fuel : Nat)
    (h : readOption argc (shortOptions table) (longOptions table 0) p.g = (r, g)) {p' : PState}
    (hh : handle max table r { p with g := g } = some p') :
    afterOption posix max table argc fuel p = tagged posix max table argc fuel p' := by
  unfold afterOption
  rw [h]
  simp [hh]

theorem handle_long {p : PState} {last : CStr} (h : lastWord p.g = some last) :
    ∃ p', handle max table .long p = some p' ∧ p'.g = p.g ∧
      (p'.slots, p'.errs) = applyEv max table (p.slots, p.errs) (.opt p.g.getoptval p.g.optarg last) := by
  refine ⟨_, rfl, ?_, ?_⟩
  · simp only [scanInto]
    by_cases hc : p.g.optarg = some [] ∧ (table[p.g.getoptval]?.map (·.kind.hasArg)) = some 1
    · rw [if_pos hc]
      split
      · rfl
      · split <;> rfl
    · rw [if_neg hc]
      split
      · rfl
      · split <;> rfl
  · simp only [scanInto, applyEv]
    by_cases hc : p.g.optarg = some [] ∧ (table[p.g.getoptval]?.map (·.kind.hasArg)) = some 1
    · rw [if_pos hc, if_pos hc, h]
      split
      · rename_i heq; simp [heq]
      · rename_i e heq
        simp only [heq]
        split <;> rename_i h2 <;> simp_all
    · rw [if_neg hc, if_neg hc]
      split
      · rename_i heq; simp [heq]
      · rename_i e heq
        simp only [heq]
        split <;> rename_i h2 <;> simp_all

/-- A long option word that takes no further word. -/
theorem long_one {p : PState} {w ws pos body} {u : Ev} (hr : AtWord argc p.g) (hi : InvOpt p.g (w :: ws) pos)
    (hp : p.g.place = '-' :: body) (ho : p.g.optarg = none) (hb : body ≠ [])
    (hu : match longUse (longOptions table 0) body with
      | .bad => u = .badLong w
      | .flag o => u = .opt o.val none w
      | .inline o v => u = .opt o.val (some v) w
      | .next _ => ws = [] ∧ u = .missing w) :
    ∃ p', (∀ fuel, afterOption posix max table argc fuel p = tagged posix max table argc fuel p') ∧
      AtWord argc p'.g ∧ Inv p'.g ws pos ∧ p'.g.place = [] ∧
      (p'.slots, p'.errs) = applyEv max table (p.slots, p.errs) u := by
  have hread : readOption argc (shortOptions table) (longOptions table 0) p.g =
      ((parseLongOptions (longOptions table 0) { p.g with place := body }).1,
        { (parseLongOptions (longOptions table 0) { p.g with place := body }).2 with place := [] }) := by
    simp [readOption, hp, hb]
  rw [parseLong_eq _ (by exact ho)] at hread
  simp only at hread
  cases hl : longUse (longOptions table 0) body with
  | bad =>
    rw [hl] at hread hu
    subst hu
    have hlast := hi.last (g' := { p.g with optind := p.g.optind + 1, optopt := none, place := [] }) rfl rfl
    refine ⟨_, fun fuel => afterOption_eq fuel hread rfl, ⟨hr.len, ?_, hr.reset⟩, ?_, rfl, ?_⟩
    · simp
    · exact hi.stepInv (g' := { p.g with optind := p.g.optind + 1, optopt := none, place := [] }) rfl rfl rfl rfl
    · simp only [applyEv, hlast]
  | flag o =>
    rw [hl] at hread hu
    subst hu
    have hlast := hi.last (g' := { p.g with optind := p.g.optind + 1, getoptval := o.val, place := [] }) rfl rfl
    obtain ⟨p', h1, h2, h3⟩ := handle_long (max := max) (table := table)
      (p := { p with g := { p.g with optind := p.g.optind + 1, getoptval := o.val, place := [] } }) hlast
    refine ⟨p', fun fuel => afterOption_eq fuel hread h1, ?_, ?_, ?_, ?_⟩
    · rw [h2]; exact ⟨hr.len, by simp, hr.reset⟩
    · rw [h2]; exact hi.stepInv rfl rfl rfl rfl
    · rw [h2]
    · rw [h3]; simp [ho]
  | inline o v =>
    rw [hl] at hread hu
    subst hu
    have hlast := hi.last
      (g' := { p.g with optind := p.g.optind + 1, optarg := some v, getoptval := o.val, place := [] }) rfl rfl
    obtain ⟨p', h1, h2, h3⟩ := handle_long (max := max) (table := table)
      (p := { p with g := { p.g with optind := p.g.optind + 1, optarg := some v, getoptval := o.val, place := [] } }) hlast
    refine ⟨p', fun fuel => afterOption_eq fuel hread h1, ?_, ?_, ?_, ?_⟩
    · rw [h2]; exact ⟨hr.len, by simp, hr.reset⟩
    · rw [h2]; exact hi.stepInv rfl rfl rfl rfl
    · rw [h2]
    · rw [h3]
  | next o =>
    rw [hl] at hread hu
    obtain ⟨rfl, rfl⟩ := hu
    have hlen := hi.length
    have : p.g.argv[p.g.optind + 1]? = none := by simp at hlen; simp; omega
    simp only [this] at hread
    have hlast := hi.last (g' := { p.g with optind := p.g.optind + 1, optopt := none, place := [] }) rfl rfl
    refine ⟨_, fun fuel => afterOption_eq fuel hread rfl, ⟨hr.len, ?_, hr.reset⟩, ?_, rfl, ?_⟩
    · simp
    · exact hi.stepInv (g' := { p.g with optind := p.g.optind + 1, optopt := none, place := [] }) rfl rfl rfl rfl
    · simp only [applyEv, hlast]

/-- A long option word that takes the next word as its value. -/
theorem long_two {p : PState} {w v ws pos body} {o : LongOpt} (hr : AtWord argc p.g) (hi : InvOpt p.g (w :: v :: ws) pos)
    (hp : p.g.place = '-' :: body) (ho : p.g.optarg = none) (hb : body ≠ [])
    (hl : longUse (longOptions table 0) body = .next o) :
    ∃ p', (∀ fuel, afterOption posix max table argc fuel p = tagged posix max table argc fuel p') ∧
      AtWord argc p'.g ∧ Inv p'.g ws pos ∧ p'.g.place = [] ∧
      (p'.slots, p'.errs) = applyEv max table (p.slots, p.errs) (.opt o.val (some v) v) := by
  have hread : readOption argc (shortOptions table) (longOptions table 0) p.g =
      ((parseLongOptions (longOptions table 0) { p.g with place := body }).1,
        { (parseLongOptions (longOptions table 0) { p.g with place := body }).2 with place := [] }) := by
    simp [readOption, hp, hb]
  rw [parseLong_eq _ (by exact ho)] at hread
  simp only [hl] at hread
  have hi1 : InvOpt { p.g with optind := p.g.optind + 1 } (v :: ws) pos := hi.step rfl rfl rfl rfl
  have : p.g.argv[p.g.optind + 1]? = some v := hi1.get
  simp only [this] at hread
  have hlast := hi1.last
    (g' := { p.g with optind := p.g.optind + 1 + 1, optarg := some v, getoptval := o.val, place := [] }) rfl rfl
  obtain ⟨p', h1, h2, h3⟩ := handle_long (max := max) (table := table)
    (p := { p with g := { p.g with optind := p.g.optind + 1 + 1, optarg := some v, getoptval := o.val, place := [] } }) hlast
  refine ⟨p', fun fuel => afterOption_eq fuel hread h1, ?_, ?_, ?_, ?_⟩
  · rw [h2]; exact ⟨hr.len, by simp, hr.reset⟩
  · rw [h2]; exact hi1.stepInv rfl rfl rfl rfl
  · rw [h2]
  · rw [h3]

end Judger
