import Verif.Model.Main
import Verif.Lemmas.Permute

/-! # What the getopt loop does, word by word -/

set_option autoImplicit false

namespace Judger

/-- One thing getopt reports to `arg_parse_tagged`; `last` is `argv[optind - 1]` at that time. -/
inductive Ev where
  | opt (i : Nat) (arg : Option CStr) (last : CStr)
  | badLong (last : CStr)
  | badShort (c : Char)
  | missing (last : CStr)
deriving Repr, DecidableEq

/-- How an option word ends after its unknown letters. -/
inductive Tail where
  | stop
  | long (body : CStr)
  | hang
deriving Repr, DecidableEq

/-- The letters of an option word (without its first '-'). -/
def cluster : CStr → List Ev × Tail
  | [] => ([], .stop)
  | c :: r =>
    if c = '-' then ([], if r = [] then .hang else .long r)
    else (.badShort c :: (cluster r).1, (cluster r).2)

/-- What a long option word asks for. -/
inductive LongUse where
  | bad
  | flag (o : LongOpt)
  | inline (o : LongOpt) (v : CStr)
  | next (o : LongOpt)
deriving Repr, DecidableEq

/-- The length of the name part of a long option word. -/
def nameLen (body : CStr) : Nat :=
  match strchr body '=' with
  | some r => body.length - r.length
  | none => body.length

/-- The long option word `body` (without dashes). -/
def longUse (L : List LongOpt) (body : CStr) : LongUse :=
  let f := findLong body (nameLen body) L { matched := none, exact := false, second := false }
  if !f.exact && f.second then .bad
  else
    match f.matched with
    | none => .bad
    | some o =>
      match strchr body '=' with
      | some r => if o.hasArg = 0 then .bad else if o.hasArg = 1 ∨ o.hasArg = 2 then .inline o (r.drop 1) else .flag o
      | none => if o.hasArg = 1 then .next o else .flag o

/-- What getopt reports for the words `ws` and the positional words it leaves; `none` if it never finishes. -/
def scanWords (posix : Bool) (L : List LongOpt) : List CStr → Option (List Ev × List CStr)
  | [] => some ([], [])
  | w :: ws =>
    if w.head? ≠ some '-' ∨ w.tail = [] then
      if posix then some ([], w :: ws)
      else (scanWords posix L ws).map fun r => (r.1, w :: r.2)
    else if w.tail = ['-'] then some ([], ws)
    else
      match (cluster w.tail).2 with
      | .hang => none
      | .stop => (scanWords posix L ws).map fun r => ((cluster w.tail).1 ++ r.1, r.2)
      | .long body =>
        match longUse L body with
        | .bad => (scanWords posix L ws).map fun r => ((cluster w.tail).1 ++ .badLong w :: r.1, r.2)
        | .flag o => (scanWords posix L ws).map fun r => ((cluster w.tail).1 ++ .opt o.val none w :: r.1, r.2)
        | .inline o v => (scanWords posix L ws).map fun r => ((cluster w.tail).1 ++ .opt o.val (some v) w :: r.1, r.2)
        | .next o =>
          match ws with
          | [] => some ((cluster w.tail).1 ++ [.missing w], [])
          | v :: ws' => (scanWords posix L ws').map fun r => ((cluster w.tail).1 ++ .opt o.val (some v) v :: r.1, r.2)

/-! ## Invariant of the argument vector -/

/-- Words before `optind` in the vector: options `A`, the positional words seen, further options `B`; then the words to come. -/
inductive Inv : GState → List CStr → List CStr → Prop
  | fresh (g : GState) (A ws : List CStr) : g.nonoptStart = none → g.nonoptEnd = none → g.argv = A ++ ws →
      g.optind = A.length → Inv g ws []
  | opened (g : GState) (A pos ws : List CStr) : g.nonoptStart = some A.length → g.nonoptEnd = none →
      g.argv = A ++ (pos ++ ws) → g.optind = A.length + pos.length → Inv g ws pos
  | closed (g : GState) (A pos B ws : List CStr) : B ≠ [] → g.nonoptStart = some A.length →
      g.nonoptEnd = some (A.length + pos.length) → g.argv = A ++ (pos ++ (B ++ ws)) →
      g.optind = A.length + pos.length + B.length → Inv g ws pos

/-- The same while an option word is being read: a block of positional words may be followed by no option yet. -/
inductive InvOpt : GState → List CStr → List CStr → Prop
  | fresh (g : GState) (A ws : List CStr) : g.nonoptStart = none → g.nonoptEnd = none → g.argv = A ++ ws →
      g.optind = A.length → InvOpt g ws []
  | closed (g : GState) (A pos B ws : List CStr) : g.nonoptStart = some A.length →
      g.nonoptEnd = some (A.length + pos.length) → g.argv = A ++ (pos ++ (B ++ ws)) →
      g.optind = A.length + pos.length + B.length → InvOpt g ws pos

theorem permuted_blocks {g : GState} (A P B R : List CStr) (hB : B ≠ []) (h : g.argv = A ++ (P ++ (B ++ R))) :
    permuted A.length (A.length + P.length) (A.length + P.length + B.length) g = { g with argv := A ++ (B ++ (P ++ R)) } := by
  unfold permuted
  rw [h, permuteArgs_blocks A P B R hB]

theorem Inv.drop {g ws pos} (h : Inv g ws pos) : g.argv.drop g.optind = ws := by
  cases h with
  | fresh A _ h1 h2 h3 h4 => rw [h3, h4]; simp
  | opened A _ _ h1 h2 h3 h4 => rw [h3, h4, List.drop_length_add_append]; simp
  | closed A _ B _ hB h1 h2 h3 h4 =>
    rw [h3, h4, Nat.add_assoc, List.drop_length_add_append, List.drop_length_add_append]; simp

theorem Inv.length {g ws pos} (h : Inv g ws pos) : g.argv.length = g.optind + ws.length := by
  cases h with
  | fresh A _ h1 h2 h3 h4 => simp [h3, h4]
  | opened A _ _ h1 h2 h3 h4 => simp [h3, h4]; omega
  | closed A _ B _ hB h1 h2 h3 h4 => simp [h3, h4]; omega

theorem Inv.get {g w ws pos} (h : Inv g (w :: ws) pos) : g.argv[g.optind]? = some w := by
  have := h.drop
  rw [← List.head?_drop, this]; rfl

theorem InvOpt.drop {g ws pos} (h : InvOpt g ws pos) : g.argv.drop g.optind = ws := by
  cases h with
  | fresh A _ h1 h2 h3 h4 => rw [h3, h4]; simp
  | closed A _ B _ h1 h2 h3 h4 =>
    rw [h3, h4, Nat.add_assoc, List.drop_length_add_append, List.drop_length_add_append]; simp

theorem InvOpt.length {g ws pos} (h : InvOpt g ws pos) : g.argv.length = g.optind + ws.length := by
  cases h with
  | fresh A _ h1 h2 h3 h4 => simp [h3, h4]
  | closed A _ B _ h1 h2 h3 h4 => simp [h3, h4]; omega

theorem InvOpt.get {g w ws pos} (h : InvOpt g (w :: ws) pos) : g.argv[g.optind]? = some w := by
  have := h.drop
  rw [← List.head?_drop, this]; rfl

/-- The invariant does not look at the other variables. -/
theorem Inv.congr {g g' ws pos} (h : Inv g ws pos) (h1 : g'.argv = g.argv) (h2 : g'.optind = g.optind)
    (h3 : g'.nonoptStart = g.nonoptStart) (h4 : g'.nonoptEnd = g.nonoptEnd) : Inv g' ws pos := by
  cases h with
  | fresh A _ a b c d => exact .fresh g' A ws (h3 ▸ a) (h4 ▸ b) (h1 ▸ c) (h2 ▸ d)
  | opened A _ _ a b c d => exact .opened g' A pos ws (h3 ▸ a) (h4 ▸ b) (h1 ▸ c) (h2 ▸ d)
  | closed A _ B _ hB a b c d => exact .closed g' A pos B ws hB (h3 ▸ a) (h4 ▸ b) (h1 ▸ c) (h2 ▸ d)

theorem InvOpt.congr {g g' ws pos} (h : InvOpt g ws pos) (h1 : g'.argv = g.argv) (h2 : g'.optind = g.optind)
    (h3 : g'.nonoptStart = g.nonoptStart) (h4 : g'.nonoptEnd = g.nonoptEnd) : InvOpt g' ws pos := by
  cases h with
  | fresh A _ a b c d => exact .fresh g' A ws (h3 ▸ a) (h4 ▸ b) (h1 ▸ c) (h2 ▸ d)
  | closed A _ B _ a b c d => exact .closed g' A pos B ws (h3 ▸ a) (h4 ▸ b) (h1 ▸ c) (h2 ▸ d)

/-- Consuming one word inside an option. -/
theorem InvOpt.step {g g' w ws pos} (h : InvOpt g (w :: ws) pos) (h1 : g'.argv = g.argv)
    (h2 : g'.optind = g.optind + 1) (h3 : g'.nonoptStart = g.nonoptStart) (h4 : g'.nonoptEnd = g.nonoptEnd) :
    InvOpt g' ws pos := by
  cases h with
  | fresh A _ a b c d =>
    refine .fresh g' (A ++ [w]) ws (h3 ▸ a) (h4 ▸ b) ?_ ?_
    · rw [h1, c]; simp
    · rw [h2, d]; simp
  | closed A _ B _ a b c d =>
    refine .closed g' A pos (B ++ [w]) ws (h3 ▸ a) (h4 ▸ b) ?_ ?_
    · rw [h1, c]; simp
    · rw [h2, d]; simp; omega

/-- After the last word of an option. -/
theorem InvOpt.stepInv {g g' w ws pos} (h : InvOpt g (w :: ws) pos) (h1 : g'.argv = g.argv)
    (h2 : g'.optind = g.optind + 1) (h3 : g'.nonoptStart = g.nonoptStart) (h4 : g'.nonoptEnd = g.nonoptEnd) :
    Inv g' ws pos := by
  cases h with
  | fresh A _ a b c d =>
    refine .fresh g' (A ++ [w]) ws (h3 ▸ a) (h4 ▸ b) ?_ ?_
    · rw [h1, c]; simp
    · rw [h2, d]; simp
  | closed A _ B _ a b c d =>
    refine .closed g' A pos (B ++ [w]) ws (by simp) (h3 ▸ a) (h4 ▸ b) ?_ ?_
    · rw [h1, c]; simp
    · rw [h2, d]; simp; omega

/-- The state is left with the positional words at the end of the vector. -/
structure Finished (argc : Nat) (g : GState) (pos : List CStr) : Prop where
  rest : g.argv.drop g.optind = pos
  len : g.argv.length = argc

theorem endOfWords_finished {g pos} (h : Inv g [] pos) : Finished g.argv.length (endOfWords g) pos := by
  cases h with
  | fresh A _ h1 h2 h3 h4 => constructor <;> simp [endOfWords, h1, h3, h4]
  | opened A _ _ h1 h2 h3 h4 => constructor <;> simp [endOfWords, h1, h2, h3]
  | closed A _ B _ hB h1 h2 h3 h4 =>
    have := permuted_blocks A pos B [] hB h3
    constructor
    · simp only [endOfWords, h1, h2, h4, this]
      rw [show A.length + pos.length + B.length - (A.length + pos.length - A.length) = A.length + B.length by omega]
      rw [List.drop_length_add_append]; simp
    · simp only [endOfWords, h1, h2, h4, this]
      rw [h3]; simp; omega

theorem noteNonOption_inv {g w ws pos} (h : Inv g (w :: ws) pos) (pl : CStr) :
    Inv { noteNonOption g with place := pl, optind := g.optind + 1 } ws (pos ++ [w]) := by
  cases h with
  | fresh A _ h1 h2 h3 h4 =>
    refine .opened _ A [w] ws ?_ ?_ ?_ ?_ <;> simp [noteNonOption, h1, h2, h3, h4]
  | opened A _ _ h1 h2 h3 h4 =>
    refine .opened _ A (pos ++ [w]) ws ?_ ?_ ?_ ?_ <;> simp [noteNonOption, h1, h2, h3, h4]
    omega
  | closed A _ B _ hB h1 h2 h3 h4 =>
    have := permuted_blocks A pos B (w :: ws) hB h3
    refine .opened _ (A ++ B) (pos ++ [w]) ws ?_ ?_ ?_ ?_
    · simp [noteNonOption, h1, h2, h4]; omega
    · simp [noteNonOption, h1, h2]
    · simp only [noteNonOption, h1, h2, h4, this]; simp
    · simp [h4]; omega

theorem noteOption_inv {g ws pos} (h : Inv g ws pos) : InvOpt (noteOption g) ws pos := by
  cases h with
  | fresh A _ h1 h2 h3 h4 =>
    refine .fresh _ A ws ?_ ?_ ?_ ?_ <;> simp [noteOption, h1, h2, h3, h4]
  | opened A _ _ h1 h2 h3 h4 =>
    refine .closed _ A pos [] ws ?_ ?_ ?_ ?_ <;> simp [noteOption, h1, h2, h3, h4]
  | closed A _ B _ hB h1 h2 h3 h4 =>
    refine .closed _ A pos B ws ?_ ?_ ?_ ?_ <;> simp [noteOption, h1, h2, h3, h4]

/-- A word that is read again. -/
theorem noteOption_invOpt {g ws pos} (h : InvOpt g ws pos) : InvOpt (noteOption g) ws pos := by
  cases h with
  | fresh A _ h1 h2 h3 h4 =>
    refine .fresh _ A ws ?_ ?_ ?_ ?_ <;> simp [noteOption, h1, h2, h3, h4]
  | closed A _ B _ h1 h2 h3 h4 =>
    refine .closed _ A pos B ws ?_ ?_ ?_ ?_ <;> simp [noteOption, h1, h2, h3, h4]

theorem noteOption_optind (g : GState) : (noteOption g).optind = g.optind := by
  unfold noteOption; split <;> rfl

theorem dashDash_finished {g w ws pos} (h : InvOpt g (w :: ws) pos) : Finished g.argv.length (dashDash g) (pos ++ ws) := by
  cases h with
  | fresh A _ h1 h2 h3 h4 =>
    constructor <;> simp [dashDash, h1, h3, h4]
  | closed A _ B _ h1 h2 h3 h4 =>
    have := permuted_blocks (g := g) A pos (B ++ [w]) ws (by simp) (by simp [h3])
    have e : g.optind + 1 = A.length + pos.length + (B ++ [w]).length := by rw [h4]; simp; omega
    constructor
    · simp only [dashDash, h1, h2, e, this]
      rw [show A.length + pos.length + (B ++ [w]).length - (A.length + pos.length - A.length) = A.length + (B ++ [w]).length by omega,
        List.drop_length_add_append, List.drop_left]
    · simp only [dashDash, h1, h2, e, this]
      rw [h3]; simp; omega

end Judger
