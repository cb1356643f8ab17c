import Verif.Lemmas.Options
import Verif.Spec.Node

/-!
# C62–C64: the Node binding
-/

set_option autoImplicit false

namespace Judger

open Judger.Spec Judger.Spec.Cli Judger.Spec.Node Judger.Spec.Shell Judger.Node

/-! ## The command -/

def optInt (o : Opt) (x : Option Int) : List Entry := x.elim [] fun n => [⟨o.name, o, showInt n⟩]
def optText (o : Opt) (x : Option CStr) : List Entry := x.elim [] fun s => [⟨o.name, o, s⟩]

/-- The options with a number, and those with a text, in the binding's order. -/
def nodeInts : List Opt :=
  [.maxCpuTime, .maxRealTime, .maxMemory, .memoryLimitCheckOnly, .maxStack, .maxProcessNumber, .maxOutputSize, .uid, .gid]
def nodeTexts : List Opt := [.inputPath, .outputPath, .errorPath, .exePath, .logPath, .seccompRuleName]

/-- The words a request is turned into. -/
def nodeEntries (q : Request) : List Entry :=
  (nodeInts.flatMap fun o => optInt o (q.int o)) ++ ((nodeTexts.flatMap fun o => optText o (q.text o)) ++
  (((q.args.getD []).map fun s => ⟨c!"args", .args, s⟩) ++ ((q.env.getD []).map fun s => ⟨c!"env", .env, s⟩)))

/-- Words as they are appended to the command: each after a space. -/
def spaced (es : List Entry) : CStr := es.flatMap fun e => ' ' :: e.word

theorem spaced_append (a b : List Entry) : spaced (a ++ b) = spaced a ++ spaced b := by simp [spaced]

theorem word_spaced (n : CStr) (o : Opt) (s : CStr) : Node.word n s = spaced [⟨n, o, s⟩] := by
  simp [Node.word, spaced, Entry.word]

theorem get_name (q : Request) (o : Opt) (h : o.takes ≠ .nothing) : q.get o.name = q.value o := by
  cases o <;> first | rfl | exact absurd rfl h

theorem each_ok {α : Type} {f : α → NRes CStr} {g : α → List Entry} {xs : List α} (h : ∀ x ∈ xs, f x = .ok (spaced (g x))) :
    each f xs = .ok (spaced (xs.flatMap g)) := by
  induction xs with
  | nil => rfl
  | cons x xs ih =>
    simp only [each, h x (by simp), ih fun y hy => h y (by simp [hy]), List.flatMap_cons, spaced_append]

theorem each_ok_map {α β : Type} {f : β → NRes CStr} {k : α → β} {g : α → List Entry} {xs : List α}
    (h : ∀ x ∈ xs, f (k x) = .ok (spaced (g x))) : each f (xs.map k) = .ok (spaced (xs.flatMap g)) := by
  induction xs with
  | nil => rfl
  | cons x xs ih =>
    simp only [List.map, each, h x (by simp), ih fun y hy => h y (by simp [hy]), List.flatMap_cons, spaced_append]

/-- A text that is passed on as it is: no NUL, at most 254 bytes. -/
def Copied (s : CStr) : Prop := '\x00' ∉ s ∧ s.length < 255

theorem takeWhile_all {p : Char → Bool} {s : CStr} (h : ∀ c ∈ s, p c = true) : s.takeWhile p = s := by
  induction s with
  | nil => rfl
  | cons c s ih => rw [List.takeWhile_cons, if_pos (h c (by simp)), ih fun d hd => h d (by simp [hd])]

theorem takeWhile_noNul {s : CStr} (h : '\x00' ∉ s) : s.takeWhile (· ≠ '\x00') = s :=
  takeWhile_all fun c hc => by
    rw [decide_eq_true_iff]
    rintro rfl
    exact h hc

theorem copyText_ok {s : CStr} (h : Copied s) : copyText s = .ok s := by
  simp only [copyText, takeWhile_noNul h.1, h.2, if_true]

theorem toNumber_ok (q : Request) (o : Opt) (h : o.takes = .int) : toNumber q.get o.name = .ok (spaced (optInt o (q.int o))) := by
  have hv : q.value o = (q.int o).elim .undefined .number := by
    cases o <;> first | rfl | (simp [Opt.takes] at h)
  simp only [toNumber, get_name q o (by rw [h]; decide), hv, optInt]
  cases q.int o with
  | none => rfl
  | some n => simp only [Option.elim, word_spaced _ o]

theorem toCStr_prop_ok (q : Request) (o : Opt) (h : o ∈ nodeTexts) (hc : ∀ s, q.text o = some s → Copied s) :
    toCStr (.object q.get) o.name = .ok (spaced (optText o (q.text o))) := by
  have hv : q.value o = (q.text o).elim .undefined .string := by
    simp only [nodeTexts, List.mem_cons, List.not_mem_nil, or_false] at h
    rcases h with rfl | rfl | rfl | rfl | rfl | rfl <;> rfl
  have ht : o.takes ≠ .nothing := by
    simp only [nodeTexts, List.mem_cons, List.not_mem_nil, or_false] at h
    rcases h with rfl | rfl | rfl | rfl | rfl | rfl <;> decide
  simp only [toCStr, target, get_name q o ht, hv, optText]
  cases hq : q.text o with
  | none => rfl
  | some s => simp only [Option.elim, copyText_ok (hc s hq), word_spaced _ o]

theorem toCStr_item_ok (n : CStr) (o : Opt) (s : CStr) (hc : Copied s) : toCStr (.string s) n = .ok (spaced [⟨n, o, s⟩]) := by
  simp only [toCStr, target, copyText_ok hc, word_spaced _ o]

theorem each_items_ok (n : CStr) (o : Opt) (ss : List CStr) (hc : ∀ s ∈ ss, Copied s) :
    each (toCStr · n) (ss.map .string) = .ok (spaced (ss.map fun s => ⟨n, o, s⟩)) := by
  have := each_ok_map (f := (toCStr · n)) (k := JsVal.string) (g := fun s => [(⟨n, o, s⟩ : Entry)]) (xs := ss)
    fun s hs => toCStr_item_ok n o s (hc s hs)
  rw [this]
  have hf : ∀ l : List CStr, (l.flatMap fun s => [(⟨n, o, s⟩ : Entry)]) = l.map fun s => ⟨n, o, s⟩ := by
    intro l
    induction l with
    | nil => rfl
    | cons s l ih => rw [List.flatMap_cons, ih]; rfl
  rw [hf]

/-- The command of a well-typed request whose texts are copied and whose environment, if any, comes with arguments. -/
theorem command_ok (q : Request) (hc : ∀ s, q.HasText s → Copied s) (he : q.env = none ∨ q.args ≠ none) :
    command q.get = .ok (Node.judgerPath ++ spaced (nodeEntries q)) := by
  have h1 : each (toNumber q.get) Node.intVars = .ok (spaced (nodeInts.flatMap fun o => optInt o (q.int o))) :=
    each_ok_map (k := Opt.name) (xs := nodeInts) fun o ho => toNumber_ok q o (by revert o; decide)
  have h2 : each (fun key => toCStr (.object q.get) key) Node.strVars = .ok (spaced (nodeTexts.flatMap fun o => optText o (q.text o))) :=
    each_ok_map (k := Opt.name) (xs := nodeTexts) fun o ho => toCStr_prop_ok q o ho fun s hs =>
      hc s (Or.inl ⟨o, by clear hs; revert o; decide, hs⟩)
  have ga : q.get c!"args" = q.args.elim .undefined fun ss => .array (ss.map .string) := rfl
  have ge : q.get c!"env" = q.env.elim .undefined fun ss => .array (ss.map .string) := rfl
  have h3 : argsPart (q.get c!"args") = .ok (spaced ((q.args.getD []).map fun s => ⟨c!"args", .args, s⟩)) := by
    rw [ga]
    cases hq : q.args with
    | none => rfl
    | some ss =>
      exact each_items_ok c!"args" .args ss fun s hs => hc s (Or.inr (Or.inl (by rw [hq]; exact hs)))
  have h4 : envPart (q.get c!"args") (q.get c!"env") = .ok (spaced ((q.env.getD []).map fun s => ⟨c!"env", .env, s⟩)) := by
    rw [ga, ge]
    cases hq : q.env with
    | none => rfl
    | some ss =>
      cases ha : q.args with
      | none => rcases he with he | he
                · rw [hq] at he; cases he
                · exact absurd ha he
      | some as =>
        exact each_items_ok c!"env" .env ss fun s hs => hc s (Or.inr (Or.inr (by rw [hq]; exact hs)))
  simp only [command, h1, h2, h3, h4, nodeEntries, spaced_append]

/-! ## What the shell makes of it -/

/-- Only plain characters. -/
def AllPlain (s : CStr) : Prop := ∀ c ∈ s, safe c = true

theorem safe_digit {c : Char} (h : (Json.digit c).isSome = true) : safe c = true := by
  unfold Json.digit at h
  split at h <;> first | decide | simp at h

theorem safe_showInt (n : Int) : AllPlain (showInt n) := by
  have hn : ∀ k : Nat, AllPlain (showNat k) := fun k c hc => safe_digit (showNat_digits k c hc)
  intro c h
  unfold showInt at h
  split at h
  · simp only [List.mem_cons] at h
    rcases h with rfl | h
    · decide
    · exact hn _ c h
  · exact hn _ c h

theorem safe_name (o : Opt) : AllPlain o.name := by
  have : o.name.all safe = true := by cases o <;> decide
  exact List.all_eq_true.mp this

theorem safe_word {e : Entry} (hn : AllPlain e.name) (hv : AllPlain e.val) : AllPlain e.word := by
  intro c h
  simp only [Entry.word, List.mem_cons, List.mem_append] at h
  rcases h with rfl | rfl | h | rfl | h
  · decide
  · decide
  · exact hn c h
  · decide
  · exact hv c h

/-- Inside a word, the text `raw` stands for `word`. -/
def Lexes (raw word : CStr) : Prop := ∀ (cur : CStr) (ws : List CStr) (r : CStr), lex .bare (some cur) ws (raw ++ r) = lex .bare (some (cur ++ word)) ws r

theorem lexes_append {a b a' b' : CStr} (h1 : Lexes a a') (h2 : Lexes b b') : Lexes (a ++ b) (a' ++ b') := fun cur ws r => by
  rw [List.append_assoc, h1, h2, List.append_assoc]

theorem lexes_plain {s : CStr} (h : AllPlain s) : Lexes s s := by
  intro cur ws r
  induction s generalizing cur with
  | nil => simp
  | cons c s ih =>
    rw [List.cons_append, lex, if_pos (h c (by simp)), ih fun d hd => h d (by simp [hd])]
    simp

theorem lexes_quote (s : CStr) : Lexes (quote s) s := by
  have key : ∀ (s : CStr) (cur : CStr) (ws : List CStr) (r : CStr),
      lex .single (some cur) ws (s.flatMap (fun c => if c = '\'' then c!"'\\''" else [c]) ++ r) = lex .single (some (cur ++ s)) ws r := by
    intro s
    induction s with
    | nil => intro cur ws r; simp
    | cons c s ih =>
      intro cur ws r
      rw [List.flatMap_cons, List.append_assoc]
      by_cases hc : c = '\''
      · subst hc
        have h1 : safe '\'' = false := by decide
        have h2 : blank '\'' = false := by decide
        have h3 : safe '\\' = false := by decide
        have h4 : blank '\\' = false := by decide
        simp only [if_true, List.cons_append, List.nil_append, lex, h1, h2, h3, h4, Bool.false_eq_true, if_false, Option.getD_some]
        simp only [show ¬('\\' = ';') by decide, show ¬('\\' = '\'') by decide, show ¬('\'' = '\n') by decide, show ¬('\'' = ';') by decide, if_false]
        rw [ih]
        simp
      · rw [if_neg hc, List.singleton_append, lex, if_neg hc, Option.getD_some, ih]
        simp
  intro cur ws r
  have h1 : safe '\'' = false := by decide
  have h2 : blank '\'' = false := by decide
  have h3 : ¬('\'' = ';') := by decide
  unfold quote
  rw [List.cons_append, lex, h1, h2, if_neg (by simp), if_neg (by simp), if_neg h3, if_pos rfl, List.append_assoc, key]
  rw [List.cons_append, lex, if_pos rfl]
  simp

/-- A command of words that stand for others. -/
theorem commands_lexes {path : CStr} {es : List Entry} (g : Entry → Entry) (hp : AllPlain path) (hne : path ≠ []) (heq : '=' ∉ path) (hex : path ≠ ['!'])
    (h : ∀ e ∈ es, Lexes (g e).word e.word) : commands (path ++ spaced (es.map g)) = some [path :: es.map Entry.word] := by
  have h0 : ∀ r, lex .bare none [] (path ++ r) = lex .bare (some path) [] r := by
    intro r
    cases path with
    | nil => exact absurd rfl hne
    | cons c s =>
      rw [List.cons_append, lex, if_pos (hp c (by simp))]
      have := lexes_plain (s := s) (fun d hd => hp d (by simp [hd])) [c] [] r
      simpa using this
  have h1 : ∀ (es : List Entry), (∀ e ∈ es, Lexes (g e).word e.word) → ∀ (cur : CStr) (ws : List CStr),
      lex .bare (some cur) ws (spaced (es.map g)) = some [ws ++ cur :: es.map Entry.word] := by
    intro es
    induction es with
    | nil => intro _ cur ws; simp [spaced, lex]
    | cons e es ih =>
      intro h cur ws
      have hs : spaced ((e :: es).map g) = ' ' :: ((g e).word ++ spaced (es.map g)) := by simp [spaced]
      have hb : blank ' ' = true := by decide
      have hs' : safe ' ' = false := by decide
      have hl : lex .bare none (ws ++ [cur]) ((g e).word ++ spaced (es.map g)) = lex .bare (some e.word) (ws ++ [cur]) (spaced (es.map g)) := by
        have := (h e (by simp)) [] (ws ++ [cur]) (spaced (es.map g))
        rw [List.nil_append] at this
        rw [← this]
        simp only [Entry.word, List.cons_append]
        rw [lex, if_pos (by decide), lex, if_pos (by decide)]
        rfl
      rw [hs, lex, hs', if_neg (by simp), if_pos hb, Option.toList_some, hl, ih fun e' he' => h e' (by simp [he'])]
      simp
  rw [commands, h0, h1 es h]
  simp only [List.nil_append, List.all_cons, List.all_nil, List.head?, Option.any, Bool.and_true]
  rw [if_pos]
  simpa using ⟨heq, hex⟩

theorem commands_spaced {path : CStr} {es : List Entry} (hp : AllPlain path) (hne : path ≠ []) (heq : '=' ∉ path) (hex : path ≠ ['!'])
    (h : ∀ e ∈ es, AllPlain e.word) : commands (path ++ spaced es) = some [path :: es.map Entry.word] := by
  have := commands_lexes (es := es) id hp hne heq hex fun e he => lexes_plain (h e he)
  rwa [List.map_id] at this

/-! ## The configuration -/

theorem mem_optInt {e : Entry} {o : Opt} {x : Option Int} (h : e ∈ optInt o x) : ∃ n, x = some n ∧ e = ⟨o.name, o, showInt n⟩ := by
  cases x with
  | none => simp [optInt] at h
  | some n => exact ⟨n, rfl, by simpa [optInt] using h⟩

theorem mem_optText {e : Entry} {o : Opt} {x : Option CStr} (h : e ∈ optText o x) : ∃ s, x = some s ∧ e = ⟨o.name, o, s⟩ := by
  cases x with
  | none => simp [optText] at h
  | some n => exact ⟨n, rfl, by simpa [optText] using h⟩

theorem mem_nodeEntries {q : Request} {e : Entry} (h : e ∈ nodeEntries q) :
    (∃ o n, o.takes = .int ∧ q.int o = some n ∧ e = ⟨o.name, o, showInt n⟩) ∨
    (∃ o s, o.takes = .text ∧ q.HasText s ∧ e = ⟨o.name, o, s⟩) := by
  simp only [nodeEntries, List.mem_append, List.mem_flatMap, List.mem_map] at h
  rcases h with ⟨o, ho, h⟩ | ⟨o, ho, h⟩ | ⟨s, hs, rfl⟩ | ⟨s, hs, rfl⟩
  · obtain ⟨n, h1, h2⟩ := mem_optInt h
    exact Or.inl ⟨o, n, by clear h h1 h2; revert o; decide, h1, h2⟩
  · obtain ⟨s, h1, h2⟩ := mem_optText h
    have ht : o.takes = .text := by clear h h1 h2; revert o; decide
    exact Or.inr ⟨o, s, ht, Or.inl ⟨o, ht, h1⟩, h2⟩
  · exact Or.inr ⟨.args, s, rfl, Or.inr (Or.inl hs), rfl⟩
  · exact Or.inr ⟨.env, s, rfl, Or.inr (Or.inr hs), rfl⟩

theorem nodeEntries_good (q : Request) : ∀ e ∈ nodeEntries q, e.Good := by
  intro e h
  rcases mem_nodeEntries h with ⟨o, n, ho, _, rfl⟩ | ⟨o, s, ho, _, rfl⟩
  · exact ⟨calls_full o, by rw [ho]; decide⟩
  · exact ⟨calls_full o, by rw [ho]; decide⟩

theorem vals_optInt (o o' : Opt) (x : Option Int) : entryVals o (optInt o' x) = if o' = o then x.elim [] (fun n => [showInt n]) else [] := by
  cases x with
  | none => simp [optInt, entryVals, given]
  | some n => simp [optInt, entryVals_one]

theorem vals_optText (o o' : Opt) (x : Option CStr) : entryVals o (optText o' x) = if o' = o then x.toList else [] := by
  cases x with
  | none => simp [optText, entryVals, given]
  | some n => simp [optText, entryVals_one]

theorem vals_nodeEntries (q : Request) (o : Opt) : entryVals o (nodeEntries q) =
    match o with
    | .args => q.args.getD []
    | .env => q.env.getD []
    | .help | .version => []
    | .exePath | .inputPath | .outputPath | .errorPath | .logPath | .seccompRuleName => (q.text o).toList
    | o => (q.int o).elim [] fun n => [showInt n] := by
  simp only [nodeEntries, nodeInts, nodeTexts, List.flatMap_cons, List.flatMap_nil, entryVals_append, entryVals_list, vals_optInt,
    vals_optText, List.append_nil]
  cases o <;> simp

theorem nodeEntries_fine {q : Request} (hq : q.Ok) : Fine ((nodeEntries q).map Entry.item) := by
  apply fine_entries
  · intro e h
    rcases mem_nodeEntries h with ⟨o, n, ho, _, rfl⟩ | ⟨o, s, ho, hs, rfl⟩
    · exact showInt_ne_nil n
    · exact hq.filled s hs
  · intro e h ht
    rcases mem_nodeEntries h with ⟨o, n, ho, hn, rfl⟩ | ⟨o, s, ho, hs, rfl⟩
    · exact ⟨n, Or.inl (intText_showInt n), hq.ints o n hn⟩
    · simp only at ht; rw [ho] at ht; cases ht
  · intro o
    have h1 : ∀ x : Option CStr, x.toList.length ≤ 1 := fun x => by cases x <;> simp
    have h2 : ∀ x : Option Int, (x.elim [] fun n => [showInt n]).length ≤ 1 := fun x => by cases x <;> simp
    rw [vals_nodeEntries]
    cases o <;> simp only [Opt.atMost] <;> first | exact hq.args | exact hq.env | exact h1 _ | exact h2 _ | simp
  · obtain ⟨s, hs⟩ := hq.exe
    rw [vals_nodeEntries]; simp [hs]

theorem nodeEntries_means {q : Request} (hq : q.Ok) (c : Config) (hc : c = { q.wanted with args := c.args, env := c.env }) :
    MeansScalars ((nodeEntries q).map Entry.item) c := by
  have hv := vals_nodeEntries q
  unfold entryVals at hv
  have hi : ∀ (o : Opt) (d : Int), given o ((nodeEntries q).map Entry.item) = ((q.int o).elim [] fun n => [showInt n]) →
      IntIs o ((nodeEntries q).map Entry.item) d ((q.int o).getD d) := by
    intro o d h
    cases hx : q.int o with
    | none => rw [hx] at h; exact Or.inr ⟨h, rfl⟩
    | some n => rw [hx] at h; exact Or.inl ⟨_, h, Or.inl (intText_showInt n)⟩
  have ht : ∀ (o : Opt) (d : CStr), given o ((nodeEntries q).map Entry.item) = (q.text o).toList →
      TextIs o ((nodeEntries q).map Entry.item) d ((q.text o).getD d) := by
    intro o d h
    cases hx : q.text o with
    | none => rw [hx] at h; exact Or.inr ⟨h, rfl⟩
    | some n => rw [hx] at h; exact Or.inl h
  obtain ⟨s, hs⟩ := hq.exe
  rw [hc]
  exact
    { cpu := hi _ _ (hv .maxCpuTime)
      real := hi _ _ (hv .maxRealTime)
      mem := hi _ _ (hv .maxMemory)
      check := ⟨_, hi _ _ (hv .memoryLimitCheckOnly), rfl⟩
      stack := hi _ _ (hv .maxStack)
      nproc := hi _ _ (hv .maxProcessNumber)
      out := hi _ _ (hv .maxOutputSize)
      exe := by rw [hv .exePath]; simp [Request.wanted, hs]
      input := ⟨_, ht _ _ (hv .inputPath), rfl⟩
      output := ⟨_, ht _ _ (hv .outputPath), rfl⟩
      error := ⟨_, ht _ _ (hv .errorPath), rfl⟩
      log := ht _ _ (hv .logPath)
      seccomp := by
        have h := hv .seccompRuleName
        simp only [Request.wanted]
        cases hx : q.text .seccompRuleName with
        | none => rw [hx] at h; exact Or.inr ⟨h, rfl⟩
        | some s => rw [hx] at h; exact Or.inl ⟨s, h, rfl⟩
      uid := ⟨_, hi _ _ (hv .uid), rfl⟩
      gid := ⟨_, hi _ _ (hv .gid), rfl⟩ }

/-! ## C63 -/

/-- C63, the full claim: every well-typed request whose environment comes with arguments (C64) becomes one command whose words make
the judger run exactly the configuration described. -/
def C63_full : Prop :=
  ∀ (q : Request), q.Ok → (q.args.getD []).length < 255 → (q.env = none ∨ q.args ≠ none) →
    ∃ cmd argv, command q.get = .ok cmd ∧ commands cmd = some [argv] ∧
      ∀ (posix : Bool) (junk : Cells), MainDoes posix junk argv (.runs q.wanted)

/-- C63, the part that holds: texts of plain characters (letters, digits, everything beyond ASCII, `_-./=:,+@%^]!`) of at most 254 bytes.  Missing: every
other text (`C63_false`). -/
theorem C63_plain_partial (q : Request) (hq : q.Ok) (hn : (q.args.getD []).length < 255) (he : q.env = none ∨ q.args ≠ none)
    (hp : ∀ s, q.HasText s → AllPlain s ∧ s.length < 255) :
    ∃ cmd argv, command q.get = .ok cmd ∧ commands cmd = some [argv] ∧
      ∀ (posix : Bool) (junk : Cells), MainDoes posix junk argv (.runs q.wanted) := by
  refine ⟨_, Node.judgerPath :: (nodeEntries q).map Entry.word, command_ok q (fun s hs => ⟨hq.noNul s hs, (hp s hs).2⟩) he,
    commands_spaced ?_ (by decide) (by decide) (by decide) ?_, ?_⟩
  · have : Node.judgerPath.all safe = true := by decide
    exact List.all_eq_true.mp this
  · intro e h
    rcases mem_nodeEntries h with ⟨o, n, ho, _, rfl⟩ | ⟨o, s, ho, hs, rfl⟩
    · exact safe_word (safe_name o) (safe_showInt n)
    · exact safe_word (safe_name o) (hp s hs).1
  · intro posix junk
    have hv := vals_nodeEntries q
    unfold entryVals at hv
    refine runs_of_means (scan_entries posix _ (nodeEntries_good q)) (nodeEntries_fine hq) (entries_noFlag (nodeEntries_good q) rfl)
      (entries_noFlag (nodeEntries_good q) rfl) (nodeEntries_means hq _ rfl) ?_ ?_
    · rw [hv .args, if_neg (Nat.ne_of_lt hn), List.append_nil]; rfl
    · rw [hv .env]; rfl

/-- How quoting changes the words. -/
def quoteEntry (e : Entry) : Entry := if e.opt.takes = .text then { e with val := quote e.val } else e

theorem nodeEntries_quoted (q : Request) : nodeEntries q.quoted = (nodeEntries q).map quoteEntry := by
  have h1 : ∀ o x, o.takes = .int → (optInt o x).map quoteEntry = optInt o x := by
    intro o x ho
    cases x with
    | none => rfl
    | some n => simp [optInt, quoteEntry, ho]
  have h2 : ∀ o x, o.takes = .text → (optText o x).map quoteEntry = optText o (x.map quote) := by
    intro o x ho
    cases x with
    | none => rfl
    | some s => simp [optText, quoteEntry, ho]
  have h3 : ∀ (n : CStr) (o : Opt) (x : Option (List CStr)), o.takes = .text →
      ((x.getD []).map fun s => (⟨n, o, s⟩ : Entry)).map quoteEntry = ((x.map (·.map quote)).getD []).map fun s => ⟨n, o, s⟩ := by
    intro n o x ho
    cases x with
    | none => rfl
    | some l => simp [quoteEntry, ho]
  have hcongr : ∀ (l : List Opt) (f g : Opt → List Entry), (∀ o ∈ l, f o = g o) → l.flatMap f = l.flatMap g := by
    intro l f g h
    induction l with
    | nil => rfl
    | cons o l ih => rw [List.flatMap_cons, List.flatMap_cons, h o (by simp), ih fun o' ho' => h o' (by simp [ho'])]
  have e1 : (nodeInts.flatMap fun o => optInt o (q.int o)).map quoteEntry = nodeInts.flatMap fun o => optInt o (q.int o) := by
    rw [List.map_flatMap]
    exact hcongr _ _ _ fun o ho => h1 o _ (by revert o; decide)
  have e2 : (nodeTexts.flatMap fun o => optText o (q.text o)).map quoteEntry = nodeTexts.flatMap fun o => optText o ((q.text o).map quote) := by
    rw [List.map_flatMap]
    exact hcongr _ _ _ fun o ho => h2 o _ (by revert o; decide)
  rw [nodeEntries, nodeEntries, List.map_append, List.map_append, List.map_append, e1, e2, h3 _ _ _ rfl, h3 _ _ _ rfl]
  rfl

/-- C63, what a caller can do about it: if every text is quoted, the program is judged as described, whatever characters the texts consist of.  Missing:
texts that are longer than 254 bytes with their quotes (`C63_overflow`). -/
theorem C63_quoted_partial (q : Request) (hq : q.Ok) (hn : (q.args.getD []).length < 255) (he : q.env = none ∨ q.args ≠ none)
    (hp : ∀ s, q.HasText s → (quote s).length < 255) :
    ∃ cmd argv, command q.quoted.get = .ok cmd ∧ commands cmd = some [argv] ∧
      ∀ (posix : Bool) (junk : Cells), MainDoes posix junk argv (.runs q.wanted) := by
  have ht : ∀ s, q.quoted.HasText s → ∃ t, q.HasText t ∧ s = quote t := by
    rintro s (⟨o, ho, h⟩ | h | h)
    · simp only [Request.quoted, Option.map_eq_some_iff] at h
      obtain ⟨t, h1, h2⟩ := h
      exact ⟨t, .inl ⟨o, ho, h1⟩, h2.symm⟩
    · have : s ∈ (q.args.getD []).map quote := by simp only [Request.quoted] at h; cases ha : q.args <;> rw [ha] at h <;> simp_all
      obtain ⟨t, h1, h2⟩ := List.mem_map.1 this
      exact ⟨t, .inr (.inl h1), h2.symm⟩
    · have : s ∈ (q.env.getD []).map quote := by simp only [Request.quoted] at h; cases ha : q.env <;> rw [ha] at h <;> simp_all
      obtain ⟨t, h1, h2⟩ := List.mem_map.1 this
      exact ⟨t, .inr (.inr h1), h2.symm⟩
  have hnul : ∀ t : CStr, '\x00' ∉ t → '\x00' ∉ quote t := by
    intro t h
    simp only [quote, List.mem_cons, List.mem_append, List.mem_flatMap, not_or, not_exists, not_and]
    refine ⟨by decide, fun c hc => ?_, by decide, by simp⟩
    split
    · decide
    · intro hx
      rw [List.mem_singleton] at hx
      exact h (hx ▸ hc)
  refine ⟨_, Node.judgerPath :: (nodeEntries q).map Entry.word, command_ok q.quoted (fun s hs => ?_) ?_, ?_, ?_⟩
  · obtain ⟨t, h1, rfl⟩ := ht s hs
    exact ⟨hnul t (hq.noNul t h1), hp t h1⟩
  · rcases he with he | he
    · exact .inl (by simp [Request.quoted, he])
    · exact .inr (by simpa [Request.quoted] using he)
  · rw [nodeEntries_quoted]
    refine commands_lexes quoteEntry (List.all_eq_true.mp (by decide)) (by decide) (by decide) (by decide) fun e h => ?_
    rcases mem_nodeEntries h with ⟨o, n, ho, _, rfl⟩ | ⟨o, s, ho, hs, rfl⟩
    · simp only [quoteEntry, ho]
      exact lexes_plain (safe_word (safe_name o) (safe_showInt n))
    · simp only [quoteEntry, ho, if_true, Entry.word]
      have := lexes_append (lexes_plain (s := '-' :: '-' :: (o.name ++ ['='])) ?_) (lexes_quote s)
      · simpa using this
      · intro c hc
        simp only [List.mem_cons, List.mem_append, List.not_mem_nil, or_false] at hc
        rcases hc with rfl | rfl | h | rfl
        · decide
        · decide
        · exact safe_name o c h
        · decide
  · intro posix junk
    have hv := vals_nodeEntries q
    unfold entryVals at hv
    refine runs_of_means (scan_entries posix _ (nodeEntries_good q)) (nodeEntries_fine hq) (entries_noFlag (nodeEntries_good q) rfl)
      (entries_noFlag (nodeEntries_good q) rfl) (nodeEntries_means hq _ rfl) ?_ ?_
    · rw [hv .args, if_neg (Nat.ne_of_lt hn), List.append_nil]; rfl
    · rw [hv .env]; rfl

/-- A request for `/bin/echo` with the given lists. -/
def nodeSample (args env : Option (List CStr)) : Request where
  int := fun o => if o = .maxMemory then some 67108864 else if o = .gid then some (-2) else none
  text := fun o => if o = .exePath then some c!"/bin/echo" else none
  args := args
  env := env

theorem nodeSample_text {args env : Option (List CStr)} {s : CStr} (h : (nodeSample args env).HasText s) :
    s = c!"/bin/echo" ∨ s ∈ args.getD [] ∨ s ∈ env.getD [] := by
  rcases h with ⟨o, _, h⟩ | h | h
  · simp only [nodeSample] at h
    split at h
    · left; simpa using h.symm
    · simp at h
  · exact Or.inr (Or.inl h)
  · exact Or.inr (Or.inr h)

theorem nodeSample_ok (args env : Option (List CStr)) (ha : (args.getD []).length ≤ 255) (he : (env.getD []).length ≤ 255)
    (hs : ∀ s ∈ args.getD [] ++ env.getD [], s ≠ [] ∧ '\x00' ∉ s) : (nodeSample args env).Ok where
  exe := ⟨_, rfl⟩
  ints := by
    intro o n h
    simp only [nodeSample] at h
    split at h
    · simp at h; subst h; decide
    · split at h
      · simp at h; subst h; decide
      · simp at h
  filled := by
    intro s h
    rcases nodeSample_text h with rfl | h | h
    · decide
    · exact (hs s (by simp [h])).1
    · exact (hs s (by simp [h])).1
  noNul := by
    intro s h
    rcases nodeSample_text h with rfl | h | h
    · decide
    · exact (hs s (by simp [h])).2
    · exact (hs s (by simp [h])).2
  args := ha
  env := he

example : (nodeSample (some [c!"-n", c!"--version"]) (some [c!"PATH=/bin"])).Ok ∧
    (∀ s, (nodeSample (some [c!"-n", c!"--version"]) (some [c!"PATH=/bin"])).HasText s → AllPlain s ∧ s.length < 255) := by
  refine ⟨nodeSample_ok _ _ (by decide) (by decide) (by decide), fun s h => ?_⟩
  have : s = c!"/bin/echo" ∨ s = c!"-n" ∨ s = c!"--version" ∨ s = c!"PATH=/bin" := by
    rcases nodeSample_text h with rfl | h | h
    · exact Or.inl rfl
    · simp at h; rcases h with rfl | rfl <;> simp
    · simp at h; simp [h]
  rcases this with rfl | rfl | rfl | rfl <;> exact ⟨List.all_eq_true.mp (by decide), by decide⟩

example : (nodeSample (some [c!"it's a b; reboot", c!"$HOME"]) none).Ok ∧
    (∀ s, (nodeSample (some [c!"it's a b; reboot", c!"$HOME"]) none).HasText s → (quote s).length < 255) := by
  refine ⟨nodeSample_ok _ _ (by decide) (by decide) (by decide), fun s h => ?_⟩
  rcases nodeSample_text h with rfl | h | h
  · decide
  · simp at h; rcases h with rfl | rfl <;> decide
  · simp at h

theorem spaced_sample (args : List CStr) (hc : ∀ s ∈ args, Copied s) : command (nodeSample (some args) none).get =
    .ok (Node.judgerPath ++ (c!" --max_memory=" ++ (showInt 67108864 ++ (c!" --gid=" ++ (showInt (-2) ++ (c!" --exe_path=/bin/echo" ++
      args.flatMap fun s => c!" --args=" ++ s)))))) := by
  rw [command_ok _ _ (Or.inl rfl)]
  · congr 1
    have : (spaced (args.map fun s => (⟨c!"args", .args, s⟩ : Entry))) = args.flatMap fun s => c!" --args=" ++ s := by
      simp [spaced, Entry.word, List.flatMap_map]
    simp only [nodeEntries, spaced_append]
    simp only [nodeSample, Option.getD, this]
    simp [nodeInts, nodeTexts, optInt, optText, spaced, Entry.word, Opt.name, List.flatMap]
  · intro s h
    rcases nodeSample_text h with rfl | h | h
    · exact ⟨by decide, by decide⟩
    · exact hc s h
    · simp at h

theorem showInt_64M : showInt 67108864 = c!"67108864" := by simp [showInt, showNat, digitChar]
theorem showInt_m2 : showInt (-2) = c!"-2" := by simp [showInt, showNat, digitChar]

/-- C63 is false of the code: an argument with a blank arrives as two words, -/
theorem C63_witness_blank : ∃ cmd, command (nodeSample (some [c!"a b"]) none).get = .ok cmd ∧
    commands cmd = some [[Node.judgerPath, c!"--max_memory=67108864", c!"--gid=-2", c!"--exe_path=/bin/echo", c!"--args=a", c!"b"]] :=
  ⟨_, spaced_sample _ (by simp only [Copied]; decide), by rw [showInt_64M, showInt_m2]; decide⟩

/-- an argument with a semicolon runs a command of its own, -/
theorem C63_witness_injection : ∃ cmd, command (nodeSample (some [c!"a;reboot"]) none).get = .ok cmd ∧
    commands cmd = some [[Node.judgerPath, c!"--max_memory=67108864", c!"--gid=-2", c!"--exe_path=/bin/echo", c!"--args=a"], [c!"reboot"]] :=
  ⟨_, spaced_sample _ (by simp only [Copied]; decide), by rw [showInt_64M, showInt_m2]; decide⟩

/-- and a text of 255 bytes or more overflows a buffer. -/
theorem C63_overflow (key s : CStr) (h : '\x00' ∉ s) (hl : 255 ≤ s.length) :
    (match toCStr (.string s) key with | .ub => True | _ => False) := by
  simp only [toCStr, target, copyText, takeWhile_noNul h]
  rw [if_neg (by omega)]
  trivial

theorem C63_false : ¬C63_full := by
  intro h
  obtain ⟨cmd, argv, h1, h2, _⟩ := h (nodeSample (some [c!"a;reboot"]) none) (nodeSample_ok _ _ (by decide) (by decide) (by decide))
    (by decide) (Or.inl rfl)
  obtain ⟨cmd', h1', h2'⟩ := C63_witness_injection
  rw [h1] at h1'
  simp only [NRes.ok.injEq] at h1'
  subst h1'
  rw [h2] at h2'
  simp at h2'

/-! ## C64 -/

/-- C64, the full claim: a list of (short) strings is accepted as environment whether or not there are arguments, and an environment
that is not a list is an exception. -/
def C64_full : Prop :=
  (∀ (q : Request), (∀ s, q.HasText s → Copied s) → ∃ cmd, command q.get = .ok cmd) ∧
  (∀ (get : CStr → JsVal), (get c!"env").isNil = false → (get c!"env").isArray = false → ∃ msg, command get = .throws msg)

/-- C64, the part that holds: with arguments given, a list is accepted; without arguments, anything else is an exception.
Missing: a list without arguments, anything else with arguments (`C64_false`). -/
theorem C64_environment_partial :
    (∀ (q : Request), (∀ s, q.HasText s → Copied s) → q.args ≠ none → ∃ cmd, command q.get = .ok cmd) ∧
    (∀ (get : CStr → JsVal), (get c!"env").isNil = false → (get c!"env").isArray = false → (get c!"args").isArray = false →
      (∃ msg, command get = .throws msg) ∨ command get = .ub) := by
  refine ⟨fun q hc ha => ⟨_, command_ok q hc (Or.inr ha)⟩, fun get h1 h2 h3 => ?_⟩
  unfold command
  cases each (toNumber get) Node.intVars with
  | throws m => exact Or.inl ⟨m, rfl⟩
  | ub => exact Or.inr rfl
  | ok a =>
    cases each (fun key => toCStr (.object get) key) Node.strVars with
    | throws m => exact Or.inl ⟨m, rfl⟩
    | ub => exact Or.inr rfl
    | ok b =>
      cases argsPart (get c!"args") with
      | throws m => exact Or.inl ⟨m, rfl⟩
      | ub => exact Or.inr rfl
      | ok c =>
        left
        simp only [envPart, h1, h3, Bool.false_eq_true, if_false]
        exact ⟨_, rfl⟩

/-- C64, settled for requests of the right types: the environment is accepted exactly if there is none or there are arguments; otherwise the call throws. -/
theorem C64_exact (q : Request) (hc : ∀ s, q.HasText s → Copied s) :
    ((∃ cmd, command q.get = .ok cmd) ↔ q.env = none ∨ q.args ≠ none) ∧ ((∃ msg, command q.get = .throws msg) ↔ q.env ≠ none ∧ q.args = none) := by
  by_cases h : q.env = none ∨ q.args ≠ none
  · have hk := command_ok q hc h
    refine ⟨⟨fun _ => h, fun _ => ⟨_, hk⟩⟩, ?_, ?_⟩
    · rintro ⟨msg, hm⟩
      rw [hk] at hm
      cases hm
    · rintro ⟨h1, h2⟩
      exact absurd h (by simp [h1, h2])
  · obtain ⟨he, ha⟩ : q.env ≠ none ∧ q.args = none := by
      refine ⟨fun h1 => h (.inl h1), ?_⟩
      by_cases h1 : q.args = none
      · exact h1
      · exact absurd (.inr h1) h
    have hm : command q.get = .throws c!"env must be a list" := by
      have h1 : each (toNumber q.get) Node.intVars = .ok (spaced (nodeInts.flatMap fun o => optInt o (q.int o))) :=
        each_ok_map (k := Opt.name) (xs := nodeInts) fun o ho => toNumber_ok q o (by revert o; decide)
      have h2 : each (fun key => toCStr (.object q.get) key) Node.strVars = .ok (spaced (nodeTexts.flatMap fun o => optText o (q.text o))) :=
        each_ok_map (k := Opt.name) (xs := nodeTexts) fun o ho => toCStr_prop_ok q o ho fun s hs =>
          hc s (Or.inl ⟨o, by clear hs; revert o; decide, hs⟩)
      have h3 : q.get c!"args" = .undefined := by
        show q.value .args = _
        simp [Request.value, ha]
      obtain ⟨ss, hss⟩ := Option.ne_none_iff_exists'.1 he
      have h4 : q.get c!"env" = .array (ss.map .string) := by
        show q.value .env = _
        simp [Request.value, hss]
      simp only [command, h1, h2, h3, h4]
      rfl
    refine ⟨⟨fun ⟨cmd, hk⟩ => ?_, fun h' => absurd h' h⟩, fun _ => ⟨he, ha⟩, fun _ => ⟨_, hm⟩⟩
    rw [hm] at hk
    cases hk

/-- Both ways occur. -/
example : (∃ cmd, command (nodeSample (some []) (some [c!"A=b"])).get = .ok cmd) ∧ (∃ msg, command (nodeSample none (some [c!"A=b"])).get = .throws msg) := by
  have h : ∀ (args : Option (List CStr)), args.getD [] = [] → ∀ s, (nodeSample args (some [c!"A=b"])).HasText s → Copied s := by
    intro args ha s hs
    rcases hs with ⟨o, _, hs⟩ | hs | hs
    · simp only [nodeSample] at hs
      split at hs
      · simp at hs; subst hs; exact ⟨by decide, by decide⟩
      · simp at hs
    · simp only [nodeSample, ha] at hs; cases hs
    · simp [nodeSample] at hs; subst hs; exact ⟨by decide, by decide⟩
  exact ⟨(C64_exact _ (h _ rfl)).1.2 (.inr nofun), (C64_exact _ (h _ rfl)).2.2 ⟨nofun, rfl⟩⟩

/-- C64 is false of the code: an environment without arguments is refused although it is a list of strings, -/
theorem C64_witness_refused (ss : List CStr) : command (nodeSample none (some ss)).get = .throws c!"env must be a list" := by
  have h1 : each (toNumber (nodeSample none (some ss)).get) Node.intVars =
      .ok (spaced (nodeInts.flatMap fun o => optInt o ((nodeSample none (some ss)).int o))) :=
    each_ok_map (k := Opt.name) (xs := nodeInts) fun o ho => toNumber_ok _ o (by revert o; decide)
  have h2 : each (fun key => toCStr (.object (nodeSample none (some ss)).get) key) Node.strVars =
      .ok (spaced (nodeTexts.flatMap fun o => optText o ((nodeSample none (some ss)).text o))) :=
    each_ok_map (k := Opt.name) (xs := nodeTexts) fun o ho => toCStr_prop_ok _ o ho fun s hs => by
      simp only [nodeSample] at hs
      split at hs
      · simp at hs; subst hs; exact ⟨by decide, by decide⟩
      · simp at hs
  simp only [command, h1, h2]
  rfl

/-- and with arguments a number is taken for a list. -/
theorem C64_witness_number (get : CStr → JsVal) (n : Int) (items : List JsVal) (ha : get c!"args" = .array items)
    (he : get c!"env" = .number n) : ∀ cmd, command get ≠ .ok cmd := by
  intro cmd
  have : envPart (get c!"args") (get c!"env") = .ub := by rw [ha, he]; rfl
  unfold command
  cases each (toNumber get) Node.intVars with
  | throws m => nofun
  | ub => nofun
  | ok a =>
    cases each (fun key => toCStr (.object get) key) Node.strVars with
    | throws m => nofun
    | ub => nofun
    | ok b =>
      cases argsPart (get c!"args") with
      | throws m => nofun
      | ub => nofun
      | ok c => simp only [this]; nofun

theorem C64_false : ¬C64_full := by
  intro h
  obtain ⟨cmd, hc⟩ := h.1 (nodeSample none (some [c!"A=b"])) (by
    intro s hs
    rcases nodeSample_text hs with rfl | h | h
    · exact ⟨by decide, by decide⟩
    · simp at h
    · simp at h; subst h; exact ⟨by decide, by decide⟩)
  rw [C64_witness_refused] at hc
  cases hc

example : ∀ s, (nodeSample (some []) (some [c!"A=b"])).HasText s → Copied s := by
  intro s hs
  rcases nodeSample_text hs with rfl | h | h
  · exact ⟨by decide, by decide⟩
  · simp at h
  · simp at h; subst h; exact ⟨by decide, by decide⟩

/-! ## C62 -/

theorem fgets_split (n : Nat) (s : CStr) : (fgets n s).1 ++ (fgets n s).2 = s := by
  induction n generalizing s with
  | zero => rfl
  | succ n ih =>
    cases s with
    | nil => rfl
    | cons c s =>
      simp only [fgets]
      split
      · rfl
      · simp [ih s]

theorem fgets_progress (n : Nat) (c : Char) (s : CStr) : (fgets (n + 1) (c :: s)).2.length ≤ s.length := by
  simp only [fgets]
  split
  · exact Nat.le_refl _
  · have := congrArg List.length (fgets_split n s)
    simp at this
    simp only
    omega

theorem readResult_noNul {k : Nat} {s : CStr} (hk : s.length ≤ k) (h : '\x00' ∉ s) : readResult k s = s := by
  induction k generalizing s with
  | zero =>
    have : s = [] := List.length_eq_zero_iff.mp (by omega)
    rw [this]; rfl
  | succ k ih =>
    cases s with
    | nil => rfl
    | cons c s =>
      simp only [readResult]
      have hsplit := fgets_split 254 (c :: s)
      have hlen : (fgets 254 (c :: s)).2.length ≤ s.length := fgets_progress 253 c s
      have h1 : '\x00' ∉ (fgets 254 (c :: s)).1 := fun hm => h (by rw [← hsplit]; simp [hm])
      have h2 : '\x00' ∉ (fgets 254 (c :: s)).2 := fun hm => h (by rw [← hsplit]; simp [hm])
      rw [takeWhile_noNul h1, ih (by simp at hk; omega) h2, hsplit]

theorem lastBrace_none {pr : CStr} {k : Nat} (b : Nat) (h : ∀ i, b ≤ i → i < k → pr[i]? ≠ some '{') (hb : b ≤ k) :
    lastBrace pr k = lastBrace pr b := by
  induction k with
  | zero =>
    have : b = 0 := by omega
    rw [this]
  | succ k ih =>
    by_cases hk : b = k + 1
    · rw [hk]
    · rw [lastBrace, if_neg (h k (by omega) (by omega))]
      exact ih (fun i h1 h2 => h i h1 (by omega)) (by omega)

/-- The JSON text: a '{', and no other. -/
theorem resultText_split (r : Result) : ∃ t, resultText r = '{' :: t ∧ '{' ∉ t := by
  refine ⟨(resultText r).tail, rfl, ?_⟩
  have hn : ∀ n : Int, '{' ∉ showInt n := by
    intro n h
    have := safe_showInt n _ h
    revert this; decide
  simp [resultText, hn]

theorem resultText_noNul (r : Result) : '\x00' ∉ resultText r := by
  have hn : ∀ n : Int, '\x00' ∉ showInt n := by
    intro n h
    have := safe_showInt n _ h
    revert this; decide
  unfold resultText
  simp only [List.mem_append, hn, or_false, not_or]
  decide

theorem finish_none {out : CStr} (h : Node.handed out = none) : Node.finish out = .ub := by
  rw [Node.finish, h, Node.parsed]

theorem finish_some {out printed text : CStr} {v : JsonText.Value} (h : Node.handed out = some (printed, text))
    (hp : JsonText.parse false text = some v) : Node.finish out = .returns printed v := by
  rw [Node.finish, h, Node.parsed]
  simp only [hp]

/-- C62, the full claim. -/
def C62_full : Prop :=
  ∀ (out : CStr) (r : Result), Node.finish (out ++ resultText r) =
    .returns out (.ofInts [(c!"cpu_time", r.cpuTime), (c!"real_time", r.realTime), (c!"memory", r.memory), (c!"signal", r.signal),
      (c!"exit_code", r.exitCode), (c!"error", r.error), (c!"result", r.result)])

/-- C62, the part that holds: output without NUL bytes, and less than 2 GiB of text in all.  Missing: output with a NUL byte
(`C62_false`), longer output (`C62_too_long`). -/
theorem C62_result_found_partial (out : CStr) (r : Result) (h0 : '\x00' ∉ out) (hl : ((out ++ resultText r).length : Int) ≤ INT_MAX) :
    Node.finish (out ++ resultText r) =
      .returns out (.ofInts [(c!"cpu_time", r.cpuTime), (c!"real_time", r.realTime), (c!"memory", r.memory), (c!"signal", r.signal),
        (c!"exit_code", r.exitCode), (c!"error", r.error), (c!"result", r.result)]) := by
  obtain ⟨t, ht, hnt⟩ := resultText_split r
  have hnul : '\x00' ∉ out ++ resultText r := by
    rw [List.mem_append, not_or]
    exact ⟨h0, resultText_noNul r⟩
  have hpr := readResult_noNul (Nat.le_refl _) hnul
  have hcast : castInt ((out ++ resultText r).length : Int) = ((out ++ resultText r).length : Int) :=
    castInt_id _ ⟨by unfold INT_MIN; omega, hl⟩
  have hbrace : lastBrace (out ++ resultText r) (out ++ resultText r).length = out.length := by
    rw [lastBrace_none (out.length + 1)]
    · rw [lastBrace, if_pos]
      rw [ht, List.getElem?_append_right (Nat.le_refl _)]
      simp
    · intro i h1 h2 hc
      rw [List.getElem?_append_right (by omega), ht] at hc
      have : i - out.length = (i - out.length - 1) + 1 := by omega
      rw [this, List.getElem?_cons_succ] at hc
      exact hnt (List.mem_of_getElem? hc)
    · rw [ht]; simp
  have hh : Node.handed (out ++ resultText r) = some (out, resultText r) := by
    simp only [Node.handed, hpr, hcast, Int.toNat_natCast, hbrace]
    rw [if_neg (by omega), if_neg (by omega), List.drop_left]
    by_cases ho : out = []
    · simp [ho]
    · have : ((out.length : Int) ≠ 0) := by
        have := List.length_pos_iff.mpr ho
        omega
      rw [if_pos this, List.take_left]
  exact finish_some hh (C58_parse _ r)

example : Node.finish (c!"out {1}\n" ++ resultText ⟨1, 2, 3, 0, 0, 0, 0⟩) = .returns c!"out {1}\n"
    (.ofInts [(c!"cpu_time", 1), (c!"real_time", 2), (c!"memory", 3), (c!"signal", 0), (c!"exit_code", 0), (c!"error", 0), (c!"result", 0)]) := by
  refine C62_result_found_partial _ _ (by decide) ?_
  have : resultText ⟨1, 2, 3, 0, 0, 0, 0⟩ = c!"{\n    \"cpu_time\": 1,\n    \"real_time\": 2,\n    \"memory\": 3,\n    \"signal\": 0,\n    \"exit_code\": 0,\n    \"error\": 0,\n    \"result\": 0\n}" := by
    simp [resultText, showInt, showNat, digitChar]
  rw [this]
  decide +kernel

/-- C62: the output of a program ends with a NUL byte; the '{' of the JSON is lost and the binding reads before its buffer. -/
theorem C62_witness : Node.finish (['\x00'] ++ resultText ⟨1, 2, 3, 0, 0, 0, 0⟩) = .ub := by
  suffices h : Node.handed (['\x00'] ++ resultText ⟨1, 2, 3, 0, 0, 0, 0⟩) = none from finish_none h
  have : resultText ⟨1, 2, 3, 0, 0, 0, 0⟩ = c!"{\n    \"cpu_time\": 1,\n    \"real_time\": 2,\n    \"memory\": 3,\n    \"signal\": 0,\n    \"exit_code\": 0,\n    \"error\": 0,\n    \"result\": 0\n}" := by
    simp [resultText, showInt, showNat, digitChar]
  rw [this]
  decide +kernel

theorem C62_false : ¬C62_full := by
  intro h
  have := h ['\x00'] ⟨1, 2, 3, 0, 0, 0, 0⟩
  rw [C62_witness] at this
  cases this

/-- C62: from 2 GiB to 4 GiB of text the length does not fit an `int`, and the binding reads outside its buffer. -/
theorem C62_too_long (out : CStr) (h0 : '\x00' ∉ out) (h1 : INT_MAX < out.length) (h2 : (out.length : Int) < 4294967296) :
    Node.finish out = .ub := by
  have hpr := readResult_noNul (Nat.le_refl _) h0
  suffices h : Node.handed out = none from finish_none h
  simp only [Node.handed, hpr]
  rw [if_pos]
  unfold castInt INT_MAX at *
  omega

end Judger
