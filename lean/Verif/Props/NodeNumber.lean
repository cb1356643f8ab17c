import Verif.Spec.NodeNumber
import Verif.Props.NodeCall

/-! # C135: a number given to the Node binding is the number the judger gets -/

set_option autoImplicit false

namespace Judger

open Judger.Node Judger.Spec Judger.Spec.Cli Judger.Spec.Node Judger.Spec.Shell

/-! ## Dropping the fraction -/

theorem pow_pos2 (e : Nat) : (0 : Int) < 2 ^ e := Int.pow_pos (by decide)

theorem mul_lt_pow {a b : Int} {e : Nat} (h : a * 2 ^ e < b * 2 ^ e) : a < b := Int.lt_of_mul_lt_mul_right h (Int.le_of_lt (pow_pos2 e))

theorem mul_le_pow {a b : Int} {e : Nat} (h : a * 2 ^ e ≤ b * 2 ^ e) : a ≤ b := Int.le_of_mul_le_mul_right h (pow_pos2 e)

theorem pow_mul_le {a b : Int} (e : Nat) (h : a ≤ b) : a * 2 ^ e ≤ b * 2 ^ e := Int.mul_le_mul_of_nonneg_right h (Int.le_of_lt (pow_pos2 e))

/-- Truncation, for numbers that are not negative and for those that are not positive. -/
theorem tdiv_bounds (m : Int) (e : Nat) :
    (0 ≤ m → m.tdiv (2 ^ e) * 2 ^ e ≤ m ∧ m < (m.tdiv (2 ^ e) + 1) * 2 ^ e) ∧
    (m ≤ 0 → m ≤ m.tdiv (2 ^ e) * 2 ^ e ∧ (m.tdiv (2 ^ e) - 1) * 2 ^ e < m) := by
  have hp := pow_pos2 e
  have key : ∀ m : Int, 0 ≤ m → m.tdiv (2 ^ e) * 2 ^ e ≤ m ∧ m < (m.tdiv (2 ^ e) + 1) * 2 ^ e := by
    intro m hm
    rw [Int.tdiv_eq_ediv_of_nonneg hm]
    have h1 := Int.emod_add_mul_ediv m (2 ^ e)
    have h2 := Int.emod_nonneg m (Int.ne_of_gt hp)
    have h3 := Int.emod_lt_of_pos m hp
    rw [Int.add_mul, Int.mul_comm (m / 2 ^ e)]
    omega
  refine ⟨key m, fun hm => ?_⟩
  have h := key (-m) (by omega)
  rw [Int.neg_tdiv] at h
  rw [Int.neg_mul, Int.add_mul, Int.neg_mul] at h
  rw [Int.sub_mul]
  omega

/-- What the binding makes of a number, when a C int comes out, is the number without its fraction. -/
theorem toInteger_shortened {nearest : Bool} {x : JsNumber} (h : IsInt (toInteger nearest x)) : Shortened x (toInteger nearest x) := by
  have far : ∀ b, ¬IsInt (farValue nearest b) := by cases nearest <;> decide
  cases x with
  | nan => exact .inl ⟨rfl, rfl⟩
  | infinite b => exact absurd h (far b)
  | finite m e =>
    simp only [toInteger] at h ⊢
    split at h
    · rename_i hr
      rw [if_pos hr]
      obtain ⟨h1, h2⟩ := tdiv_bounds m e
      by_cases hm : 0 ≤ m
      · obtain ⟨a, b⟩ := h1 hm
        exact .inr (.inl ⟨by simpa [AtLeast] using hm, a, Int.le_of_lt b, Int.ne_of_lt b⟩)
      · obtain ⟨a, b⟩ := h2 (by omega)
        exact .inr (.inr ⟨by simp only [AtMost]; omega, a, Int.le_of_lt b, Int.ne_of_gt b⟩)
    · exact absurd h (far _)

/-- Only one integer is a number without its fraction. -/
theorem shortened_unique {x : JsNumber} {n n' : Int} (h : Shortened x n) (h' : Shortened x n') : n = n' := by
  cases x with
  | nan =>
    simp only [Shortened, AtLeast, AtMost] at h h'
    simp only [false_and, or_false, true_and] at h h'
    omega
  | infinite b => simp [Shortened, AtLeast, AtMost, Less, More, IsNumber] at h
  | finite m e =>
    have hlt : ∀ {n n' : Int}, n * 2 ^ e ≤ m → m ≤ (n' + 1) * 2 ^ e ∧ m ≠ (n' + 1) * 2 ^ e → n ≤ n' := fun h1 h2 =>
      Int.lt_add_one_iff.1 (mul_lt_pow (e := e) (by omega))
    have hgt : ∀ {n n' : Int}, m ≤ n * 2 ^ e → (n' - 1) * 2 ^ e ≤ m ∧ m ≠ (n' - 1) * 2 ^ e → n' ≤ n := fun {n n'} h1 h2 => by
      have := mul_lt_pow (a := n' - 1) (b := n) (e := e) (by omega)
      omega
    have h0 : ∀ {n : Int}, m = 0 → n * 2 ^ e ≤ m → m ≤ (n + 1) * 2 ^ e ∧ m ≠ (n + 1) * 2 ^ e → n = 0 := fun {n} hm h1 h2 => by
      have a := mul_le_pow (a := n) (b := 0) (e := e) (by omega)
      have b := mul_lt_pow (a := 0) (b := n + 1) (e := e) (by omega)
      omega
    have h0' : ∀ {n : Int}, m = 0 → m ≤ n * 2 ^ e → (n - 1) * 2 ^ e ≤ m ∧ m ≠ (n - 1) * 2 ^ e → n = 0 := fun {n} hm h1 h2 => by
      have a := mul_le_pow (a := 0) (b := n) (e := e) (by omega)
      have b := mul_lt_pow (a := n - 1) (b := 0) (e := e) (by omega)
      omega
    simp only [Shortened, AtLeast, AtMost, Less, More, IsNumber, Int.zero_mul] at h h'
    rcases h with ⟨h, _⟩ | ⟨a, b, c⟩ | ⟨a, b, c⟩
    · cases h
    all_goals rcases h' with ⟨h', _⟩ | ⟨a', b', c'⟩ | ⟨a', b', c'⟩
    · cases h'
    · exact Int.le_antisymm (hlt b c') (hlt b' c)
    · rw [h0 (by omega) b c, h0' (by omega) b' c']
    · cases h'
    · rw [h0' (by omega) b c, h0 (by omega) b' c']
    · exact Int.le_antisymm (hgt b' c) (hgt b c')

/-- An integer has no fraction. -/
theorem number_shortened {x : JsNumber} {n : Int} (h : IsNumber x n) : Shortened x n := by
  cases x with
  | finite m e =>
    simp only [IsNumber] at h
    subst h
    have hp := pow_pos2 e
    simp only [Shortened, AtLeast, AtMost, Less, More, IsNumber, Int.zero_mul]
    have h1 : (n + 1) * 2 ^ e = n * 2 ^ e + 2 ^ e := by rw [Int.add_mul, Int.one_mul]
    have h2 : (n - 1) * 2 ^ e = n * 2 ^ e - 2 ^ e := by rw [Int.sub_mul, Int.one_mul]
    rw [h1, h2]
    omega
  | nan => cases h
  | infinite b => cases h

/-! ## The claim -/

/-- A call of the binding gets as far as `run()` with this configuration. -/
def LeadsTo (posix : Bool) (junk : Cells) (get : CStr → JsVal) (c : Config) : Prop :=
  ∃ cmd argv, command get = .ok cmd ∧ commands cmd = some [argv] ∧ MainDoes posix junk argv (.runs c)

/-- C135, the full claim: where a call leads to `run()`, each number of the configuration is the number given for it. -/
def C135_full : Prop :=
  ∀ (nearest posix : Bool) (junk : Cells) (k : NumberCall) (c : Config), Harmless (k.request nearest) → (k.request nearest).Proper →
    (k.args.getD []).length < 255 → LeadsTo posix junk (k.request nearest).get c →
    (∀ o f x, intField o = some f → k.num o = some x → IsNumber x (f c)) ∧
    (∀ x, k.num .uid = some x → ∃ n, IsNumber x n ∧ c.uid = castU32 n) ∧ ∀ x, k.num .gid = some x → ∃ n, IsNumber x n ∧ c.gid = castU32 n

theorem leads_wanted {nearest posix : Bool} {junk : Cells} {k : NumberCall} {c : Config} (h : Harmless (k.request nearest))
    (hp : (k.request nearest).Proper) (hn : (k.args.getD []).length < 255) (hl : LeadsTo posix junk (k.request nearest).get c) :
    (k.request nearest).Ok ∧ c = (k.request nearest).wanted := by
  obtain ⟨cmd, argv, h1, h2, h3⟩ := hl
  obtain ⟨k1, k2⟩ := harmless_command h
  rw [k1, NRes.ok.injEq] at h1
  subst h1
  rw [k2] at h2
  obtain rfl : _ = argv := by simpa using h2
  have hok := harmless_runs h hp h3
  refine ⟨hok, ?_⟩
  obtain ⟨cmd, argv, g1, g2, g3⟩ := C63_plain_partial _ hok hn h.env h.texts
  rw [k1, NRes.ok.injEq] at g1
  subst g1
  rw [k2] at g2
  obtain rfl : _ = argv := by simpa using g2
  have := h3.unique (g3 posix junk)
  simpa using this.symm

theorem leads_int {nearest : Bool} {k : NumberCall} (h : (k.request nearest).Ok) {o : Opt} {x : JsNumber} (hx : k.num o = some x) :
    (k.request nearest).int o = some (toInteger nearest x) ∧ IsInt (toInteger nearest x) := by
  have : (k.request nearest).int o = some (toInteger nearest x) := by simp [NumberCall.request, hx]
  exact ⟨this, h.ints o _ this⟩

/-- C135, the part that holds, for every number whatever: the judger gets it without its fraction, and 0 for NaN.  Missing: numbers with a fraction, and NaN. -/
theorem C135_shortened_partial (nearest posix : Bool) (junk : Cells) (k : NumberCall) (c : Config) (h : Harmless (k.request nearest))
    (hp : (k.request nearest).Proper) (hn : (k.args.getD []).length < 255) (hl : LeadsTo posix junk (k.request nearest).get c) :
    (∀ o f x, intField o = some f → k.num o = some x → Shortened x (f c)) ∧
    (∀ x, k.num .memoryLimitCheckOnly = some x → (c.memoryLimitCheckOnly = 0 ↔ Shortened x 0)) ∧
    (∀ x, k.num .uid = some x → ∃ n, Shortened x n ∧ c.uid = castU32 n) ∧
    ∀ x, k.num .gid = some x → ∃ n, Shortened x n ∧ c.gid = castU32 n := by
  obtain ⟨hok, rfl⟩ := leads_wanted h hp hn hl
  refine ⟨fun o f x hf hx => ?_, fun x hx => ?_, fun x hx => ?_, fun x hx => ?_⟩
  all_goals
    obtain ⟨h1, h2⟩ := leads_int hok hx
    have h3 := toInteger_shortened h2
  · cases o <;> simp only [intField, Option.some.injEq, reduceCtorEq] at hf <;> subst hf <;> simpa [Request.wanted, h1] using h3
  · simp only [Request.wanted, h1, Option.getD_some]
    refine ⟨fun h => ?_, fun h => ?_⟩
    · split at h
      · rename_i h0; rwa [h0] at h3
      · cases h
    · rw [if_pos (shortened_unique h3 h)]
  · exact ⟨_, h3, by simp [Request.wanted, h1]⟩
  · exact ⟨_, h3, by simp [Request.wanted, h1]⟩

/-- C135: an integer arrives as it is. -/
theorem C135_integers_partial (nearest posix : Bool) (junk : Cells) (k : NumberCall) (c : Config) (h : Harmless (k.request nearest))
    (hp : (k.request nearest).Proper) (hn : (k.args.getD []).length < 255) (hl : LeadsTo posix junk (k.request nearest).get c) :
    (∀ o f x n, intField o = some f → k.num o = some x → IsNumber x n → f c = n) ∧
    (∀ x n, k.num .uid = some x → IsNumber x n → c.uid = castU32 n) ∧ ∀ x n, k.num .gid = some x → IsNumber x n → c.gid = castU32 n := by
  obtain ⟨h1, _, h2, h3⟩ := C135_shortened_partial nearest posix junk k c h hp hn hl
  refine ⟨fun o f x n hf hx hn => shortened_unique (h1 o f x hf hx) (number_shortened hn), fun x n hx hn => ?_, fun x n hx hn => ?_⟩
  · obtain ⟨m, hm, hc⟩ := h2 x hx
    rw [hc, shortened_unique hm (number_shortened hn)]
  · obtain ⟨m, hm, hc⟩ := h3 x hx
    rw [hc, shortened_unique hm (number_shortened hn)]

/-- C135: the limits that `run()` accepts are never more than the numbers given, except that every number above -2 up to -1 means no limit. -/
theorem C135_never_more (nearest posix : Bool) (junk : Cells) (k : NumberCall) (c : Config) (h : Harmless (k.request nearest))
    (hp : (k.request nearest).Proper) (hn : (k.args.getD []).length < 255) (hl : LeadsTo posix junk (k.request nearest).get c) (hc : ConfigOk c)
    (o : Opt) (f : Config → Int) (x : JsNumber) (hf : intField o = some f) (hx : k.num o = some x) :
    (1 ≤ f c ∧ AtLeast x (f c)) ∨ (f c = -1 ∧ More x (-2) ∧ AtMost x (-1)) := by
  have hs := (C135_shortened_partial nearest posix junk k c h hp hn hl).1 o f x hf hx
  have hok : f c = -1 ∨ 1 ≤ f c := by
    obtain ⟨a1, a2, a3, a4, a5, a6⟩ := hc
    cases o <;> simp only [intField, Option.some.injEq, reduceCtorEq] at hf <;> subst hf
    · exact a1
    · exact a2
    · exact a3
    · exact .inr a6
    · exact a4
    · exact a5
  rcases hs with ⟨_, h0⟩ | ⟨h0, h1, h2⟩ | ⟨h0, h1, h2⟩
  · omega
  · rcases hok with hk | hk
    · rw [hk] at h2
      exfalso
      cases x with
      | nan => cases h0
      | infinite b => simp only [Less, AtLeast, AtMost] at h0 h2; rw [h0] at h2; cases h2.1
      | finite m e =>
        simp only [Less, AtLeast, AtMost, IsNumber, Int.zero_mul] at h0 h2
        have : (-1 + 1 : Int) * 2 ^ e = 0 := by simp
        omega
    · exact .inl ⟨hk, h1⟩
  · rcases hok with hk | hk
    · rw [hk] at h1 h2
      exact .inr ⟨hk, h2, h1⟩
    · exfalso
      cases x with
      | nan => cases h0
      | infinite b => simp only [More, AtLeast, AtMost] at h0 h2; rw [h0] at h2; cases h2.1
      | finite m e =>
        simp only [More, AtLeast, AtMost, IsNumber, Int.zero_mul] at h0 h2
        have := pow_mul_le e (show (0 : Int) ≤ f c - 1 by omega)
        simp only [Int.zero_mul] at this
        omega

/-- C135: with a number that no C int is near nothing is run, whichever way V8 converts it. -/
theorem C135_beyond (nearest posix : Bool) (junk : Cells) (k : NumberCall) (c : Config) (h : Harmless (k.request nearest))
    (hp : (k.request nearest).Proper) (hn : (k.args.getD []).length < 255) (o : Opt) (x : JsNumber) (hx : k.num o = some x)
    (hb : AtLeast x 2147483648 ∨ AtMost x (-2147483649)) : ¬LeadsTo posix junk (k.request nearest).get c := by
  intro hl
  obtain ⟨hok, _⟩ := leads_wanted h hp hn hl
  obtain ⟨_, h2⟩ := leads_int hok hx
  have h3 := toInteger_shortened h2
  obtain ⟨l, u⟩ := h2
  simp only [INT_MIN, INT_MAX] at l u
  cases x with
  | nan => rcases hb with hb | hb <;> cases hb
  | infinite b => simp [Shortened, AtLeast, AtMost, Less, More, IsNumber] at h3
  | finite m e =>
    generalize toInteger nearest (.finite m e) = n at *
    simp only [Shortened, AtLeast, AtMost, Less, More, IsNumber, Int.zero_mul] at h3 hb
    have hp := pow_pos2 e
    rcases h3 with ⟨h3, _⟩ | ⟨a, b, d⟩ | ⟨a, b, d⟩
    · cases h3
    · have := pow_mul_le e (show n + 1 ≤ 2147483648 by omega)
      omega
    · have := pow_mul_le e (show (-2147483649 : Int) ≤ n - 1 by omega)
      omega

/-! ## The witnesses -/

/-- A call with a path and one number. -/
def numberCall (o : Opt) (x : JsNumber) : NumberCall where
  num := fun o' => if o' = o then some x else none
  text := fun o => if o = .exePath then some c!"/bin/echo" else none
  args := none
  env := none

theorem numberCall_text {nearest : Bool} {o : Opt} {x : JsNumber} {s : CStr} (h : ((numberCall o x).request nearest).HasText s) : s = c!"/bin/echo" := by
  rcases h with ⟨o', _, h⟩ | h | h
  · simp only [NumberCall.request, numberCall] at h
    split at h
    · simpa using h.symm
    · cases h
  · simp [NumberCall.request, numberCall] at h
  · simp [NumberCall.request, numberCall] at h

theorem numberCall_harmless (nearest : Bool) (o : Opt) (x : JsNumber) : Harmless ((numberCall o x).request nearest) where
  texts := fun s hs => by
    rw [numberCall_text hs]
    exact ⟨by intro c hc; revert c; decide, by decide⟩
  env := .inl rfl

theorem numberCall_proper (nearest : Bool) (o : Opt) (x : JsNumber) (ho : o.takes = .int) : ((numberCall o x).request nearest).Proper where
  ints := by
    intro o' h
    have : o' ≠ o := fun h' => h (h' ▸ ho)
    simp [NumberCall.request, numberCall, this]
  texts := by
    intro o' h
    have : o' ≠ .exePath := by rintro rfl; simp [Opt.takes] at h
    simp [NumberCall.request, numberCall, this]

theorem numberCall_leads (nearest posix : Bool) (junk : Cells) (o : Opt) (x : JsNumber) (hx : IsInt (toInteger nearest x)) :
    LeadsTo posix junk ((numberCall o x).request nearest).get ((numberCall o x).request nearest).wanted := by
  have hok : ((numberCall o x).request nearest).Ok := by
    refine ⟨⟨c!"/bin/echo", rfl⟩, ?_, fun s hs => by rw [numberCall_text hs]; decide, fun s hs => by rw [numberCall_text hs]; decide, Nat.zero_le _, Nat.zero_le _⟩
    intro o' n hn
    simp only [NumberCall.request, numberCall] at hn
    split at hn
    · simp at hn; rwa [← hn]
    · cases hn
  obtain ⟨cmd, argv, h1, h2, h3⟩ := C63_plain_partial _ hok (by decide : (0 : Nat) < 255) (.inl rfl) (numberCall_harmless nearest o x).texts
  exact ⟨cmd, argv, h1, h2, h3 posix junk⟩

/-- `uid: NaN`, as `parseInt` of something that is no number gives, and `uid: 0.5` ask for root. -/
theorem C135_witness_root (nearest posix : Bool) (junk : Cells) (x : JsNumber) (hx : x = .nan ∨ x = .finite 1 1) :
    ∃ c, LeadsTo posix junk ((numberCall .uid x).request nearest).get c ∧ c.uid = 0 := by
  refine ⟨_, numberCall_leads nearest posix junk .uid x ?_, ?_⟩
  all_goals rcases hx with rfl | rfl <;> revert nearest <;> decide

/-- A memory limit of -1.5 is no limit. -/
theorem C135_witness_unlimited (nearest posix : Bool) (junk : Cells) :
    ∃ c, LeadsTo posix junk ((numberCall .maxMemory (.finite (-3) 1)).request nearest).get c ∧ c.maxMemory = -1 := by
  refine ⟨_, numberCall_leads nearest posix junk .maxMemory _ ?_, ?_⟩
  all_goals revert nearest; decide

/-- C135 is false of the code. -/
theorem C135_false : ¬C135_full := by
  intro h
  obtain ⟨c, hl, _⟩ := C135_witness_root true false (fun _ => none) .nan (.inl rfl)
  obtain ⟨n, hn, _⟩ := (h true false (fun _ => none) (numberCall .uid .nan) c (numberCall_harmless ..) (numberCall_proper _ _ _ rfl) (by decide) hl).2.1 .nan rfl
  cases hn

/-- The hypotheses can be met: a CPU time of 1500.75 is 1500. -/
example : ∃ c, LeadsTo false (fun _ => none) ((numberCall .maxCpuTime (.finite 6003 2)).request true).get c ∧ ConfigOk c ∧ c.maxCpuTime = 1500 := by
  refine ⟨_, numberCall_leads true false (fun _ => none) .maxCpuTime _ (by decide), ?_, by decide⟩
  simp only [ConfigOk, LimitOk]
  decide

/-- A number beyond the C ints. -/
example : ∀ c, ¬LeadsTo false (fun _ => none) ((numberCall .maxMemory (.finite 4294967296 0)).request false).get c := fun c =>
  C135_beyond false false _ _ c (numberCall_harmless ..) (numberCall_proper _ _ _ rfl) (by decide) .maxMemory (.finite 4294967296 0) rfl
    (.inl (by simp [AtLeast]))

end Judger
