import Verif.Props.NodeCall

/-! # The items of the lists given to the Node binding (C84) -/

set_option autoImplicit false

namespace Judger

open Spec Node

/-! ## Specification -/

/-- This item of the list `key` is passed over: null, undefined, a list, or an object without a property of the name of the list. -/
def Vanishes (key : CStr) : JsVal → Bool
  | .undefined | .null | .array _ => true
  | .object get => (get key).isNil
  | _ => false

/-- The text this item of the list `key` stands for: a string for itself, an object for its property of the name of the list. -/
def StandsFor (key : CStr) (v : JsVal) (s : CStr) : Prop := v = .string s ∨ ∃ get, v = .object get ∧ get key = .string s

/-- The request with this list instead of its arguments. -/
def withArgs (get : CStr → JsVal) (v : JsVal) (key : CStr) : JsVal := if key = c!"args" then v else get key

/-! ## Proof -/

namespace NodeLists

theorem each_congr {α : Type} {f g : α → NRes CStr} : ∀ (l : List α), (∀ x ∈ l, f x = g x) → each f l = each g l
  | [], _ => rfl
  | x :: xs, h => by
    simp only [each]
    rw [h x List.mem_cons_self, each_congr xs fun y hy => h y (List.mem_cons_of_mem _ hy)]

theorem item_vanishes {key : CStr} {v : JsVal} (h : Vanishes key v = true) : toCStr v key = .ok [] := by
  cases v with
  | object get =>
    simp only [Vanishes] at h
    simp only [toCStr, target]
    cases hg : get key <;> rw [hg] at h <;> first | rfl | cases h
  | undefined => rfl
  | null => rfl
  | array _ => rfl
  | _ => cases h

theorem each_filter (key : CStr) : ∀ (items : List JsVal), each (toCStr · key) (items.filter fun v => !Vanishes key v) = each (toCStr · key) items
  | [] => rfl
  | v :: vs => by
    cases hv : Vanishes key v with
    | true =>
      rw [List.filter_cons_of_neg (by simp [hv]), each_filter key vs]
      simp only [each, item_vanishes hv]
      cases each (toCStr · key) vs <;> rfl
    | false =>
      rw [List.filter_cons_of_pos (by simp [hv])]
      simp only [each, each_filter key vs]

theorem item_throws (key : CStr) (v : JsVal) (hf : ∀ s, StandsFor key v s → FitsBuffer s) :
    ((∃ m, toCStr v key = .throws m) ∨ ∃ t, toCStr v key = .ok t) ∧
      ((∃ m, toCStr v key = .throws m) ↔ Vanishes key v = false ∧ ¬∃ s, StandsFor key v s) := by
  have text : ∀ s, target v key = .string s → StandsFor key v s := by
    intro s h
    cases v <;> simp only [target] at h <;> first | (cases h; done) | (cases h; exact .inl rfl) | exact .inr ⟨_, rfl, h⟩
  have back : ∀ s, StandsFor key v s → target v key = .string s := by
    rintro s (rfl | ⟨get, rfl, h⟩)
    · rfl
    · exact h
  have van : Vanishes key v = true ↔ target v key = .undefined ∨ target v key = .null := by
    cases v with
    | object get =>
      simp only [Vanishes, target]
      cases get key <;> simp [JsVal.isNil]
    | _ => simp [Vanishes, target]
  have ns : (∃ s, StandsFor key v s) ↔ ∃ s, target v key = .string s := ⟨fun ⟨s, h⟩ => ⟨s, back s h⟩, fun ⟨s, h⟩ => ⟨s, text s h⟩⟩
  have hfit : ∀ s, target v key = .string s → FitsBuffer s := fun s h => hf s (text s h)
  rw [ns, ← Bool.not_eq_true, van]
  unfold toCStr
  generalize target v key = t at hfit
  cases t with
  | string s =>
    have h : (s.takeWhile (· ≠ '\x00')).length < 255 := hfit s rfl
    have hc : copyText s = .ok (s.takeWhile (· ≠ '\x00')) := if_pos h
    simp [hc]
  | _ => simp

theorem exists_cons {α : Type} {P : α → Prop} {v : α} {vs : List α} : (∃ x ∈ v :: vs, P x) ↔ P v ∨ ∃ x ∈ vs, P x := by
  simp only [List.mem_cons, or_and_right, exists_or, exists_eq_left]

theorem items_throw (key : CStr) : ∀ (items : List JsVal), (∀ v ∈ items, ∀ s, StandsFor key v s → FitsBuffer s) →
    ((∃ m, each (toCStr · key) items = .throws m) ∨ ∃ t, each (toCStr · key) items = .ok t) ∧
      ((∃ m, each (toCStr · key) items = .throws m) ↔ ∃ v ∈ items, Vanishes key v = false ∧ ¬∃ s, StandsFor key v s)
  | [], _ => by simp [each]
  | v :: vs, hf => by
    obtain ⟨h1, h2⟩ := item_throws key v (hf v List.mem_cons_self)
    obtain ⟨h3, h4⟩ := items_throw key vs fun x hx => hf x (List.mem_cons_of_mem _ hx)
    rw [exists_cons, ← h2, ← h4]
    simp only [each]
    rcases h1 with ⟨m, h1⟩ | ⟨t, h1⟩
    · simp [h1]
    · rcases h3 with ⟨m, h3⟩ | ⟨t', h3⟩ <;> simp [h1, h3]

theorem ints_same (get : CStr → JsVal) (v : JsVal) : each (toNumber (withArgs get v)) intVars = each (toNumber get) intVars := by
  apply each_congr
  intro k hk
  have : k ≠ c!"args" := by rintro rfl; revert hk; decide
  simp only [toNumber, withArgs, if_neg this]

theorem texts_same (get : CStr → JsVal) (v : JsVal) :
    each (fun key => toCStr (.object (withArgs get v)) key) strVars = each (fun key => toCStr (.object get) key) strVars := by
  apply each_congr
  intro k hk
  have : k ≠ c!"args" := by rintro rfl; revert hk; decide
  simp only [toCStr, target, withArgs, if_neg this]

theorem args_here (get : CStr → JsVal) (v : JsVal) : withArgs get v c!"args" = v := if_pos rfl
theorem env_same (get : CStr → JsVal) (v : JsVal) : withArgs get v c!"env" = get c!"env" := if_neg (by decide)

end NodeLists

open NodeLists

/-! ## The claims -/

/-- **C84**, what silently vanishes: a request with such items among its arguments is carried out, or refused, exactly like the one without them. -/
theorem C84_vanish (get : CStr → JsVal) (items : List JsVal) :
    command (withArgs get (.array items)) = command (withArgs get (.array (items.filter fun v => !Vanishes c!"args" v))) := by
  unfold command
  rw [ints_same, ints_same, texts_same, texts_same, args_here, args_here, env_same, env_same]
  have h : argsPart (.array (items.filter fun v => !Vanishes c!"args" v)) = argsPart (.array items) := each_filter _ _
  rw [h]
  rfl

/-- **C84**, settled for the items of the arguments: if the rest of the request is in order, and the texts fit their buffers (C63), an exception is
thrown exactly if some item neither stands for a text nor vanishes. -/
theorem C84_items_exact (get : CStr → JsVal) (items : List JsVal) (w : CStr) (hw : command (withArgs get .undefined) = .ok w)
    (he : (get c!"env").isNil = true) (hf : ∀ v ∈ items, ∀ s, StandsFor c!"args" v s → FitsBuffer s) :
    (∃ m, command (withArgs get (.array items)) = .throws m) ↔ ∃ v ∈ items, Vanishes c!"args" v = false ∧ ¬∃ s, StandsFor c!"args" v s := by
  obtain ⟨h1, h2⟩ := items_throw c!"args" items hf
  rw [← h2]
  unfold command at hw ⊢
  rw [ints_same, texts_same] at hw ⊢
  rw [args_here, env_same] at hw ⊢
  have ha : argsPart (.array items) = each (toCStr · c!"args") items := rfl
  simp only [envPart, he, if_true] at hw ⊢
  rw [ha]
  cases hi : each (toNumber get) intVars with
  | throws m => rw [hi] at hw; cases hw
  | ub => rw [hi] at hw; cases hw
  | ok a =>
    rw [hi] at hw
    cases ht : each (fun key => toCStr (.object get) key) strVars with
    | throws m => rw [ht] at hw; cases hw
    | ub => rw [ht] at hw; cases hw
    | ok b => rcases h1 with ⟨m, h1⟩ | ⟨t, h1⟩ <;> simp [h1]

/-- Non-vacuous: four items, of which two vanish; and a number, which does not. -/
example : mixedGet = withArgs mixedGet (.array [.string c!"a", .null, .array [.string c!"b"], .string c!"c"]) ∧
    [JsVal.string c!"a", .null, .array [.string c!"b"], .string c!"c"].filter (fun v => !Vanishes c!"args" v) = [.string c!"a", .string c!"c"] :=
  ⟨funext fun k => by unfold withArgs mixedGet; split <;> split <;> simp_all, rfl⟩

example : (∃ w, command (withArgs mixedGet .undefined) = .ok w) ∧ (mixedGet c!"env").isNil = true ∧
    (∀ v ∈ [JsVal.string c!"a", .number 5], ∀ s, StandsFor c!"args" v s → FitsBuffer s) ∧
    ∃ v ∈ [JsVal.string c!"a", .number 5], Vanishes c!"args" v = false ∧ ¬∃ s, StandsFor c!"args" v s := by
  refine ⟨⟨_, rfl⟩, rfl, ?_, .number 5, by simp, rfl, ?_⟩
  · intro v hv s hs
    rcases List.mem_cons.1 hv with rfl | hv
    · rcases hs with hs | ⟨_, hs, _⟩
      · cases hs; unfold FitsBuffer; decide
      · cases hs
    · obtain rfl := List.mem_singleton.1 hv
      rcases hs with hs | ⟨_, hs, _⟩ <;> cases hs
  · rintro ⟨s, hs | ⟨_, hs, _⟩⟩ <;> cases hs

end Judger
