import Verif.Model.Python
import Verif.Lemmas.JsonText
import Verif.Spec.Utf8

/-! `Py.decodes` accepts exactly the UTF-8 texts. -/

set_option autoImplicit false

namespace Judger

open Judger.Spec Judger.Py

theorem byte_toNat {n : Nat} (h : n < 256) : (byte n).toNat = n := by
  have : n.isValidChar := .inl (by omega)
  simp [byte, Char.ofNat, this, Char.ofNatAux, Char.toNat]

theorem byte_of {c : Char} {n : Nat} (h : c.toNat = n) : c = byte n := by
  subst h
  exact (Char.ofNat_toNat c).symm

theorem decodes_ascii {c : Char} {r : CStr} (h : c.toNat < 0x80) : decodes (c :: r) = decodes r := by
  conv => lhs; unfold decodes
  rw [if_pos h]

theorem decodes_char (c : Char) (r : CStr) : decodes (utf8Bytes c ++ r) = decodes r := by
  have hv := c.valid
  have hn : c.toNat < 0xD800 ∨ (0xDFFF < c.toNat ∧ c.toNat < 0x110000) := hv
  unfold utf8Bytes
  simp only
  split
  · rw [List.singleton_append, decodes_ascii (by rw [byte_toNat (by omega)]; assumption)]
  · split
    · have h1 := byte_toNat (show 0xC0 + c.toNat / 64 < 256 by omega)
      have h2 := byte_toNat (show 0x80 + c.toNat % 64 < 256 by omega)
      simp only [List.cons_append, List.nil_append, decodes, isTail, h1, h2]
      rw [if_neg (by omega), if_pos (by omega)]
      simp; omega
    · split
      · have h1 := byte_toNat (show 0xE0 + c.toNat / 4096 < 256 by omega)
        have h2 := byte_toNat (show 0x80 + c.toNat / 64 % 64 < 256 by omega)
        have h3 := byte_toNat (show 0x80 + c.toNat % 64 < 256 by omega)
        simp only [List.cons_append, List.nil_append, decodes, isTail, h1, h2, h3]
        rw [if_neg (by omega), if_neg (by omega), if_pos (by omega)]
        simp; omega
      · have h1 := byte_toNat (show 0xF0 + c.toNat / 262144 < 256 by omega)
        have h2 := byte_toNat (show 0x80 + c.toNat / 4096 % 64 < 256 by omega)
        have h3 := byte_toNat (show 0x80 + c.toNat / 64 % 64 < 256 by omega)
        have h4 := byte_toNat (show 0x80 + c.toNat % 64 < 256 by omega)
        simp only [List.cons_append, List.nil_append, decodes, isTail, h1, h2, h3, h4]
        rw [if_neg (by omega), if_neg (by omega), if_neg (by omega), if_pos (by omega)]
        simp; omega

theorem decodes_text (t : List Char) : decodes (t.flatMap utf8Bytes) = true := by
  induction t with
  | nil => rfl
  | cons c t ih => rw [List.flatMap_cons, decodes_char, ih]

/-- The character with this number. -/
theorem char_at {n : Nat} (h : n < 0xD800 ∨ (0xDFFF < n ∧ n < 0x110000)) : ∃ c : Char, c.toNat = n :=
  ⟨Char.ofNat n, by
    have : n.isValidChar := h
    simp [Char.ofNat, this, Char.ofNatAux, Char.toNat]⟩

theorem utf8_of_decodes : ∀ (k : Nat) (s : CStr), s.length ≤ k → decodes s = true → Utf8 s
  | _, [], _, _ => ⟨[], rfl⟩
  | 0, _ :: _, hk, _ => by simp at hk
  | k + 1, a :: r, hk, h => by
    have key : ∀ (n : Nat) (s' : CStr), (n < 0xD800 ∨ (0xDFFF < n ∧ n < 0x110000)) → s'.length ≤ k → decodes s' = true →
        (∀ c : Char, c.toNat = n → a :: r = utf8Bytes c ++ s') → Utf8 (a :: r) := by
      intro n s' hn hs' hd hc
      obtain ⟨c, hcn⟩ := char_at hn
      obtain ⟨t, ht⟩ := utf8_of_decodes k s' hs' hd
      exact ⟨c :: t, by rw [List.flatMap_cons, ← ht, hc c hcn]⟩
    simp only [List.length_cons] at hk
    unfold decodes at h
    split at h
    · refine key a.toNat r (by omega) (by omega) h fun c hc => ?_
      simp only [utf8Bytes, hc]
      rw [if_pos ‹_›, ← byte_of rfl]; rfl
    · split at h
      · match r, h with
        | b :: r, h =>
          simp only [isTail, Bool.and_eq_true, decide_eq_true_eq] at h
          simp only [List.length_cons] at hk
          obtain ⟨hb, h⟩ := h
          refine key ((a.toNat - 0xC0) * 64 + (b.toNat - 0x80)) r (by omega) (by omega) h fun c hc => ?_
          simp only [utf8Bytes, hc]
          rw [if_neg (by omega), if_pos (by omega), ← byte_of (c := a) (by omega), ← byte_of (c := b) (by omega)]; rfl
      · split at h
        · match r, h with
          | b :: c :: r, h =>
            simp only [isTail, Bool.and_eq_true, decide_eq_true_eq] at h
            simp only [List.length_cons] at hk
            obtain ⟨⟨⟨⟨hb, hc⟩, hlo⟩, hhi⟩, h⟩ := h
            refine key ((a.toNat - 0xE0) * 4096 + (b.toNat - 0x80) * 64 + (c.toNat - 0x80)) r (by omega) (by omega) h fun x hx => ?_
            simp only [utf8Bytes, hx]
            rw [if_neg (by omega), if_neg (by omega), if_pos (by omega), ← byte_of (c := a) (by omega), ← byte_of (c := b) (by omega),
              ← byte_of (c := c) (by omega)]; rfl
        · split at h
          · match r, h with
            | b :: c :: d :: r, h =>
              simp only [isTail, Bool.and_eq_true, decide_eq_true_eq] at h
              simp only [List.length_cons] at hk
              obtain ⟨⟨⟨⟨⟨hb, hc⟩, hd⟩, hlo⟩, hhi⟩, h⟩ := h
              refine key ((a.toNat - 0xF0) * 262144 + (b.toNat - 0x80) * 4096 + (c.toNat - 0x80) * 64 + (d.toNat - 0x80)) r (by omega) (by omega) h
                fun x hx => ?_
              simp only [utf8Bytes, hx]
              rw [if_neg (by omega), if_neg (by omega), if_neg (by omega), ← byte_of (c := a) (by omega), ← byte_of (c := b) (by omega),
                ← byte_of (c := c) (by omega), ← byte_of (c := d) (by omega)]; rfl
          · cases h

theorem decodes_iff (s : CStr) : decodes s = true ↔ Utf8 s :=
  ⟨utf8_of_decodes s.length s (Nat.le_refl _), fun ⟨t, ht⟩ => ht ▸ decodes_text t⟩

/-- A text of ASCII characters. -/
theorem utf8_ascii {s : CStr} (h : ∀ c ∈ s, c.toNat < 0x80) : Utf8 s :=
  (decodes_iff s).1 (by
    induction s with
    | nil => rfl
    | cons c s ih =>
      rw [decodes_ascii (h c List.mem_cons_self)]
      exact ih fun d hd => h d (List.mem_cons_of_mem _ hd))

/-- Two texts one after the other. -/
theorem utf8_append {s t : CStr} (hs : Utf8 s) (ht : Utf8 t) : Utf8 (s ++ t) := by
  obtain ⟨a, rfl⟩ := hs
  obtain ⟨b, rfl⟩ := ht
  exact ⟨a ++ b, by rw [List.flatMap_append]⟩

theorem digit_ascii {c : Char} (h : (Json.digit c).isSome = true) : c.toNat < 0x80 := by
  unfold Json.digit at h
  split at h <;> first | decide | cases h

theorem showInt_ascii (n : Int) : ∀ c ∈ showInt n, c.toNat < 0x80 := by
  intro c hc
  obtain ⟨_, d, r, hd, h⟩ := JsonText.showInt_chars n
  have ht := JsonText.showInt_tail n
  rw [hd] at hc ht
  rcases List.mem_cons.1 hc with rfl | hc
  · rcases h with rfl | h
    · decide
    · exact digit_ascii h
  · exact digit_ascii (ht c hc)

theorem lines_ascii : ∀ (ms : List (CStr × Int)), (∀ m ∈ ms, ∀ c ∈ m.1, c.toNat < 0x80) → ∀ c ∈ JsonText.lines ms, c.toNat < 0x80
  | [], _ => by simp [JsonText.lines]
  | [(k, n)], h => by
    intro c hc
    have h1 := h (k, n) List.mem_cons_self
    have h2 := showInt_ascii n
    simp only [JsonText.lines, List.mem_append, List.mem_cons, List.not_mem_nil, or_false] at hc
    rcases hc with hc | rfl | hc | rfl | rfl | rfl | hc | rfl | rfl
    · rcases hc with rfl | rfl | rfl | rfl <;> decide
    · decide
    · exact h1 c hc
    · decide
    · decide
    · decide
    · exact h2 c hc
    · decide
    · decide
  | (k, n) :: m :: ms, h => by
    intro c hc
    have h1 := h (k, n) List.mem_cons_self
    have h2 := showInt_ascii n
    have h3 := lines_ascii (m :: ms) fun x hx => h x (List.mem_cons_of_mem _ hx)
    simp only [JsonText.lines, List.mem_append, List.mem_cons, List.not_mem_nil, or_false] at hc
    rcases hc with hc | rfl | hc | rfl | rfl | rfl | hc | rfl | rfl | hc
    · rcases hc with rfl | rfl | rfl | rfl <;> decide
    · decide
    · exact h1 c hc
    · decide
    · decide
    · decide
    · exact h2 c hc
    · decide
    · decide
    · exact h3 c hc

example : decodes [byte 0xC3, byte 0xA9] = true ∧ decodes [byte 0xC0, byte 0x80] = false ∧ decodes [byte 0xED, byte 0xA0, byte 0x80] = false ∧
    decodes [byte 0xE2, byte 0x82, byte 0xAC] = true ∧ decodes [byte 0xF4, byte 0x90, byte 0x80, byte 0x80] = false ∧
    decodes [byte 0xF0, byte 0x9F, byte 0x98, byte 0x80] = true ∧ decodes [byte 0xE2, byte 0x82] = false := by decide +kernel

end Judger
