import Verif.Go.Js
import Verif.Proofs.Utf8

/-! Texts passed between Go and JavaScript. -/

namespace Verif.Js

theorem lead_ascii {b : Nat} (h : b < 0x80) : lead b = .inl b := by simp [lead, h]

theorem lead_two {b : Nat} (h : 0xC2 ≤ b) (h' : b < 0xE0) : lead b = .inr ⟨1, b - 0xC0, 0x80, 0xBF⟩ := by
  unfold lead
  rw [if_neg (by omega), if_neg (by omega), if_pos (by omega)]

theorem lead_three {b : Nat} (h : 0xE0 ≤ b) (h' : b < 0xF0) :
    lead b = .inr ⟨2, b - 0xE0, if b = 0xE0 then 0xA0 else 0x80, if b = 0xED then 0x9F else 0xBF⟩ := by
  unfold lead
  rw [if_neg (by omega), if_neg (by omega), if_neg (by omega), if_pos (by omega)]

theorem lead_four {b : Nat} (h : 0xF0 ≤ b) (h' : b < 0xF5) :
    lead b = .inr ⟨3, b - 0xF0, if b = 0xF0 then 0x90 else 0x80, if b = 0xF4 then 0x8F else 0xBF⟩ := by
  unfold lead
  rw [if_neg (by omega), if_neg (by omega), if_neg (by omega), if_neg (by omega), if_pos (by omega)]

theorem decodeBytes_encodeValid (r : Rune) (h : validRune r = true) (s : Bytes) :
    decodeBytes none (encodeValid r ++ s) = r :: decodeBytes none s := by
  rw [validRune_iff] at h
  unfold encodeValid
  split
  · rename_i h1
    have e : (UInt8.ofNat r).toNat = r := by simp; omega
    simp only [List.singleton_append, decodeBytes, e, lead_ascii h1]
  · split
    · rename_i h1 h2
      have e0 : (UInt8.ofNat (0xC0 + r / 0x40)).toNat = 0xC0 + r / 0x40 := by simp; omega
      have e1 : (UInt8.ofNat (0x80 + r % 0x40)).toNat = 0x80 + r % 0x40 := by simp; omega
      simp only [List.cons_append, List.nil_append, decodeBytes, e0, e1,
        lead_two (b := 0xC0 + r / 0x40) (by omega) (by omega)]
      rw [if_pos (by omega)]
      simp only [if_true]
      simp only [List.cons.injEq, and_true]
      omega
    · split
      · rename_i h1 h2 h3
        have e0 : (UInt8.ofNat (0xE0 + r / 0x1000)).toNat = 0xE0 + r / 0x1000 := by simp; omega
        have e1 : (UInt8.ofNat (0x80 + r / 0x40 % 0x40)).toNat = 0x80 + r / 0x40 % 0x40 := by simp; omega
        have e2 : (UInt8.ofNat (0x80 + r % 0x40)).toNat = 0x80 + r % 0x40 := by simp; omega
        simp only [List.cons_append, List.nil_append, decodeBytes, e0, e1, e2,
          lead_three (b := 0xE0 + r / 0x1000) (by omega) (by omega)]
        rw [if_pos (by constructor <;> split <;> omega)]
        rw [if_neg (by omega)]
        simp only [Nat.add_one_sub_one]
        rw [if_pos (by omega)]
        simp only [if_true]
        simp only [List.cons.injEq, and_true]
        omega
      · rename_i h1 h2 h3
        have e0 : (UInt8.ofNat (0xF0 + r / 0x40000)).toNat = 0xF0 + r / 0x40000 := by simp; omega
        have e1 : (UInt8.ofNat (0x80 + r / 0x1000 % 0x40)).toNat = 0x80 + r / 0x1000 % 0x40 := by simp; omega
        have e2 : (UInt8.ofNat (0x80 + r / 0x40 % 0x40)).toNat = 0x80 + r / 0x40 % 0x40 := by simp; omega
        have e3 : (UInt8.ofNat (0x80 + r % 0x40)).toNat = 0x80 + r % 0x40 := by simp; omega
        simp only [List.cons_append, List.nil_append, decodeBytes, e0, e1, e2, e3,
          lead_four (b := 0xF0 + r / 0x40000) (by omega) (by omega)]
        rw [if_pos (by constructor <;> split <;> omega)]
        rw [if_neg (by omega)]
        simp only [Nat.add_one_sub_one]
        rw [if_pos (by omega), if_neg (by omega), if_pos (by omega)]
        simp only [if_true]
        simp only [List.cons.injEq, and_true]
        omega

theorem decodeBytes_encode {rs : List Rune} (h : ∀ r ∈ rs, validRune r = true) : decodeBytes none (encode rs) = rs := by
  induction rs with
  | nil => simp [decodeBytes]
  | cons r rs ih =>
    rw [encode_cons, encodeRune_valid (h r (by simp)), decodeBytes_encodeValid r (h r (by simp)),
      ih fun x hx => h x (by simp [hx])]

theorem bom_eq : bom = encode [0xFEFF] := by decide

/-- A text begins with the bytes of a byte order mark only if it begins with this character. -/
theorem bom_prefix {rs : List Rune} (h : ∀ r ∈ rs, validRune r = true) :
    bom.isPrefixOf (encode rs) = true ↔ rs.head? = some 0xFEFF := by
  constructor
  · intro hp
    obtain ⟨t, ht⟩ := List.isPrefixOf_iff_prefix.1 hp
    have h1 := decodeBytes_encode h
    have h2 : decodeBytes none (bom ++ t) = 0xFEFF :: decodeBytes none t :=
      decodeBytes_encodeValid 0xFEFF (by decide) t
    rw [← ht, h2] at h1
    rw [← h1]
    rfl
  · intro hh
    obtain ⟨rs', rfl⟩ : ∃ rs', rs = 0xFEFF :: rs' := by
      cases rs with
      | nil => simp at hh
      | cons a l => simp at hh; exact ⟨l, by rw [hh]⟩
    rw [encode_cons]
    exact List.isPrefixOf_iff_prefix.2 ⟨encode rs', rfl⟩

theorem decodeText_encode {rs : List Rune} (h : ∀ r ∈ rs, validRune r = true) :
    decodeText (encode rs) = units (if rs.head? = some 0xFEFF then rs.tail else rs) := by
  unfold decodeText
  by_cases hb : rs.head? = some 0xFEFF
  · rw [if_pos ((bom_prefix h).2 hb), if_pos hb]
    obtain ⟨rs', rfl⟩ : ∃ rs', rs = 0xFEFF :: rs' := by
      cases rs with
      | nil => simp at hb
      | cons a l => simp at hb; exact ⟨l, by rw [hb]⟩
    have : (encode (0xFEFF :: rs')).drop 3 = encode rs' := rfl
    rw [this, decodeBytes_encode fun r hr => h r (by simp [hr])]
    rfl
  · rw [if_neg (by rw [bom_prefix h]; exact hb), if_neg hb, decodeBytes_encode h]

theorem chars_unitsOf {r : Rune} (h : validRune r = true) (s : Str) : chars (unitsOf r ++ s) = r :: chars s := by
  rw [validRune_iff] at h
  unfold unitsOf
  split
  · rename_i h1
    have hh : isHigh r = false := by simp [isHigh]; omega
    have hl : isLow r = false := by simp [isLow]; omega
    cases s with
    | nil => simp [chars, unit, hh, hl]
    | cons v s => simp [chars, unit, hh, hl]
  · rename_i h1
    simp only [List.cons_append, List.nil_append, chars]
    have hh : isHigh (0xD800 + (r - 0x10000) / 0x400) = true := by simp [isHigh]; omega
    have hl : isLow (0xDC00 + (r - 0x10000) % 0x400) = true := by simp [isLow]; omega
    rw [hh, hl]
    simp only [Bool.and_self, if_true]
    simp only [List.cons.injEq, and_true]
    omega

theorem chars_units {rs : List Rune} (h : ∀ r ∈ rs, validRune r = true) : chars (units rs) = rs := by
  induction rs with
  | nil => rfl
  | cons r rs ih =>
    show chars (unitsOf r ++ units rs) = _
    rw [chars_unitsOf (h r (by simp)), ih fun x hx => h x (by simp [hx])]

theorem chars_valid : ∀ (s : Str), (∀ u ∈ s, u < 0x10000) → ∀ r ∈ chars s, validRune r = true
  | [], _, r, hr => by simp [chars] at hr
  | [u], h, r, hr => by
    simp only [chars, List.mem_singleton] at hr
    subst hr
    have := h u (by simp)
    simp only [unit]
    split
    · rfl
    · rename_i hn
      simp [isHigh, isLow] at hn
      rw [validRune_iff]; omega
  | u :: v :: rest, h, r, hr => by
    have hu := h u (by simp)
    have hv := h v (by simp)
    simp only [chars] at hr
    split at hr
    · rename_i hs
      simp [isHigh, isLow] at hs
      rcases List.mem_cons.1 hr with hr | hr
      · rw [validRune_iff]; omega
      · exact chars_valid rest (fun x hx => h x (by simp [hx])) r hr
    · rcases List.mem_cons.1 hr with rfl | hr
      · simp only [unit]
        split
        · rfl
        · rename_i hn
          simp [isHigh, isLow] at hn
          rw [validRune_iff]; omega
      · exact chars_valid (v :: rest) (fun x hx => h x (by simp only [List.mem_cons] at hx ⊢; exact .inr hx)) r hr

end Verif.Js
