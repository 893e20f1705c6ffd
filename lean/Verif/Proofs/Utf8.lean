import Verif.Go.Utf8

/-! Lemmas about the UTF-8 model. -/

namespace Verif

theorem decodeFrom_drop : ∀ (k : Nat) (s : Bytes), decodeFrom k s = decodeFrom 0 (s.drop k)
  | 0, s => by simp
  | k + 1, [] => by simp [decodeFrom]
  | k + 1, b :: t => by simpa [decodeFrom] using decodeFrom_drop k t

theorem decode_nil : decode [] = [] := rfl

theorem decode_cons (b : UInt8) (t : Bytes) :
    decode (b :: t) = decodeRune b t :: decode (t.drop ((decodeRune b t).2 - 1)) := by
  unfold decode
  rw [decodeFrom, decodeFrom_drop]

theorem runes_nil : runes [] = [] := rfl

theorem runes_cons (b : UInt8) (t : Bytes) :
    runes (b :: t) = (decodeRune b t).1 :: runes (t.drop ((decodeRune b t).2 - 1)) := by
  simp [runes, decode_cons]

theorem decodeRune_width_pos (b : UInt8) (t : Bytes) : 1 ≤ (decodeRune b t).2 := by
  unfold decodeRune; grind

theorem decodeRune_width_le (b : UInt8) (t : Bytes) : (decodeRune b t).2 ≤ t.length + 1 := by
  unfold decodeRune; grind

theorem validRune_iff (r : Rune) :
    validRune r = true ↔ r < 0xD800 ∨ (0xE000 ≤ r ∧ r ≤ 0x10FFFF) := by
  simp [validRune]

theorem decodeRune_valid (b : UInt8) (t : Bytes) : validRune (decodeRune b t).1 = true := by
  have h0 := b.toNat_lt
  unfold decodeRune
  simp only
  repeat' split
  all_goals simp_all [validRune_iff, runeError, isCont]
  all_goals omega

theorem validRune_runeError : validRune runeError = true := rfl

theorem encodeValid_length_pos (r : Rune) : 0 < (encodeValid r).length := by
  unfold encodeValid; repeat' split
  all_goals simp

theorem encodeRune_length_pos (r : Rune) : 0 < (encodeRune r).length := by
  unfold encodeRune; split <;> exact encodeValid_length_pos _

theorem encodeRune_ne_nil (r : Rune) : encodeRune r ≠ [] := by
  intro h; have := encodeRune_length_pos r; simp [h] at this

theorem encodeRune_valid {r : Rune} (h : validRune r = true) : encodeRune r = encodeValid r := by
  simp [encodeRune, h]

/-- Decoding inverts encoding at the front of a string. -/
theorem decode_encodeValid_append (r : Rune) (h : validRune r = true) (s : Bytes) :
    decode (encodeValid r ++ s) = (r, (encodeValid r).length) :: decode s := by
  rw [validRune_iff] at h
  unfold encodeValid
  split
  · rename_i h1
    rw [List.singleton_append, decode_cons]
    have e : (UInt8.ofNat r).toNat = r := by simp; omega
    simp [decodeRune, e, h1]
  · split
    · rename_i h1 h2
      have e0 : (UInt8.ofNat (0xC0 + r / 0x40)).toNat = 0xC0 + r / 0x40 := by simp; omega
      have e1 : (UInt8.ofNat (0x80 + r % 0x40)).toNat = 0x80 + r % 0x40 := by simp; omega
      simp only [List.cons_append, List.nil_append, decode_cons, decodeRune, e0, e1, isCont]
      rw [if_neg (by omega), if_neg (by omega), if_pos (by omega),
        if_pos (by simp; omega)]
      have er : (0xC0 + r / 0x40 - 0xC0) * 0x40 + (0x80 + r % 0x40 - 0x80) = r := by omega
      rw [er]
      simp
    · split
      · rename_i h1 h2 h3
        have e0 : (UInt8.ofNat (0xE0 + r / 0x1000)).toNat = 0xE0 + r / 0x1000 := by simp; omega
        have e1 : (UInt8.ofNat (0x80 + r / 0x40 % 0x40)).toNat = 0x80 + r / 0x40 % 0x40 := by
          simp; omega
        have e2 : (UInt8.ofNat (0x80 + r % 0x40)).toNat = 0x80 + r % 0x40 := by simp; omega
        have er : (0xE0 + r / 0x1000 - 0xE0) * 0x1000 + (0x80 + r / 0x40 % 0x40 - 0x80) * 0x40
          + (0x80 + r % 0x40 - 0x80) = r := by omega
        simp only [List.cons_append, List.nil_append, decode_cons, decodeRune, e0, e1, e2, isCont,
          er]
        rw [if_neg (by omega), if_neg (by omega), if_neg (by omega), if_pos (by omega),
          if_pos (by simp [validRune_iff]; omega)]
        simp
      · rename_i h1 h2 h3
        have e0 : (UInt8.ofNat (0xF0 + r / 0x40000)).toNat = 0xF0 + r / 0x40000 := by simp; omega
        have e1 : (UInt8.ofNat (0x80 + r / 0x1000 % 0x40)).toNat = 0x80 + r / 0x1000 % 0x40 := by
          simp; omega
        have e2 : (UInt8.ofNat (0x80 + r / 0x40 % 0x40)).toNat = 0x80 + r / 0x40 % 0x40 := by
          simp; omega
        have e3 : (UInt8.ofNat (0x80 + r % 0x40)).toNat = 0x80 + r % 0x40 := by simp; omega
        have er : (0xF0 + r / 0x40000 - 0xF0) * 0x40000 + (0x80 + r / 0x1000 % 0x40 - 0x80) * 0x1000
          + (0x80 + r / 0x40 % 0x40 - 0x80) * 0x40 + (0x80 + r % 0x40 - 0x80) = r := by omega
        simp only [List.cons_append, List.nil_append, decode_cons, decodeRune, e0, e1, e2, e3,
          isCont, er]
        rw [if_neg (by omega), if_neg (by omega), if_neg (by omega), if_neg (by omega),
          if_pos (by omega), if_pos (by simp [validRune_iff]; omega)]
        simp

theorem decode_encodeRune_append {r : Rune} (h : validRune r = true) (s : Bytes) :
    decode (encodeRune r ++ s) = (r, (encodeRune r).length) :: decode s := by
  rw [encodeRune_valid h, decode_encodeValid_append r h]

@[simp] theorem encode_nil : encode [] = [] := rfl
@[simp] theorem encode_cons (r : Rune) (rs : List Rune) : encode (r :: rs) = encodeRune r ++ encode rs := rfl
theorem encode_append (a b : List Rune) : encode (a ++ b) = encode a ++ encode b := by
  simp [encode]

theorem decode_encode_append {rs : List Rune} (h : ∀ r ∈ rs, validRune r = true) (s : Bytes) :
    decode (encode rs ++ s) = rs.map (fun r => (r, (encodeRune r).length)) ++ decode s := by
  induction rs with
  | nil => simp
  | cons r rs ih =>
    have hr := h r (by simp)
    have ht : ∀ r ∈ rs, validRune r = true := fun x hx => h x (by simp [hx])
    rw [encode_cons, List.append_assoc, decode_encodeRune_append hr, ih ht]
    simp

theorem runes_encode_append {rs : List Rune} (h : ∀ r ∈ rs, validRune r = true) (s : Bytes) :
    runes (encode rs ++ s) = rs ++ runes s := by
  simp [runes, decode_encode_append h, Function.comp_def]

/-- Decoding inverts encoding. -/
theorem runes_encode {rs : List Rune} (h : ∀ r ∈ rs, validRune r = true) : runes (encode rs) = rs := by
  simpa [runes_nil] using runes_encode_append h []

theorem runes_valid (s : Bytes) : ∀ r ∈ runes s, validRune r = true := by
  suffices ∀ n (s : Bytes), s.length ≤ n → ∀ r ∈ runes s, validRune r = true from
    this s.length s (Nat.le_refl _)
  intro n
  induction n with
  | zero => intro s hs; have : s = [] := List.eq_nil_of_length_eq_zero (by omega); simp [this, runes_nil]
  | succ n ih =>
    intro s hs
    cases s with
    | nil => simp [runes_nil]
    | cons b t =>
      intro r hr
      rw [runes_cons] at hr
      rcases List.mem_cons.1 hr with rfl | hr
      · exact decodeRune_valid b t
      · exact ih _ (by simp at hs ⊢; omega) r hr

theorem encode_valid {rs : List Rune} (h : ∀ r ∈ rs, validRune r = true) : ValidUtf8 (encode rs) :=
  ⟨rs, h, rfl⟩

theorem encode_runes {s : Bytes} (h : ValidUtf8 s) : encode (runes s) = s := by
  obtain ⟨rs, h, rfl⟩ := h
  rw [runes_encode h]

theorem validUtf8_iff (s : Bytes) : ValidUtf8 s ↔ encode (runes s) = s :=
  ⟨encode_runes, fun h => ⟨runes s, runes_valid s, h.symm⟩⟩

instance (s : Bytes) : Decidable (ValidUtf8 s) := decidable_of_iff _ (validUtf8_iff s).symm

theorem encodeRune_validUtf8 (r : Rune) : ValidUtf8 (encodeRune r) := by
  by_cases h : validRune r = true
  · exact ⟨[r], by simpa using h, by simp⟩
  · exact ⟨[runeError], by simp [validRune_runeError], by simp [encodeRune, h, validRune_runeError]⟩

theorem ValidUtf8.nil : ValidUtf8 [] := ⟨[], by simp, rfl⟩

theorem ValidUtf8.append {a b : Bytes} (ha : ValidUtf8 a) (hb : ValidUtf8 b) : ValidUtf8 (a ++ b) := by
  obtain ⟨x, hx, rfl⟩ := ha
  obtain ⟨y, hy, rfl⟩ := hb
  refine ⟨x ++ y, ?_, (encode_append x y).symm⟩
  intro r hr
  rcases List.mem_append.1 hr with h | h
  · exact hx r h
  · exact hy r h

theorem encode_validUtf8 (rs : List Rune) : ValidUtf8 (encode rs) := by
  induction rs with
  | nil => exact ValidUtf8.nil
  | cons r rs ih => rw [encode_cons]; exact (encodeRune_validUtf8 r).append ih

theorem runes_append {a : Bytes} (ha : ValidUtf8 a) (b : Bytes) : runes (a ++ b) = runes a ++ runes b := by
  obtain ⟨x, hx, rfl⟩ := ha
  rw [runes_encode_append hx, runes_encode hx]

theorem decode_append {a : Bytes} (ha : ValidUtf8 a) (b : Bytes) : decode (a ++ b) = decode a ++ decode b := by
  obtain ⟨x, hx, rfl⟩ := ha
  have := decode_encode_append hx []
  rw [decode_encode_append hx, ← List.append_nil (encode x), this]
  simp [decode_nil]

/-- The widths of the decoded runes add up to the length of the string. -/
theorem decode_width_sum (s : Bytes) : ((decode s).map (·.2)).sum = s.length := by
  suffices ∀ n (s : Bytes), s.length ≤ n → ((decode s).map (·.2)).sum = s.length from
    this s.length s (Nat.le_refl _)
  intro n
  induction n with
  | zero => intro s hs; have : s = [] := List.eq_nil_of_length_eq_zero (by omega); simp [this, decode_nil]
  | succ n ih =>
    intro s hs
    cases s with
    | nil => simp [decode_nil]
    | cons b t =>
      have h1 := decodeRune_width_pos b t
      have h2 := decodeRune_width_le b t
      rw [decode_cons]
      simp only [List.map_cons, List.sum_cons]
      rw [ih _ (by simp at hs ⊢; omega)]
      simp; omega

theorem decode_eq_nil_iff (s : Bytes) : decode s = [] ↔ s = [] := by
  cases s with
  | nil => simp [decode_nil]
  | cons b t => simp [decode_cons]

theorem runes_eq_nil_iff (s : Bytes) : runes s = [] ↔ s = [] := by
  simp [runes, decode_eq_nil_iff]

theorem rangeFrom_map_snd (i : Nat) (l : List (Rune × Nat)) : (rangeFrom i l).map (·.2) = l.map (·.1) := by
  induction l generalizing i with
  | nil => rfl
  | cons a t ih => obtain ⟨r, n⟩ := a; simp [rangeFrom, ih]

theorem rangeStr_map_snd (s : Bytes) : (rangeStr s).map (·.2) = runes s := rangeFrom_map_snd 0 _

end Verif
