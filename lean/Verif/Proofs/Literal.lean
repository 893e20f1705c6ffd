import Verif.Proofs.Utf8

/-! The bytes of string literals. -/

namespace Verif

theorem char_valid (c : Char) : validRune c.toNat = true := by
  have h := c.valid
  simp only [UInt32.isValidChar, Nat.isValidChar] at h
  have e : c.toNat = c.val.toNat := rfl
  unfold validRune
  rw [e]
  simp only [Bool.or_eq_true, Bool.and_eq_true, decide_eq_true_eq]
  omega

theorem utf8EncodeChar_eq (c : Char) : String.utf8EncodeChar c = encodeRune c.toNat := by
  rw [encodeRune, if_pos (char_valid c)]
  have h := c.valid
  simp only [UInt32.isValidChar, Nat.isValidChar] at h
  have e : c.toNat = c.val.toNat := rfl
  unfold String.utf8EncodeChar encodeValid
  rw [e]
  simp only
  generalize c.val.toNat = v at *
  have k : ∀ {a b : Nat}, a = b → UInt8.ofNat a = UInt8.ofNat b := fun h => by rw [h]
  by_cases h1 : v < 0x80
  · rw [if_pos h1, if_pos (by omega)]
  · rw [if_neg h1, if_neg (by omega)]
    by_cases h2 : v < 0x800
    · rw [if_pos h2, if_pos (by omega)]
      rw [k (show v / 64 % 32 + 192 = 0xC0 + v / 0x40 by omega), k (show v % 64 + 128 = 0x80 + v % 0x40 by omega)]
    · rw [if_neg h2, if_neg (by omega)]
      by_cases h3 : v < 0x10000
      · rw [if_pos h3, if_pos (by omega)]
        rw [k (show v / 4096 % 16 + 224 = 0xE0 + v / 0x1000 by omega),
          k (show v / 64 % 64 + 128 = 0x80 + v / 0x40 % 0x40 by omega),
          k (show v % 64 + 128 = 0x80 + v % 0x40 by omega)]
      · rw [if_neg h3, if_neg (by omega)]
        rw [k (show v / 262144 % 8 + 240 = 0xF0 + v / 0x40000 by omega),
          k (show v / 4096 % 64 + 128 = 0x80 + v / 0x1000 % 0x40 by omega),
          k (show v / 64 % 64 + 128 = 0x80 + v / 0x40 % 0x40 by omega),
          k (show v % 64 + 128 = 0x80 + v % 0x40 by omega)]

theorem str_ofList (cs : List Char) : str (String.ofList cs) = encode (cs.map Char.toNat) := by
  have h : (String.ofList cs).toByteArray = cs.utf8Encode := String.toByteArray_ofList
  unfold str String.toUTF8
  rw [h]
  unfold List.utf8Encode
  rw [List.toList_data_toByteArray, encode, List.flatMap_map]
  congr 1
  funext c
  exact utf8EncodeChar_eq c

end Verif
