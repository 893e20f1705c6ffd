import Verif.Proofs.Utf8

/-! Decoding arbitrary byte strings around ASCII bytes and at the boundaries of characters. -/

namespace Verif

theorem decodeRune_ascii {c : UInt8} (h : c.toNat < 0x80) (t : Bytes) : decodeRune c t = (c.toNat, 1) := by
  simp [decodeRune, h]

theorem decode_cons_ascii {c : UInt8} (h : c.toNat < 0x80) (t : Bytes) :
    decode (c :: t) = (c.toNat, 1) :: decode t := by
  rw [decode_cons, decodeRune_ascii h]; rfl

/-- An ASCII byte does not belong to the character before it. -/
theorem decodeRune_stop (b : UInt8) (t : Bytes) {c : UInt8} (h : c.toNat < 0x80) (y : Bytes) :
    decodeRune b (t ++ c :: y) = decodeRune b t := by
  have hc : isCont c = false := by simp [isCont]; omega
  unfold decodeRune
  match t with
  | [] => cases y with
    | nil => simp [hc]
    | cons y0 y => cases y <;> simp [hc]
  | [b1] => cases y <;> simp [hc]
  | [b1, b2] => simp [hc]
  | b1 :: b2 :: b3 :: t => simp

/-- Decoding splits at an ASCII byte. -/
theorem decode_split (x : Bytes) {c : UInt8} (h : c.toNat < 0x80) (y : Bytes) :
    decode (x ++ c :: y) = decode x ++ (c.toNat, 1) :: decode y := by
  suffices ∀ n (x : Bytes), x.length ≤ n →
      decode (x ++ c :: y) = decode x ++ (c.toNat, 1) :: decode y from this _ x (Nat.le_refl _)
  intro n
  induction n with
  | zero =>
    intro x hx
    have : x = [] := List.eq_nil_of_length_eq_zero (by omega)
    simp [this, decode_nil, decode_cons_ascii h]
  | succ n ih =>
    intro x hx
    cases x with
    | nil => simp [decode_nil, decode_cons_ascii h]
    | cons b t =>
      have hw := decodeRune_width_le b t
      rw [List.cons_append, decode_cons, decode_cons, decodeRune_stop b t h y]
      rw [List.drop_append_of_le_length (by omega), ih _ (by simp at hx ⊢; omega)]
      simp

theorem isCont_iff (b : UInt8) : isCont b = true ↔ 0x80 ≤ b.toNat ∧ b.toNat ≤ 0xBF := by simp [isCont]

/-- The bytes of a character after the first one are not ASCII. -/
theorem decodeRune_tail (b : UInt8) (t : Bytes) : ∀ c ∈ t.take ((decodeRune b t).2 - 1), 0x80 ≤ c.toNat := by
  unfold decodeRune
  simp only
  repeat' split
  all_goals simp_all [isCont_iff]

/-- A character below 0x80 is its only byte. -/
theorem decodeRune_lt {b : UInt8} {t : Bytes} (h : (decodeRune b t).1 < 0x80) :
    decodeRune b t = (b.toNat, 1) ∧ b.toNat < 0x80 := by
  by_cases hb : b.toNat < 0x80
  · exact ⟨decodeRune_ascii hb t, hb⟩
  · exfalso
    have h0 := b.toNat_lt
    unfold decodeRune at h
    simp only at h
    repeat' split at h
    all_goals simp_all [validRune_iff, runeError, isCont_iff]
    all_goals omega

theorem decode_lt_width {w : Bytes} {r n : Nat} (h : (r, n) ∈ decode w) (hr : r < 0x80) : n = 1 := by
  suffices ∀ k (w : Bytes), w.length ≤ k → (r, n) ∈ decode w → n = 1 from this _ w (Nat.le_refl _) h
  intro k
  induction k with
  | zero =>
    intro w hw hm
    have : w = [] := List.eq_nil_of_length_eq_zero (by omega)
    simp [this, decode_nil] at hm
  | succ k ih =>
    intro w hw hm
    cases w with
    | nil => simp [decode_nil] at hm
    | cons b t =>
      rw [decode_cons] at hm
      rcases List.mem_cons.1 hm with hm | hm
      · have := decodeRune_lt (b := b) (t := t) (by rw [← hm]; exact hr)
        rw [this.1] at hm
        simp at hm; exact hm.2
      · exact ih _ (by simp at hw ⊢; omega) hm

/-- An ASCII byte of a string is one of its characters. -/
theorem decode_ascii_mem {w : Bytes} {c : UInt8} (hc : c.toNat < 0x80) (h : c ∈ w) :
    (c.toNat, 1) ∈ decode w := by
  obtain ⟨x, y, rfl⟩ := List.append_of_mem h
  rw [decode_split x hc]; simp

theorem runes_ascii_mem {w : Bytes} {c : UInt8} (hc : c.toNat < 0x80) (h : c ∈ w) : c.toNat ∈ runes w :=
  List.mem_map.2 ⟨_, decode_ascii_mem hc h, rfl⟩

/-- A character is decoded from its own bytes only. -/
theorem decodeRune_take (b : UInt8) (t : Bytes) {k : Nat} (h : (decodeRune b t).2 - 1 ≤ k) :
    decodeRune b (t.take k) = decodeRune b t := by
  unfold decodeRune at h ⊢
  match t with
  | [] => simp
  | [b1] =>
    cases k with
    | zero => simp only [List.take_zero]; grind [isCont_iff]
    | succ k => simp
  | [b1, b2] =>
    match k with
    | 0 => simp only [List.take_zero]; grind [isCont_iff]
    | 1 => simp only [List.take_succ_cons, List.take_zero]; grind [isCont_iff]
    | k + 2 => simp
  | b1 :: b2 :: b3 :: t =>
    match k with
    | 0 => simp only [List.take_zero]; grind [isCont_iff]
    | 1 => simp only [List.take_succ_cons, List.take_zero]; grind [isCont_iff]
    | 2 => simp only [List.take_succ_cons, List.take_zero]; grind [isCont_iff]
    | k + 3 => simp

end Verif
