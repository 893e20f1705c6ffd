import Verif.Proofs.Js

/-! How JavaScript reads Go strings which are no UTF-8. -/

namespace Verif.Js

/-- The characters of a text but the replacement characters. -/
def intact (rs : List Rune) : List Rune := rs.filter (· ≠ runeError)

theorem intact_error (rs : List Rune) : intact (runeError :: rs) = intact rs := by simp [intact]

theorem intact_cons {r : Rune} {a b : List Rune} (h : intact a = intact b) : intact (r :: a) = intact (r :: b) := by
  simp only [intact, List.filter_cons] at h ⊢
  rw [h]

theorem decodeBytes_out {p : Partial} {b : UInt8} {t : Bytes} (h : ¬ (p.lower ≤ b.toNat ∧ b.toNat ≤ p.upper)) :
    decodeBytes (some p) (b :: t) = runeError :: decodeBytes none (b :: t) := by
  simp only [decodeBytes, if_neg h]
  cases lead b.toNat <;> rfl

theorem decodeBytes_in {p : Partial} {b : UInt8} {t : Bytes} (h : p.lower ≤ b.toNat ∧ b.toNat ≤ p.upper) :
    decodeBytes (some p) (b :: t) = if p.needed = 1 then (p.bits * 0x40 + (b.toNat - 0x80)) :: decodeBytes none t
      else decodeBytes (some ⟨p.needed - 1, p.bits * 0x40 + (b.toNat - 0x80), 0x80, 0xBF⟩) t := by
  simp only [decodeBytes, if_pos h]

theorem runes_single {b : UInt8} {t : Bytes} {r : Rune} (h : decodeRune b t = (r, 1)) : runes (b :: t) = r :: runes t := by
  simp [runes, decode, decodeFrom, h]

theorem decodeRune_cont {c : UInt8} (h : isCont c = true) (t : Bytes) : decodeRune c t = (runeError, 1) := by
  simp only [isCont, Bool.and_eq_true, decide_eq_true_eq] at h
  unfold decodeRune
  simp only
  rw [if_neg (by omega), if_pos (by omega)]

theorem intact_cont {c : UInt8} (h : isCont c = true) (t : Bytes) : intact (runes (c :: t)) = intact (runes t) := by
  rw [runes_single (decodeRune_cont h t), intact_error]

theorem cont_iff (c : UInt8) : isCont c = true ↔ 0x80 ≤ c.toNat ∧ c.toNat ≤ 0xBF := by simp [isCont]

/-- JavaScript and Go read the same characters, and differ in the number of replacement characters. -/
theorem intact_decode : ∀ (n : Nat) (s : Bytes), s.length ≤ n → intact (decodeBytes none s) = intact (runes s)
  | _, [], _ => rfl
  | 0, b :: t, h => by simp at h
  | n + 1, b :: t, h => by
    have ih := intact_decode n
    have ht : t.length ≤ n := by simpa using h
    have hb := b.toNat_lt
    have hlt : ∀ c : UInt8, c.toNat < 256 := fun c => c.toNat_lt
    by_cases h1 : b.toNat < 0x80
    · rw [decodeBytes, lead_ascii h1, runes_single (r := b.toNat) (by simp [decodeRune, h1])]
      exact intact_cons (ih t ht)
    by_cases h2 : b.toNat < 0xC2
    · rw [decodeBytes, runes_single (r := runeError) (by simp [decodeRune, h1, h2])]
      simp only [lead, h1, h2, if_true, if_false]
      exact intact_cons (ih t ht)
    by_cases h3 : b.toNat < 0xE0
    · rw [decodeBytes, lead_two (by omega) h3]
      simp only
      cases t with
      | nil => rw [runes_single (r := runeError) (by simp [decodeRune, h1, h2, h3])]; rfl
      | cons c t =>
        by_cases hc : isCont c = true
        · have hc' := (cont_iff c).1 hc
          have hd : decodeRune b (c :: t) = ((b.toNat - 0xC0) * 0x40 + (c.toNat - 0x80), 2) := by
            simp [decodeRune, h1, h2, h3, hc]
          have hr : runes (b :: c :: t) = ((b.toNat - 0xC0) * 0x40 + (c.toNat - 0x80)) :: runes t := by
            simp [runes, decode, decodeFrom, hd]
          rw [hr, decodeBytes_in (p := ⟨_, _, _, _⟩) hc']
          simp only [if_true]
          exact intact_cons (ih t (by simp at ht; omega))
        · rw [runes_single (r := runeError) (by simp [decodeRune, h1, h2, h3, hc]), decodeBytes_out (by rwa [cont_iff] at hc)]
          exact intact_cons (ih _ ht)
    by_cases h4 : b.toNat < 0xF0
    · rw [decodeBytes, lead_three (by omega) h4]
      simp only
      cases t with
      | nil => rw [runes_single (r := runeError) (by simp [decodeRune, h1, h2, h3, h4])]; rfl
      | cons c t =>
        have htl : t.length ≤ n := by simp at ht; omega
        by_cases hc : (if b.toNat = 0xE0 then 0xA0 else 0x80) ≤ c.toNat ∧ c.toNat ≤ (if b.toNat = 0xED then 0x9F else 0xBF)
        · have hcc : isCont c = true := by rw [cont_iff]; obtain ⟨ha, hb'⟩ := hc; split at ha <;> split at hb' <;> omega
          rw [decodeBytes_in (p := ⟨2, b.toNat - 0xE0, if b.toNat = 0xE0 then 0xA0 else 0x80, if b.toNat = 0xED then 0x9F else 0xBF⟩) hc]
          simp only [Nat.add_one_sub_one]
          rw [if_neg (by omega)]
          cases t with
          | nil =>
            rw [runes_single (r := runeError) (by simp [decodeRune, h1, h2, h3, h4]), intact_error, intact_cont hcc]
            rfl
          | cons d t =>
            by_cases hd : isCont d = true
            · have hd' := (cont_iff d).1 hd
              have hc' := (cont_iff c).1 hcc
              have hv : 0x800 ≤ (b.toNat - 0xE0) * 0x1000 + (c.toNat - 0x80) * 0x40 + (d.toNat - 0x80) ∧
                  validRune ((b.toNat - 0xE0) * 0x1000 + (c.toNat - 0x80) * 0x40 + (d.toNat - 0x80)) = true := by
                rw [validRune_iff]
                obtain ⟨ha, hb'⟩ := hc
                split at ha <;> split at hb' <;> omega
              have hd2 : decodeRune b (c :: d :: t) =
                  ((b.toNat - 0xE0) * 0x1000 + (c.toNat - 0x80) * 0x40 + (d.toNat - 0x80), 3) := by
                simp only [decodeRune, h1, h2, h3, h4, if_true, if_false, hcc, hd, hv.2, decide_eq_true hv.1, Bool.and_self]
              have hr : runes (b :: c :: d :: t) =
                  ((b.toNat - 0xE0) * 0x1000 + (c.toNat - 0x80) * 0x40 + (d.toNat - 0x80)) :: runes t := by
                simp only [runes, decode, decodeFrom, hd2, List.map_cons]
              rw [hr, decodeBytes_in (p := ⟨_, _, _, _⟩) hd']
              simp only [if_true]
              rw [show ((b.toNat - 0xE0) * 0x40 + (c.toNat - 0x80)) * 0x40 + (d.toNat - 0x80) =
                (b.toNat - 0xE0) * 0x1000 + (c.toNat - 0x80) * 0x40 + (d.toNat - 0x80) by omega]
              exact intact_cons (ih t (by simp at htl; omega))
            · rw [runes_single (r := runeError) (by simp [decodeRune, h1, h2, h3, h4, hd]), intact_error, intact_cont hcc,
                decodeBytes_out (by rwa [cont_iff] at hd), intact_error]
              exact ih _ htl
        · have hd2 : decodeRune b (c :: t) = (runeError, 1) := by
            simp only [decodeRune, h1, h2, h3, h4, if_true, if_false]
            cases t with
            | nil => rfl
            | cons d t =>
              simp only
              rw [if_neg]
              simp only [Bool.and_eq_true, decide_eq_true_eq, cont_iff, validRune_iff]
              intro ⟨⟨⟨g1, g2⟩, g3⟩, g4⟩
              apply hc
              constructor <;> split <;> omega
          rw [runes_single hd2, decodeBytes_out hc]
          exact intact_cons (ih _ ht)
    by_cases h5 : b.toNat < 0xF5
    · rw [decodeBytes, lead_four (by omega) h5]
      simp only
      cases t with
      | nil => rw [runes_single (r := runeError) (by simp [decodeRune, h1, h2, h3, h4, h5])]; rfl
      | cons c t =>
        have htl : t.length ≤ n := by simp at ht; omega
        by_cases hc : (if b.toNat = 0xF0 then 0x90 else 0x80) ≤ c.toNat ∧ c.toNat ≤ (if b.toNat = 0xF4 then 0x8F else 0xBF)
        · have hcc : isCont c = true := by rw [cont_iff]; obtain ⟨ha, hb'⟩ := hc; split at ha <;> split at hb' <;> omega
          rw [decodeBytes_in (p := ⟨3, b.toNat - 0xF0, if b.toNat = 0xF0 then 0x90 else 0x80, if b.toNat = 0xF4 then 0x8F else 0xBF⟩) hc]
          simp only [Nat.add_one_sub_one]
          rw [if_neg (by omega)]
          cases t with
          | nil =>
            rw [runes_single (r := runeError) (by simp [decodeRune, h1, h2, h3, h4, h5]), intact_error, intact_cont hcc]
            rfl
          | cons d t =>
            have htl' : t.length ≤ n := by simp at htl; omega
            by_cases hd : isCont d = true
            · have hd' := (cont_iff d).1 hd
              rw [decodeBytes_in (p := ⟨_, _, _, _⟩) hd']
              simp only [Nat.add_one_sub_one]
              rw [if_neg (by omega)]
              cases t with
              | nil =>
                rw [runes_single (r := runeError) (by simp [decodeRune, h1, h2, h3, h4, h5]), intact_error, intact_cont hcc, intact_cont hd]
                rfl
              | cons e t =>
                by_cases he : isCont e = true
                · have he' := (cont_iff e).1 he
                  have hc' := (cont_iff c).1 hcc
                  have hv : 0x10000 ≤ (b.toNat - 0xF0) * 0x40000 + (c.toNat - 0x80) * 0x1000 + (d.toNat - 0x80) * 0x40 + (e.toNat - 0x80) ∧
                      validRune ((b.toNat - 0xF0) * 0x40000 + (c.toNat - 0x80) * 0x1000 + (d.toNat - 0x80) * 0x40 + (e.toNat - 0x80)) = true := by
                    rw [validRune_iff]
                    obtain ⟨ha, hb'⟩ := hc
                    split at ha <;> split at hb' <;> omega
                  have hd2 : decodeRune b (c :: d :: e :: t) =
                      ((b.toNat - 0xF0) * 0x40000 + (c.toNat - 0x80) * 0x1000 + (d.toNat - 0x80) * 0x40 + (e.toNat - 0x80), 4) := by
                    simp only [decodeRune, h1, h2, h3, h4, h5, if_true, if_false, hcc, hd, he, hv.2, decide_eq_true hv.1, Bool.and_self]
                  have hr : runes (b :: c :: d :: e :: t) =
                      ((b.toNat - 0xF0) * 0x40000 + (c.toNat - 0x80) * 0x1000 + (d.toNat - 0x80) * 0x40 + (e.toNat - 0x80)) :: runes t := by
                    simp only [runes, decode, decodeFrom, hd2, List.map_cons]
                  rw [hr, decodeBytes_in (p := ⟨_, _, _, _⟩) he']
                  simp only [if_true]
                  rw [show (((b.toNat - 0xF0) * 0x40 + (c.toNat - 0x80)) * 0x40 + (d.toNat - 0x80)) * 0x40 + (e.toNat - 0x80) =
                    (b.toNat - 0xF0) * 0x40000 + (c.toNat - 0x80) * 0x1000 + (d.toNat - 0x80) * 0x40 + (e.toNat - 0x80) by omega]
                  exact intact_cons (ih t (by simp at htl'; omega))
                · rw [runes_single (r := runeError) (by simp [decodeRune, h1, h2, h3, h4, h5, he]), intact_error, intact_cont hcc, intact_cont hd,
                    decodeBytes_out (by rwa [cont_iff] at he), intact_error]
                  exact ih _ htl'
            · rw [runes_single (r := runeError) (by cases t <;> simp [decodeRune, h1, h2, h3, h4, h5, hd]), intact_error, intact_cont hcc,
                decodeBytes_out (by rwa [cont_iff] at hd), intact_error]
              exact ih _ htl
        · have hd2 : decodeRune b (c :: t) = (runeError, 1) := by
            simp only [decodeRune, h1, h2, h3, h4, h5, if_true, if_false]
            split
            · rename_i heq
              cases heq
              rw [if_neg]
              simp only [Bool.and_eq_true, decide_eq_true_eq, cont_iff, validRune_iff]
              intro ⟨⟨⟨⟨g1, g2⟩, g2'⟩, g3⟩, g4⟩
              apply hc
              constructor <;> split <;> omega
            · rfl
          rw [runes_single hd2, decodeBytes_out hc]
          exact intact_cons (ih _ ht)
    · rw [decodeBytes, runes_single (r := runeError) (by simp [decodeRune, h1, h2, h3, h4, h5])]
      simp only [lead, h1, h2, h3, h4, h5, if_false]
      exact intact_cons (ih t ht)

end Verif.Js
