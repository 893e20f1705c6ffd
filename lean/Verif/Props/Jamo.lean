import Verif.Proofs.Jamo

/-!
# Properties C01–C05: Hangul composition
-/

namespace Verif.Props
open Verif.Jamo Verif.Spec.Jamo

/-- A Hangul text given by the lead, medial and tail numbers of its syllables. -/
abbrev SyllableText := List (Fin 19 × Fin 21 × Fin 28)

/-- C01: composing the Jamo spelling of any text of syllables gives the text back. -/
theorem C01_compose_spelling (text : SyllableText) :
    composeHangul (encode (text.flatMap fun (l, m, t) => spell l m t)) =
      encode (text.map fun (l, m, t) => syllable l m t) := by
  have hv : ∀ (l : Fin 19) (m : Fin 21) (t : Fin 28), ∀ r ∈ spell l m t, validRune r = true := by
    have : (∀ l : Fin 19, validRune (letter leadLetters l) = true) ∧
        (∀ l : Fin 21, validRune (letter medialLetters l) = true) ∧
        (∀ l : Fin 27, validRune (letter tailLetters l) = true) := by decide +kernel
    intro l m t r hr
    simp only [spell] at hr
    split at hr
    · simp at hr; rcases hr with rfl | rfl
      · exact this.1 l
      · exact this.2.1 m
    · simp at hr; rcases hr with rfl | rfl | rfl | rfl
      · exact this.1 l
      · exact this.2.1 m
      · rfl
      · exact this.2.2 ⟨t.val - 1, by omega⟩
  rw [composeHangul_eq, runes_encode]
  · congr 1
    induction text with
    | nil => rfl
    | cons s text ih =>
      obtain ⟨l, m, t⟩ := s
      simp only [List.flatMap_cons, List.map_cons]
      rw [compose_spell, ih]
      cases text with
      | nil => simp [tokens]
      | cons s' text =>
        obtain ⟨l', m', t'⟩ := s'
        simp only [List.flatMap_cons]
        exact spell_head l' m' t' _
  · intro r hr
    obtain ⟨⟨l, m, t⟩, _, h⟩ := List.mem_flatMap.1 hr
    exact hv l m t r h

/-- C01 is about real texts: "한글" is spelled ㅎㅏ-ㄴㄱㅡ-ㄹ. -/
example : encode (([(18, 0, 4), (0, 18, 8)] : SyllableText).flatMap fun (l, m, t) => spell l m t) =
    str "ㅎㅏ-ㄴㄱㅡ-ㄹ" ∧ composeHangul (str "ㅎㅏ-ㄴㄱㅡ-ㄹ") = str "한글" := by decide +kernel

/-- C02: text without stand-alone Jamo and hyphens passes through unchanged. -/
theorem C02_compose_composed (w : Bytes) (hv : ValidUtf8 w)
    (h : ∀ r ∈ runes w, r ≠ '-'.toNat ∧ ¬ IsJamo r) : composeHangul w = w := by
  rw [composeHangul_eq, compose_id h, encode_runes hv]

example : ValidUtf8 (str "한글, abc 각!") ∧ ∀ r ∈ runes (str "한글, abc 각!"), r ≠ '-'.toNat ∧ ¬ IsJamo r := by
  decide +kernel

/-- The hypothesis of C02 on hyphens is needed: they are dropped even from foreign text. -/
theorem C02_hyphen_dropped : composeHangul (str "ad-hoc") = str "adhoc" := by decide +kernel

/-- C03: the output contains neither hyphens nor stand-alone Jamo. -/
theorem C03_compose_no_jamo (w : Bytes) :
    ∀ r ∈ runes (composeHangul w), r ≠ '-'.toNat ∧ ¬ IsJamo r := by
  intro r hr
  have hv : ∀ r ∈ compose (runes w), validRune r = true := by
    intro x hx
    rcases compose_mem hx with h | h | h
    · exact runes_valid w x h.1
    · unfold IsSyllable at h; rw [validRune_iff]; omega
    · subst h; rfl
  rw [composeHangul_eq, runes_encode hv] at hr
  rcases compose_mem hr with h | h | h
  · exact ⟨h.2.1, h.2.2.2⟩
  · unfold IsSyllable at h; unfold IsJamo; simp; omega
  · subst h; simp [IsJamo]

/-- C03: the output is valid UTF-8 and composing it again changes nothing, for any bytes. -/
theorem C03_compose_idempotent (w : Bytes) :
    ValidUtf8 (composeHangul w) ∧ composeHangul (composeHangul w) = composeHangul w := by
  have hv : ValidUtf8 (composeHangul w) := by rw [composeHangul_eq]; exact encode_validUtf8 _
  exact ⟨hv, C02_compose_composed _ hv (C03_compose_no_jamo w)⟩

/-- C03 on an input with Jamo, hyphens and an invalid byte. -/
example : composeHangul (str "ㅎㅏ--ㄴ" ++ [0xFF] ++ str "ㅏ-") = str "한�아" := by decide +kernel

/-- C04: a non-Hangul character other than a hyphen separates the composition. -/
theorem C04_compose_local (a b : Bytes) (x : Rune) (ha : ValidUtf8 a) (hx : validRune x = true)
    (hy : x ≠ '-'.toNat) (hs : ¬ IsSyllable x) (hj : ¬ IsJamo x) :
    composeHangul (a ++ encodeRune x ++ b) = composeHangul a ++ encodeRune x ++ composeHangul b := by
  have hvx : ValidUtf8 (encodeRune x) := encodeRune_validUtf8 x
  have : runes (encodeRune x) = [x] := by
    have := runes_encode (rs := [x]) (by simpa using hx)
    simpa using this
  rw [composeHangul_eq, composeHangul_eq, composeHangul_eq, List.append_assoc, runes_append ha,
    runes_append hvx, this, List.singleton_append, compose_append_other hy hs hj, encode_append,
    encode_cons, List.append_assoc]

/-- C04: so does a composed syllable, which starts a new block of its own. -/
theorem C04_compose_local_syllable (a b : Bytes) (x : Rune) (ha : ValidUtf8 a) (hs : IsSyllable x) :
    composeHangul (a ++ (encodeRune x ++ b)) = composeHangul a ++ composeHangul (encodeRune x ++ b) := by
  have hx : validRune x = true := by unfold IsSyllable at hs; rw [validRune_iff]; omega
  have hvx : ValidUtf8 (encodeRune x) := encodeRune_validUtf8 x
  have : runes (encodeRune x) = [x] := by
    have := runes_encode (rs := [x]) (by simpa using hx)
    simpa using this
  rw [composeHangul_eq, composeHangul_eq, composeHangul_eq, runes_append ha,
    runes_append hvx, this, List.singleton_append, compose_append_syl hs, encode_append]

/-- C04 with an open syllable before the separator and a dangling hyphen. -/
example : composeHangul (str "ㅎㅏ-" ++ encodeRune ' '.toNat ++ str "ㄴㅏ") = str "하 나" ∧
    ¬ IsSyllable ' '.toNat ∧ ¬ IsJamo ' '.toNat := by decide +kernel

/-- C05: the composer computes the block specification: the text is cut into maximal blocks whose
places strictly increase, and each block becomes one character with ieung and eu filled in. -/
theorem C05_compose_blocks (w : Bytes) : composeHangul w = encode (compose (runes w)) :=
  composeHangul_eq w

/-- C05: the number of characters written is the number of blocks. -/
theorem C05_compose_count (w : Bytes) :
    (runes (composeHangul w)).length = ((tokens false (runes w)).splitBy continues).length := by
  have hv : ∀ r ∈ compose (runes w), validRune r = true := by
    intro x hx
    rcases compose_mem hx with h | h | h
    · exact runes_valid w x h.1
    · unfold IsSyllable at h; rw [validRune_iff]; omega
    · subst h; rfl
  rw [composeHangul_eq, runes_encode hv]
  simp [compose]

/-- The specification fills in missing parts: ㄱ is 그, ㅏ is 아, a tail alone is 은. -/
example : compose (runes (str "ㄱㄱㅏ-ㄴ-ㄴㅏ")) = runes (str "그간은아") := by decide +kernel

end Verif.Props
