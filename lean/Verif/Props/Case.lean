import Verif.Spec.SameCase
import Verif.Proofs.CaseText
import Verif.Proofs.CaseLetters
import Verif.Proofs.Bundled
import Verif.Proofs.SpecFile
import Verif.Proofs.RegexpParse

/-! Property C80: capital letters. -/

namespace Verif.Props

open Verif.Specs Verif.Unicode Verif.Spec.Bundle Verif.Spec.Case

/-! ## Normalization -/

theorem inTable_bounds {t : List (Nat × Nat)} (h : (t.all fun p => decide (p.2 < 0xD800) || (decide (0xDFFF < p.1) &&
    decide (p.2 < 0x110000))) = true) {c : Rune} (hc : inTable t c = true) : validRune c = true := by
  simp only [inTable, List.any_eq_true, Bool.and_eq_true, decide_eq_true_eq] at hc
  obtain ⟨p, hp, h1, h2⟩ := hc
  have := List.all_eq_true.1 h p hp
  simp only [Bool.or_eq_true, Bool.and_eq_true, decide_eq_true_eq] at this
  rw [validRune_iff]
  omega

theorem is_valid {sc : Script} {c : Rune} (h : sc.is c = true) : validRune c = true := by
  cases sc <;> simp only [Script.is, isMark, Bool.or_eq_true, beq_iff_eq] at h
  · exact inTable_bounds (by decide +kernel) h
  · rcases h with h | h
    · exact inTable_bounds (by decide +kernel) h
    · exact inTable_bounds (by decide +kernel) h
  · exact inTable_bounds (by decide +kernel) h
  · exact inTable_bounds (by decide +kernel) h
  · rcases h with (rfl | h) | h
    · decide +kernel
    · exact inTable_bounds (by decide +kernel) h
    · exact inTable_bounds (by decide +kernel) h

/-- The facts about `normalize` of a bundled spec. -/
theorem loaded_case {sp : Spec} (h : Loaded bundled sp) : ∃ keys,
    (normArgs sp.normalize).mapM Case.keyOf = some keys ∧
    Case.caseOn sp.script keys (Case.keptOf sp.normalize) (irregular sp.lang.id) = true ∧
    sp.normLetters = Case.keptOf sp.normalize ∧
    ∀ w, replacePairs sp.normPairs w = replacePairs (normArgs sp.normalize) w := by
  obtain ⟨lang, src, o, h1, h2, h3⟩ := h
  obtain ⟨l, _, hs⟩ := bundled_sound h1
  obtain ⟨sp', e1, _, _, _, _, e2, _, _, _, ⟨keys, k1, _, k2, _⟩, _⟩ := hs o h2
  rw [h3] at e1
  simp only [Go.ok.injEq] at e1
  subst e1
  obtain ⟨_, _, _, _, _, _, _, _, _, _, _, _, _, g1, g2⟩ := parseSpec_fields h3
  refine ⟨keys, k1, k2, g2, fun w => ?_⟩
  rw [g1]
  refine (replacePairs_perm ?_ e2 w).symm
  unfold normArgs
  exact ((h2.2 sp.normalize).flatMap_right _).symm

/-- The word after normalization, around one character. -/
theorem normalize_around {sp : Spec} {keys : List (Rune × List Rune)} (h1 : (normArgs sp.normalize).mapM Case.keyOf = some keys)
    (h2 : sp.normLetters = Case.keptOf sp.normalize)
    (h3 : ∀ w, replacePairs sp.normPairs w = replacePairs (normArgs sp.normalize) w) {c : Rune} (hc : validRune c = true)
    (x y : Bytes) : normalizeScript sp (normalizeSpec sp (x ++ encodeRune c ++ y)) =
      normalizeScript sp (normalizeSpec sp x) ++ (encode (Case.turned sp.script keys (Case.keptOf sp.normalize) c) ++
        normalizeScript sp (normalizeSpec sp y)) := by
  obtain ⟨i1, i2, i3⟩ := Case.image_keys h1 hc
  unfold normalizeSpec normalizeScript
  rw [h3, h3, h3, List.append_assoc, Case.replace_around (Case.keys_of h1) hc]
  obtain ⟨b, t, e, hb⟩ := Case.valid_lead i1 i2
  have : runes (replacePairs (normArgs sp.normalize) x ++ (Case.image (normArgs sp.normalize) c ++
      replacePairs (normArgs sp.normalize) y)) = runes (replacePairs (normArgs sp.normalize) x) ++
      (runes (Case.image (normArgs sp.normalize) c) ++ runes (replacePairs (normArgs sp.normalize) y)) := by
    rw [← runes_append i1, e, List.cons_append]
    exact Case.runes_split _ hb _
  rw [this, List.map_append, List.map_append, encode_append, encode_append]
  congr 2
  rw [i3]
  unfold Case.turned
  congr 1
  refine List.map_congr_left fun r _ => ?_
  unfold normalizeRune
  rw [h2]
  have e : (Case.keptOf sp.normalize).any (Nat.beq r) = (Case.keptOf sp.normalize).contains r := by
    rw [Bool.eq_iff_iff, List.any_eq_true, List.contains_iff_mem]
    constructor
    · rintro ⟨z, hz, hb⟩
      rw [Nat.beq_eq] at hb
      exact hb ▸ hz
    · intro hr
      exact ⟨r, hr, by rw [Nat.beq_eq]⟩
  rw [e]
  cases (Case.keptOf sp.normalize).contains r || !sp.script.is r <;> rfl

theorem turned_valid {sc : Script} {ps : List (Bytes × Bytes)} {keys : List (Rune × List Rune)} {kept : List Rune}
    (h1 : ps.mapM Case.keyOf = some keys) {c : Rune} (hc : validRune c = true) :
    ∀ r ∈ Case.turned sc keys kept c, validRune r = true := by
  obtain ⟨_, _, i3⟩ := Case.image_keys h1 hc
  intro r hr
  unfold Case.turned at hr
  rw [← i3, List.mem_map] at hr
  obtain ⟨d, hd, rfl⟩ := hr
  have := runes_valid _ d hd
  cases hk : kept.any (Nat.beq d) || !sc.is d with
  | true => exact this
  | false =>
    simp only [Bool.or_eq_false_iff, Bool.not_eq_false'] at hk
    exact is_valid (C62_stays hk.2)

/-! ## C80 -/

/-- C80: a letter and its small letter are normalized to the same text exactly if the letter is not one of the listed
ones. -/
theorem C80_exact {sp : Spec} (h : Loaded bundled sp) {c : Rune} (hc : sp.script.is c = true) :
    (normalizeStep sp (encodeRune c) none).1 = (normalizeStep sp (encodeRune (toLower c)) none).1 ↔
      c ∉ irregular sp.lang.id := by
  obtain ⟨keys, h1, h2, h3, h4⟩ := loaded_case h
  have e := fun d (hd : validRune d = true) => normalize_around h1 h3 h4 hd [] []
  have n : normalizeScript sp (normalizeSpec sp []) = [] := by
    unfold normalizeSpec normalizeScript
    rw [h4, replacePairs, Case.replace_nil (Case.keys_of h1)]
    rfl
  simp only [n, List.nil_append, List.append_nil] at e
  show normalizeScript sp (normalizeSpec sp (encodeRune c)) = normalizeScript sp (normalizeSpec sp (encodeRune (toLower c))) ↔ _
  rw [e _ (is_valid hc), e _ (is_valid (is_toLower _ _ hc))]
  constructor
  · intro he hi
    obtain ⟨_, hne⟩ := Case.turned_irregular h2 hi
    refine hne ?_
    have := congrArg runes he
    rwa [runes_encode (turned_valid h1 (is_valid hc)), runes_encode (turned_valid h1 (is_valid (is_toLower _ _ hc)))] at this
  · intro hi
    rw [Case.turned_lower h2 hc hi]

/-- C80: after the transliteration, capital letters make no difference, whatever stands around them, apart from the
listed letters. -/
theorem C80_after {sp : Spec} (h : Loaded bundled sp) (x y : Bytes) {c : Rune} (hc : sp.script.is c = true)
    (hi : c ∉ irregular sp.lang.id) :
    afterTranslit sp (x ++ encodeRune c ++ y) none = afterTranslit sp (x ++ encodeRune (toLower c) ++ y) none := by
  obtain ⟨keys, h1, h2, h3, h4⟩ := loaded_case h
  have e : normalizeStep sp (x ++ encodeRune c ++ y) none = normalizeStep sp (x ++ encodeRune (toLower c) ++ y) none := by
    show (normalizeScript sp (normalizeSpec sp (x ++ encodeRune c ++ y)), none) =
      (normalizeScript sp (normalizeSpec sp (x ++ encodeRune (toLower c) ++ y)), none)
    rw [normalize_around h1 h3 h4 (is_valid hc), normalize_around h1 h3 h4 (is_valid (is_toLower _ _ hc)),
      Case.turned_lower h2 hc hi]
  unfold afterTranslit
  rw [e]

/-- C80 (partial): capital letters make no difference to the result, whatever stands around them, apart from the listed
letters.  Missing: languages with a translit, for which see `C80_after` and `C80_standard`. -/
theorem C80_letter_partial {sp : Spec} (h : Loaded bundled sp) (ht : sp.lang.translit = [])
    (translits : List (Bytes × Translit)) (x y : Bytes) {c : Rune} (hc : sp.script.is c = true)
    (hi : c ∉ irregular sp.lang.id) :
    hangulize sp translits (x ++ encodeRune c ++ y) = hangulize sp translits (x ++ encodeRune (toLower c) ++ y) := by
  have e := C80_after h x y hc hi
  unfold hangulize forward
  rw [ht]
  simp only [transliterateLoop]
  show (match afterTranslit sp (x ++ encodeRune c ++ y) none with
    | .ok (word, tr) => (Go.ok word, tr) | .err e => (.err e, none) | .panic => (.panic, none) | .hang => (.hang, none)).1 =
    (match afterTranslit sp (x ++ encodeRune (toLower c) ++ y) none with
    | .ok (word, tr) => (Go.ok word, tr) | .err e => (.err e, none) | .panic => (.panic, none) | .hang => (.hang, none)).1
  rw [e]

/-- C80 (partial): words which differ in the case of any letters but the listed ones have the same result. -/
theorem C80_word_partial {sp : Spec} (h : Loaded bundled sp) (ht : sp.lang.translit = [])
    (translits : List (Bytes × Translit)) {v w : List Rune}
    (hw : SameWords sp.script.is (irregular sp.lang.id) v w) :
    hangulize sp translits (encode v) = hangulize sp translits (encode w) := by
  suffices ∀ x, hangulize sp translits (x ++ encode v) = hangulize sp translits (x ++ encode w) from this []
  induction hw with
  | nil => intro x; rfl
  | @cons a b v w hab _ ih =>
    intro x
    rw [encode_cons, encode_cons, ← List.append_assoc, ← List.append_assoc, ih (x ++ encodeRune a)]
    rcases hab with rfl | ⟨h1, h2, rfl⟩ | ⟨h1, h2, rfl⟩
    · rfl
    · exact C80_letter_partial h ht translits x (encode w) h1 h2
    · exact (C80_letter_partial h ht translits x (encode w) h1 h2).symm

/-- The hypotheses of C80 are met, for instance by the Italian spec, the word `Roma` and the word `rOma`; the case of
`Ǯ` matters. -/
example : ∃ sp, Loaded bundled sp ∧ sp.lang.translit = [] ∧
    SameWords sp.script.is (irregular sp.lang.id) ("Roma".toList.map Char.toNat) ("rOma".toList.map Char.toNat) ∧
    encode ("Roma".toList.map Char.toNat) = str "Roma" ∧ 0x1EE ∈ irregular sp.lang.id := by
  have ok : Ord.written.Ok := ⟨fun _ _ _ _ => .refl _, fun _ => .refl _⟩
  obtain ⟨src, hs⟩ := Option.isSome_iff_exists.1 (show (bundled (str "ita")).isSome = true by decide +kernel)
  obtain ⟨la, hm, hsd⟩ := bundled_sound hs
  obtain ⟨sp, h1, h2, h3, _⟩ := hsd .written ok
  have ht : ∀ x ∈ table, x.1 = str "ita" → x.2.2.translit = [] ∧ getScript x.2.2.script = some .latn ∧
      x.2.2.id = str "ita" := by decide +kernel
  obtain ⟨t1, t2, t3⟩ := ht _ hm rfl
  have hsc : sp.script = .latn := by
    rw [t2] at h3
    simpa using h3.symm
  refine ⟨sp, ⟨_, _, _, hs, ok, h1⟩, by rw [h2]; exact t1, ?_, by decide +kernel, ?_⟩
  · rw [h2, t3, hsc]
    exact .cons (.inr (.inl ⟨by decide +kernel, by decide +kernel, by decide +kernel⟩))
      (.cons (.inr (.inr ⟨by decide +kernel, by decide +kernel, by decide +kernel⟩)) (.cons (.inl rfl) (.cons (.inl rfl) .nil)))
  · rw [h2, t3]
    decide +kernel

/-- Some lines of specs/hbs.hsl. -/
def hbsLines : Bytes := str "lang:
    id      = \"hbs\"
    codes   = \"sh\", \"hbs\"
    english = \"Serbo-Croatian\"
    korean  = \"세르보크로아트어\"
    script  = \"Latn\"

normalize:
    \"C\"  = \"ч\", \"Ч\"
    \"c\"  = \"ц\", \"Ц\"

rewrite:
    \"č\"         -> \"C\"

transcribe:
    \"C\"                    -> \"ㅊㅣ\"
    \"c\"                    -> \"ㅊ\"
"

/-- C80 fails for listed letters: in the spec of Serbo-Croatian, `C` also stands for `č`, and as it is written on the
left of `normalize`, a capital `C` of the word is not made small.  So `C` becomes `치`, but `c` becomes `츠`. -/
theorem C80_refuted : ∃ sp, parseSpec .written hbsLines = .ok sp ∧ sp.script.is 'C'.toNat = true ∧
    toLower 'C'.toNat = 'c'.toNat ∧ hangulize sp [] (str "C") = .ok (str "치") ∧ hangulize sp [] (str "c") = .ok (str "츠") := by
  have h : ((parseSpec .written hbsLines).bind fun sp => (hangulize sp [] (str "C")).bind fun a =>
      (hangulize sp [] (str "c")).bind fun b => .ok (sp.script.is 'C'.toNat, a, b)) = .ok (true, str "치", str "츠") := by
    decide +kernel
  simp only [Rx.go_bind_ok] at h
  obtain ⟨sp, h1, a, h2, b, h3, h4⟩ := h
  simp only [Go.ok.injEq, Prod.mk.injEq] at h4
  obtain ⟨h4, rfl, rfl⟩ := h4
  exact ⟨sp, h1, h4, by decide +kernel, h2, h3⟩

end Verif.Props
