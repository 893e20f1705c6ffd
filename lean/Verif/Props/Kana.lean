import Verif.Props.CaseTranslit
import Verif.Spec.Kana

/-! Property C88: hiragana and katakana. -/

namespace Verif.Props

open Verif.Specs Verif.Unicode Verif.Spec.Bundle Verif.Spec.Reference Verif.Spec.Case Verif.Spec.Kana

/-- Hiragana with a katakana, and the katakana, are letters of the script. -/
theorem katakana_is {c : Rune} (h : katakana c ≠ c) :
    Script.hrkt.is c = true ∧ Script.hrkt.is (katakana c) = true ∧
      Script.hrkt.normalize c = katakana c ∧ Script.hrkt.normalize (katakana c) = katakana c := by
  have hc : (0x3041 ≤ c ∧ c ≤ 0x3096) ∨ c = 0x309D ∨ c = 0x309E := by
    by_contra hn
    exact h (if_neg hn)
  have all : ∀ d ∈ (List.range 0x56).map (· + 0x3041) ++ [0x309D, 0x309E], Script.hrkt.is d = true ∧
      Script.hrkt.is (katakana d) = true ∧ Script.hrkt.normalize d = katakana d ∧
      Script.hrkt.normalize (katakana d) = katakana d := by decide +kernel
  refine all c ?_
  rw [List.mem_append]
  rcases hc with hc | hc | hc
  · exact Or.inl (List.mem_map.2 ⟨c - 0x3041, List.mem_range.2 (by omega), by omega⟩)
  · exact Or.inr (by simp [hc])
  · exact Or.inr (by simp [hc])

/-- The script maps the hiragana to the katakana, and ゟ to ヿ. -/
theorem kana_normalize {c : Rune} (hc : Script.hrkt.is c = true) :
    Script.hrkt.normalize c = if c = yori then koto else katakana c := by
  by_cases hy : c = yori
  · subst hy
    decide +kernel
  rw [if_neg hy]
  by_cases hk : katakana c = c
  · have no : ∀ d ∈ [0x3040, 0x3097, 0x3098, 0x3099, 0x309A, 0x309B, 0x309C], Script.hrkt.is d = false := by decide +kernel
    have : ¬ (0x3040 ≤ c ∧ c ≤ 0x309F) := by
      intro hr
      have hn : ¬ ((0x3041 ≤ c ∧ c ≤ 0x3096) ∨ c = 0x309D ∨ c = 0x309E) := by
        intro hn
        unfold katakana at hk
        rw [if_pos hn] at hk
        omega
      have hm : c ∈ [0x3040, 0x3097, 0x3098, 0x3099, 0x309A, 0x309B, 0x309C] := by
        simp only [List.mem_cons, List.not_mem_nil, or_false]
        simp only [yori] at hy
        omega
      rw [no c hm] at hc
      contradiction
    rw [hk]
    exact if_neg this
  · exact (katakana_is hk).2.2.1

/-- C88: in the bundled languages with kana, two kana are normalized to the same text exactly if they have the same katakana, or
are ゟ and ヿ. -/
theorem C88_exact {sp : Spec} (h : Loaded bundled sp) (hk : sp.script = .hrkt) {c d : Rune} (hc : sp.script.is c = true)
    (hd : sp.script.is d = true) :
    (normalizeStep sp (encodeRune c) none).1 = (normalizeStep sp (encodeRune d) none).1 ↔
      katakana c = katakana d ∨ (c = yori ∧ d = koto) ∨ (c = koto ∧ d = yori) := by
  obtain ⟨keys, h1, h2, h3, h4⟩ := loaded_case h
  have e := fun d (hd : validRune d = true) => normalize_around h1 h3 h4 hd [] []
  have n : normalizeScript sp (normalizeSpec sp []) = [] := by
    unfold normalizeSpec normalizeScript
    rw [h4, replacePairs, Case.replace_nil (Case.keys_of h1)]
    rfl
  simp only [n, List.nil_append, List.append_nil] at e
  show normalizeScript sp (normalizeSpec sp (encodeRune c)) = normalizeScript sp (normalizeSpec sp (encodeRune d)) ↔ _
  rw [e _ (is_valid hc), e _ (is_valid hd)]
  have r := fun d (hd : sp.script.is d = true) => turned_valid (kept := Case.keptOf sp.normalize) (sc := sp.script) h1 (is_valid hd)
  have inj : ∀ {a b : List Rune}, (∀ x ∈ a, validRune x = true) → (∀ x ∈ b, validRune x = true) → (encode a = encode b ↔ a = b) :=
    fun ha hb => ⟨fun he => by rw [← runes_encode ha, ← runes_encode hb, he], fun he => by rw [he]⟩
  rw [inj (r c hc) (r d hd)]
  rw [hk] at h2 hc hd ⊢
  rw [Case.turned_kana h2 hc, Case.turned_kana h2 hd, kana_normalize hc, kana_normalize hd, List.cons.injEq, and_iff_left rfl]
  have ky : katakana yori = yori := by decide
  have kk : ∀ x, katakana x = koto ↔ x = koto := by
    intro x
    unfold katakana koto
    split
    · omega
    · rfl
  have yk : ∀ x, katakana x = yori ↔ x = yori := by
    intro x
    unfold katakana yori
    split
    · omega
    · rfl
  by_cases hcy : c = yori <;> by_cases hdy : d = yori
  · simp [hcy, hdy]
  · rw [if_pos hcy, if_neg hdy, hcy, ky, eq_comm, kk, eq_comm (a := yori), yk]
    simp only [hdy, false_or, true_and, and_false, or_false]
  · rw [if_neg hcy, if_pos hdy, hdy, ky, kk, yk]
    simp only [hcy, false_or, and_true, false_and]
  · rw [if_neg hcy, if_neg hdy]
    simp only [hcy, hdy, false_and, and_false, or_false]

/-- C88: in the bundled languages with kana, after the transliteration, words with the same katakana have the same result. -/
theorem C88_after {sp : Spec} (h : Loaded bundled sp) (hk : sp.script = .hrkt) {v w : List Rune}
    (hw : v.map katakana = w.map katakana) : afterTranslit sp (encode v) none = afterTranslit sp (encode w) none := by
  obtain ⟨keys, h1, h2, h3, h4⟩ := loaded_case h
  have one : ∀ (x y : Bytes) (c : Rune),
      afterTranslit sp (x ++ encodeRune c ++ y) none = afterTranslit sp (x ++ encodeRune (katakana c) ++ y) none := by
    intro x y c
    by_cases hc : katakana c = c
    · rw [hc]
    obtain ⟨i1, i2, n1, n2⟩ := katakana_is hc
    have e : normalizeStep sp (x ++ encodeRune c ++ y) none = normalizeStep sp (x ++ encodeRune (katakana c) ++ y) none := by
      show (normalizeScript sp (normalizeSpec sp (x ++ encodeRune c ++ y)), none) =
        (normalizeScript sp (normalizeSpec sp (x ++ encodeRune (katakana c) ++ y)), none)
      rw [normalize_around h1 h3 h4 (is_valid i1), normalize_around h1 h3 h4 (is_valid i2)]
      rw [hk] at h2 ⊢
      rw [Case.turned_kana h2 i1, Case.turned_kana h2 i2, n1, n2]
    unfold afterTranslit
    rw [e]
  have all : ∀ (v : List Rune) (x : Bytes),
      afterTranslit sp (x ++ encode v) none = afterTranslit sp (x ++ encode (v.map katakana)) none := by
    intro v
    induction v with
    | nil => intro x; rfl
    | cons c v ih =>
      intro x
      show afterTranslit sp (x ++ (encodeRune c ++ encode v)) none =
        afterTranslit sp (x ++ (encodeRune (katakana c) ++ encode (v.map katakana))) none
      rw [← List.append_assoc, one, ih, List.append_assoc]
  have a := all v []
  have b := all w []
  simp only [List.nil_append] at a b
  rw [a, b, hw]

/-- C88 (partial): words whose transliterations have the same katakana have the same result.  Missing: which words have
such transliterations, as the tokenizer is not part of the project. -/
theorem C88_word_partial {sp : Spec} (h : Loaded bundled sp) (hk : sp.script = .hrkt) {s : Bytes} (hn : sp.lang.translit = [s])
    {translits : List (Bytes × Translit)} {t : Translit} (hs : translits.lookup s = some t) {x y : Bytes} {v w : List Rune}
    (hx : t.transliterate x = .ok (encode v)) (hy : t.transliterate y = .ok (encode w)) (hw : v.map katakana = w.map katakana) :
    hangulize sp translits x = hangulize sp translits y :=
  hangulize_scheme hn hs hx hy (C88_after h hk hw)

/-- A tokenizer which does not know any word. -/
def blind : Libraries := ⟨id, fun w => [⟨.unknown, w, []⟩], fun _ => [], id⟩

/-- C88 (refuted for the whole process): long vowels of words unknown to the tokenizer are merged only in katakana, so ああ and アア
have transliterations with different katakana. -/
theorem C88_unknown_refuted :
    (furigana blind).transliterate (encode [0x3042, 0x3042]) = .ok (encode [0x3042, 0x3042]) ∧
    (furigana blind).transliterate (encode [0x30A2, 0x30A2]) = .ok (encode [0x30A2, 0x30FC]) ∧
    [0x3042, 0x3042].map katakana ≠ [0x30A2, 0x30FC].map katakana := by
  decide +kernel

/-- C88 (refuted for the whole process): so is the iteration mark after わ resolved differently. -/
theorem C88_iteration_refuted :
    (furigana blind).transliterate (encode [0x308F, 0x309E]) = .ok (encode [0x308F, 0x308F]) ∧
    (furigana blind).transliterate (encode [0x30EF, 0x30FE]) = .ok (encode [0x30EF, 0x30F7]) ∧
    [0x308F, 0x308F].map katakana ≠ [0x30EF, 0x30F7].map katakana := by
  decide +kernel

/-- The hypotheses of C88 are met, for instance by the Japanese spec and すし and スシ, unknown to the tokenizer. -/
example : ∃ sp, Loaded bundled sp ∧ sp.script = .hrkt ∧ sp.lang.translit = [str "furigana"] ∧
    hangulize sp (standardRegistry blind) (encode [0x3059, 0x3057]) = hangulize sp (standardRegistry blind) (encode [0x30B9, 0x30B7]) := by
  have ok : Ord.written.Ok := ⟨fun _ _ _ _ => .refl _, fun _ => .refl _⟩
  obtain ⟨src, hs⟩ := Option.isSome_iff_exists.1 (show (bundled (str "jpn")).isSome = true by decide +kernel)
  obtain ⟨la, hm, hsd⟩ := bundled_sound hs
  obtain ⟨sp, h1, h2, h3, _⟩ := hsd .written ok
  have ht : ∀ x ∈ table, x.1 = str "jpn" → x.2.2.translit = [str "furigana"] ∧ getScript x.2.2.script = some .hrkt := by decide +kernel
  obtain ⟨t1, t2⟩ := ht _ hm rfl
  have hsc : sp.script = .hrkt := by
    rw [t2] at h3
    simpa using h3.symm
  have hl : Loaded bundled sp := ⟨_, _, _, hs, ok, h1⟩
  have hn : sp.lang.translit = [str "furigana"] := by rw [h2]; exact t1
  exact ⟨sp, hl, hsc, hn, C88_word_partial hl hsc hn (standard_lookup (t := furigana blind) (by simp [standard]))
    (v := [0x3059, 0x3057]) (w := [0x30B9, 0x30B7]) (by decide +kernel) (by decide +kernel) (by decide +kernel)⟩

end Verif.Props
