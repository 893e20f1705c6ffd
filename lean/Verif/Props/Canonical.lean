import Verif.Props.Chinese

/-! Property C87: composed and decomposed letters. -/

namespace Verif.Props

open Verif.Specs Verif.Unicode Verif.Spec.Bundle Verif.Spec.Reference Verif.Spec.Foreign Verif.Words

/-- Combining accents are no letters except for Cyrillic, no white space and no punctuation. -/
theorem accent_plain {c : Rune} (h : 0x300 ≤ c ∧ c ≤ 0x36F) :
    (∀ sc : Script, sc ≠ .cyrl → sc.is c = false) ∧ isSpace c = false ∧ isPunct c = false ∧ validRune c = true := by
  have hc : inTable [(0x300, 0x36F)] c = true := by
    simp only [inTable, List.any_cons, List.any_nil, Bool.or_false, Bool.and_eq_true, decide_eq_true_eq]
    exact h
  refine ⟨fun sc hn => ?_, not_inTable (by decide +kernel) hc, not_inTable (by decide +kernel) hc, ?_⟩
  · cases sc with
    | cyrl => exact absurd rfl hn
    | hrkt =>
      simp only [Script.is, Bool.or_eq_false_iff, beq_eq_false_iff_ne, ne_eq]
      exact ⟨⟨by omega, not_inTable (by decide +kernel) hc⟩, not_inTable (by decide +kernel) hc⟩
    | _ => exact not_inTable (by decide +kernel) hc
  · exact (validRune_iff _).2 (by omega)

/-- They are letters for Cyrillic. -/
theorem accent_cyrillic {c : Rune} (h : 0x300 ≤ c ∧ c ≤ 0x36F) : Script.cyrl.is c = true := by
  have : ∀ i < 0x70, Script.cyrl.is (0x300 + i) = true := by decide +kernel
  have := this (c - 0x300) (by omega)
  rwa [show 0x300 + (c - 0x300) = c by omega] at this

/-- Combining accents have no meaning for a bundled language and are not normalized. -/
theorem accent_strange {sp : Spec} (h : Loaded bundled sp) (hs : sp.script ≠ .cyrl) {c : Rune} (hc : 0x300 ≤ c ∧ c ≤ 0x36F) : Strange sp c := by
  obtain ⟨h1, h2, h3, h4⟩ := accent_plain hc
  obtain ⟨_, _, _, hp, _, _⟩ := loaded_checked h
  obtain ⟨keys, k1, _, k2, _⟩ := loaded_foreign h
  refine ⟨?_, ?_, by omega⟩
  · rintro (h | h | h)
    · rw [h1 _ hs] at h
      contradiction
    · have := ((C29_puncts_partial hp c).1 h).1
      rw [h3] at this
      contradiction
    · rw [h2] at h
      contradiction
  · refine (key_mem k1 h4).2 fun k hk e => ?_
    have := (steady_key k2 hk).1.2.2.1
    rw [e, accent_iff.2 hc] at this
    contradiction

/-- The signs of all bundled languages but Greek are no combining accents. -/
theorem accent_signless {sp : Spec} (hg : sp.lang.id ≠ str "ell" ∧ sp.lang.id ≠ str "grc") {c : Rune} (hc : 0x300 ≤ c ∧ c ≤ 0x36F) :
    Signless sp [c] := by
  have : ∀ s ∈ signs sp.lang.id, ∃ d ∈ s, ¬ (0x300 ≤ d ∧ d ≤ 0x36F) := by
    intro s hs
    simp only [signs, hg.1, hg.2, or_self, if_false] at hs
    rcases List.mem_append.1 hs with hs | hs
    · split at hs <;> simp at hs
      rcases hs with rfl | rfl <;> exact ⟨_, List.mem_cons_self, by decide⟩
    · repeat' split at hs
      all_goals simp at hs
      all_goals first
        | (subst hs; exact ⟨_, List.mem_cons_self, by decide⟩)
        | (rcases hs with rfl | rfl <;> exact ⟨_, List.mem_cons_self, by decide⟩)
  intro s hs hi
  obtain ⟨d, hd, hn⟩ := this s hs
  have := hi.subset hd
  rw [List.mem_singleton] at this
  rw [this] at hn
  exact hn hc

/-- C87: in the bundled languages without translit but Greek and those written in Cyrillic a combining accent stays in the result, after the result for the
text up to the letter it belongs to. -/
theorem C87_accent {sp : Spec} (h : Loaded bundled sp) (ht : sp.lang.translit = []) (hs : sp.script ≠ .cyrl) (hg : sp.lang.id ≠ str "ell" ∧ sp.lang.id ≠ str "grc")
    (translits : List (Bytes × Translit)) {m : Rune} (hm : 0x300 ≤ m ∧ m ≤ 0x36F) {a b : Bytes} (ha : Closed sp a) (hb : Open sp b) :
    ∃ y z, hangulize sp translits a = .ok y ∧ hangulize sp translits b = .ok z ∧
      hangulize sp translits (a ++ encodeRune m ++ b) = .ok (y ++ encodeRune m ++ z) := by
  have := C82_between h ht translits (x := [m]) (by simp) (by simpa using (accent_plain hm).2.2.2) (by simpa using accent_strange h hs hm)
    (accent_signless hg hm) ha hb
  simpa [encode] using this

/-- A combining accent in a result has been in the word. -/
theorem accent_kept {sp : Spec} (h : Loaded bundled sp) (ht : sp.lang.translit = []) (hs : sp.script ≠ .cyrl) {translits : List (Bytes × Translit)}
    {word out : Bytes} (hw : ValidUtf8 word) (ho : hangulize sp translits word = .ok out) {m : Rune} (hm : 0x300 ≤ m ∧ m ≤ 0x36F)
    (h1 : m ∈ runes out) : m ∈ runes word := by
  obtain ⟨w, evs, e1, e2⟩ := C67_alphabet (tr := none) h ho
  rw [ht] at e1
  cases e1
  obtain ⟨keys, k1, k2, k2', k3, k4, r2, t2⟩ := loaded_foreign h
  cases e2 m h1 with
  | syllable hy => exact absurd hy (by unfold Spec.Jamo.IsSyllable; omega)
  | apostrophe => exact absurd hm (by decide)
  | space => exact absurd hm (by decide)
  | kept hl _ _ =>
    have hl' : m ∈ normal sp word := hl
    rw [← encode_runes hw, normal_letters k1 k3 k4 (runes_valid word)] at hl'
    obtain ⟨d, hd, hmd⟩ := List.mem_flatMap.1 hl'
    simp only [Case.turned, List.mem_map] at hmd
    obtain ⟨e, he, hme⟩ := hmd
    have hem : e = m := by
      cases hk : (Case.keptOf sp.normalize).any (Nat.beq e) || !sp.script.is e with
      | true => rwa [hk, cond_true] at hme
      | false =>
        rw [hk, cond_false] at hme
        have : sp.script.is e = true := by
          simp only [Bool.or_eq_false_iff, Bool.not_eq_false'] at hk
          exact hk.2
        have := C62_stays this
        rw [hme, (accent_plain hm).1 _ hs] at this
        contradiction
    rw [hem] at he
    rcases looked_up keys d with ⟨h2, _⟩ | ⟨k, h2, rfl, h3⟩
    · rw [h2, List.mem_singleton] at he
      rwa [he]
    · rw [h3] at he
      have := (steady_key k2' h2).1.2.2.2 m he
      rw [accent_iff.2 hm] at this
      contradiction
  | punctuation kana => 
    rw [(loaded_words h).2.2 kana] at ht
    contradiction

/-- C87 is false in these languages: a decomposed letter gives another result than a composed one, wherever it stands. -/
theorem C87_refuted {sp : Spec} (h : Loaded bundled sp) (ht : sp.lang.translit = []) (hs : sp.script ≠ .cyrl) (hg : sp.lang.id ≠ str "ell" ∧ sp.lang.id ≠ str "grc")
    (translits : List (Bytes × Translit)) {c d m : Rune} (hm : 0x300 ≤ m ∧ m ≤ 0x36F) (hd : sp.script.is d = true)
    (hc : validRune c = true ∧ c ≠ m) {as bs : List Rune} (va : ∀ e ∈ as, validRune e = true) (vb : ∀ e ∈ bs, validRune e = true)
    (na : m ∉ as) (nb : m ∉ bs) (hb : Open sp (encode bs)) :
    hangulize sp translits (encode (as ++ [d, m] ++ bs)) ≠ hangulize sp translits (encode (as ++ [c] ++ bs)) := by
  obtain ⟨y, z, _, _, e⟩ := C87_accent h ht hs hg translits hm (a := encode (as ++ [d])) (b := encode bs)
    (.inr ⟨encode as, d, by simp [encode], is_valid hd, .inl hd⟩) hb
  have e1 : encode (as ++ [d]) ++ encodeRune m ++ encode bs = encode (as ++ [d, m] ++ bs) := by simp [encode]
  rw [e1] at e
  intro he
  rw [e] at he
  have hv : ∀ e ∈ as ++ [c] ++ bs, validRune e = true := by
    intro e hx
    simp only [List.mem_append, List.mem_singleton] at hx
    rcases hx with (hx | rfl) | hx
    · exact va e hx
    · exact hc.1
    · exact vb e hx
  have := accent_kept h ht hs (encode_validUtf8 _) he.symm hm (by
    have he : encodeRune m = encode [m] := by simp [encode]
    obtain ⟨q, t, e2, hq⟩ := Case.valid_lead (encode_validUtf8 [m]) (by rw [← he]; exact encodeRune_ne_nil m)
    rw [List.append_assoc, he, e2, List.cons_append, Case.runes_split _ hq, ← List.cons_append, ← e2, runes_append (encode_validUtf8 _),
      runes_encode (by simpa using (accent_plain hm).2.2.2)]
    simp)
  rw [runes_encode hv] at this
  simp only [List.mem_append, List.mem_singleton] at this
  rcases this with (h | h) | h
  · exact na h
  · exact hc.2 h.symm
  · exact nb h

/-- In the languages with a Cyrillic script accents are letters, which are lost if no rule knows them. -/
theorem C87_cyrillic {sp : Spec} (h : Loaded bundled sp) (hc : sp.script = .cyrl) {translits : List (Bytes × Translit)}
    {word out : Bytes} (ho : hangulize sp translits word = .ok out) : ∀ m ∈ runes out, ¬ (0x300 ≤ m ∧ m ≤ 0x36F) := by
  intro m h1 hm
  obtain ⟨w, evs, _, e2⟩ := C67_alphabet (tr := none) h ho
  cases e2 m h1 with
  | syllable hy => exact absurd hy (by unfold Spec.Jamo.IsSyllable; omega)
  | apostrophe => exact absurd hm (by decide)
  | space => exact absurd hm (by decide)
  | kept _ hl _ => exact hl (.inl (hc ▸ accent_cyrillic hm))
  | punctuation kana =>
    rw [hc] at kana
    cases kana

/-- C87 for Chinese and Japanese: words with the same composed form have the same result. -/
theorem C87_composed {sp : Spec} {s : Bytes} {ss : List Bytes} (ht : sp.lang.translit = s :: ss) {l : Libraries}
    {translits : List (Bytes × Translit)} (hs : translits.lookup s = some (pinyin l) ∨ translits.lookup s = some (furigana l))
    {v w : Bytes} (hn : l.nfc v = l.nfc w) : hangulize sp translits v = hangulize sp translits w := by
  have none_ : ∀ e, Tracer.trace none e = none := fun _ => rfl
  have key : ∀ t : Translit, translits.lookup s = some t → t.transliterate v = t.transliterate w →
      hangulize sp translits v = hangulize sp translits w := by
    intro t h1 h2
    unfold hangulize forward
    rw [ht]
    simp only [transliterateLoop, h1, h2, none_]
  rcases hs with hs | hs
  · exact key _ hs (by simp only [pinyin, hn])
  · exact key _ hs (by simp only [furigana, hn])

/-! ## Greek and Cyrillic -/

/-- Some lines of specs/ell.hsl. -/
def ellLines : Bytes := str "lang:
    id      = \"ell\"
    codes   = \"el\", \"ell\"
    english = \"Greek\"
    korean  = \"그리스어\"
    script  = \"Grek\"

macros:
    \"@\" = \"<vowels>\"

vars:
    \"av\"     = \"ά\", \"έ\", \"ή\", \"ί\", \"ό\", \"ύ\", \"ώ\"
    \"sv\"     = \"α\", \"ε\", \"η\", \"ι\", \"ο\", \"υ\", \"ω\"
    \"v\"      = \"β\", \"γ\", \"δ\", \"ζ\", \"λ\", \"μ\", \"ν\", \"ρ\", \"Ι\", \"Ν\"
    \"vowels\" = \"α\", \"ά\", \"ε\", \"έ\", \"η\", \"ή\", \"ι\", \"ί\", \"ϊ\", \"ο\", \"ό\", \"υ\", \"ύ\", \"ϋ\", \"ω\", \"ώ\", \"Υ\"

rewrite:
    \"(<sv>)\u0301\"      -> \"(<av>)\"
    \"\u0301\"            -> \"\"
    \"{α|ε|η}υ{@|<v>}\" -> \"β\"
    \"{α|ε|η}ύ{@|<v>}\" -> \"β\"
    \"{α|ε|η}υ\"        -> \"φ\"
    \"{α|ε|η}ύ\"        -> \"φ\"

transcribe:
    \"β\" -> \"ㅂ\"
    \"φ\" -> \"ㅍ\"
    \"α\" -> \"ㅏ\"
    \"ε\" -> \"ㅔ\"
"

/-- C87 is false in Greek: accents are cut off from their letters before the rules see them, so that the rule which composes them never
applies, and rules do not see the letters on the other side. -/
theorem C87_greek_refuted : ∃ sp, parseSpec .written ellLines = .ok sp ∧
    hangulize sp [] (encode [0x3B5, 0x3CD, 0x3B1]) = .ok (str "에바") ∧
    hangulize sp [] (encode [0x3B5, 0x3C5, 0x301, 0x3B1]) = .ok (str "에파") ∧
    ((forward sp [] (encode [0x3B5, 0x3C5, 0x301, 0x3B1]) fresh).2.map fun t : TracerSt =>
      (t.log.filter fun e => e.step = .rewrite).map (·.word)) = some [encode [0x3B5, 0x3C5, 0x3B1], encode [0x3B5, 0x3C6, 0x3B1]] := by
  have h : ((parseSpec .written ellLines).bind fun sp => (hangulize sp [] (encode [0x3B5, 0x3CD, 0x3B1])).bind fun a =>
      (hangulize sp [] (encode [0x3B5, 0x3C5, 0x301, 0x3B1])).bind fun b =>
      .ok (a, b, (forward sp [] (encode [0x3B5, 0x3C5, 0x301, 0x3B1]) fresh).2.map fun t : TracerSt =>
        (t.log.filter fun e => e.step = .rewrite).map (·.word))) =
      .ok (str "에바", str "에파", some [encode [0x3B5, 0x3C5, 0x3B1], encode [0x3B5, 0x3C6, 0x3B1]]) := by
    decide +kernel
  simp only [Rx.go_bind_ok] at h
  obtain ⟨sp, h1, a, h2, b, h3, h4⟩ := h
  simp only [Go.ok.injEq, Prod.mk.injEq] at h4
  obtain ⟨rfl, rfl, h5⟩ := h4
  exact ⟨sp, h1, h2, h3, h5⟩

/-- Some lines of specs/rus.hsl. -/
def rusLines : Bytes := str "lang:
    id       = \"rus\"
    codes    = \"ru\", \"rus\"
    english  = \"Russian\"
    korean   = \"러시아어\"
    script   = \"Cyrl\"

rewrite:
    \"ий\" -> \"и\"

transcribe:
    \"р\" -> \"ㄹ\"
    \"и\" -> \"ㅣ\"
    \"й\" -> \"ㅣ\"
    \"ю\" -> \"ㅠ\"
"

/-- C87 is false in Russian: a decomposed й is an и, with a mark which no rule knows. -/
theorem C87_cyrillic_refuted : ∃ sp, parseSpec .written rusLines = .ok sp ∧
    hangulize sp [] (encode [0x42E, 0x440, 0x438, 0x439]) = .ok (str "유리") ∧
    hangulize sp [] (encode [0x42E, 0x440, 0x438, 0x438, 0x306]) = .ok (str "유리이") := by
  have h : ((parseSpec .written rusLines).bind fun sp => (hangulize sp [] (encode [0x42E, 0x440, 0x438, 0x439])).bind fun a =>
      (hangulize sp [] (encode [0x42E, 0x440, 0x438, 0x438, 0x306])).bind fun b => .ok (a, b)) = .ok (str "유리", str "유리이") := by
    decide +kernel
  simp only [Rx.go_bind_ok] at h
  obtain ⟨sp, h1, a, h2, b, h3, h4⟩ := h
  simp only [Go.ok.injEq, Prod.mk.injEq] at h4
  obtain ⟨rfl, rfl⟩ := h4
  exact ⟨sp, h1, h2, h3⟩

/-- The hypotheses of C87 are met, for instance by the Spanish spec and `café` with a decomposed letter at its end. -/
example : ∃ sp, Loaded bundled sp ∧ sp.lang.id = str "spa" ∧
    hangulize sp [] (encode [0x63, 0x61, 0x66, 0x65, 0x301]) ≠ hangulize sp [] (encode [0x63, 0x61, 0x66, 0xE9]) ∧
    ∃ y, hangulize sp [] (encode [0x63, 0x61, 0x66, 0x65, 0x301]) = .ok (y ++ encodeRune 0x301) := by
  have ok : Ord.written.Ok := ⟨fun _ _ _ _ => .refl _, fun _ => .refl _⟩
  obtain ⟨src, hs⟩ := Option.isSome_iff_exists.1 (show (bundled (str "spa")).isSome = true by decide +kernel)
  obtain ⟨la, hm, hsd⟩ := bundled_sound hs
  obtain ⟨sp, h1, h2, h3, _⟩ := hsd .written ok
  have ht : ∀ x ∈ table, x.1 = str "spa" → x.2.2.id = str "spa" ∧ x.2.2.translit = [] ∧ getScript x.2.2.script = some .latn := by
    decide +kernel
  obtain ⟨t1, t2, t3⟩ := ht _ hm rfl
  have hl : Loaded bundled sp := ⟨_, _, _, hs, ok, h1⟩
  have hsc : sp.script = .latn := by
    rw [t3] at h3
    simpa using h3.symm
  have hi : sp.lang.id ≠ str "ell" ∧ sp.lang.id ≠ str "grc" := by
    rw [h2, t1]
    decide +kernel
  refine ⟨sp, hl, by rw [h2]; exact t1, ?_, ?_⟩
  · exact C87_refuted hl (by rw [h2]; exact t2) (by rw [hsc]; decide) hi [] (as := [0x63, 0x61, 0x66]) (bs := []) (d := 0x65) (m := 0x301) (c := 0xE9) (by decide)
      (by rw [hsc]; decide +kernel) (by decide) (by decide) (by simp) (by decide) (by simp) (.inl rfl)
  · obtain ⟨y, z, e1, e2, e3⟩ := C87_accent hl (by rw [h2]; exact t2) (by rw [hsc]; decide) hi [] (m := 0x301) (by decide) (a := encode [0x63, 0x61, 0x66, 0x65])
      (b := []) (.inr ⟨encode [0x63, 0x61, 0x66], 0x65, by decide +kernel, by decide, .inl (by rw [hsc]; decide +kernel)⟩) (.inl rfl)
    have e4 : hangulize sp [] [] = .ok [] := by
      have := C82_plain hl (by rw [hsc]; decide) (translits := []) (x := []) (evs := []) (by simp) (by simp) ?_ (by
        rw [h2, t2]; exact .done _)
      · simpa [encode, squeezed] using this
      · intro s hs hi
        have : s = [] := by simpa using hi
        rw [h2, t1, show signs (str "spa") = [] by decide +kernel] at hs
        contradiction
    rw [e4] at e2
    cases e2
    refine ⟨y, ?_⟩
    rw [← List.append_nil (y ++ _), ← e3]
    congr 1

end Verif.Props
