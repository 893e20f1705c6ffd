import Verif.Props.Foreign
import Verif.Props.Wasm
import Verif.Proofs.Chunks

/-! Property C80 for the languages with a translit. -/

namespace Verif.Props

open Verif.Specs Verif.Unicode Verif.Spec.Bundle Verif.Spec.Case Verif.Words

theorem same_words_left {α : Type} {is : Rune → Bool} {irr : List Rune} {F : List Rune → α}
    (hF : ∀ as c bs, (∀ a ∈ as, validRune a = true) → is c = true → c ∉ irr → F (as ++ c :: bs) = F (as ++ toLower c :: bs))
    {v w : List Rune} (h : SameWords is irr v w) (hw : ∀ c ∈ w, validRune c = true) : F v = F w := by
  suffices ∀ as, (∀ a ∈ as, validRune a = true) → F (as ++ v) = F (as ++ w) from this [] (by simp)
  induction h with
  | nil => intro as _; rfl
  | @cons a b v w hab _ ih =>
    intro as ha
    have hb : ∀ x ∈ as ++ [b], validRune x = true := by
      intro x hx
      rcases List.mem_append.1 hx with hx | hx
      · exact ha x hx
      · exact hw x (by simp_all)
    have h1 := ih (fun c hc => hw c (by simp [hc])) (as ++ [b]) hb
    simp only [List.append_assoc, List.singleton_append] at h1
    rw [← h1]
    rcases hab with rfl | ⟨h3, h2, rfl⟩ | ⟨h3, h2, rfl⟩
    · rfl
    · exact hF as a v ha h3 h2
    · exact (hF as b v ha h3 h2).symm

/-- The result depends on what the rest of the procedure makes of the transliterated word. -/
theorem hangulize_scheme {sp : Spec} {translits : List (Bytes × Translit)} {s : Bytes} {t : Translit} (hn : sp.lang.translit = [s])
    (hs : translits.lookup s = some t) {v w v' w' : Bytes} (hv : t.transliterate v = .ok v') (hw : t.transliterate w = .ok w')
    (h : afterTranslit sp v' none = afterTranslit sp w' none) : hangulize sp translits v = hangulize sp translits w := by
  unfold hangulize forward
  rw [hn]
  simp only [transliterateLoop, hs, hv, hw]
  show (match afterTranslit sp v' none with
    | .ok (word, tr) => (Go.ok word, tr) | .err e => (.err e, none) | .panic => (.panic, none) | .hang => (.hang, none)).1 =
    (match afterTranslit sp w' none with
    | .ok (word, tr) => (Go.ok word, tr) | .err e => (.err e, none) | .panic => (.panic, none) | .hang => (.hang, none)).1
  rw [h]

/-! ## Cyrillic -/

theorem cyrillic_keys : ∀ a ∈ Spec.Cyrillic.alphabets, ∀ p ∈ Cyrillic.pairs (Cyrillic.mapping a.1), p.1 ≠ [] ∧ 0x20 ∉ p.1 ∧
    encode (runes p.1) = p.1 ∧ encode (runes p.2) = p.2 ∧ ∀ d ∈ runes p.1, Script.cyrl.is d = false := by decide +kernel

/-- C80 for the languages with a Cyrillic translit: words which differ in the case of any letters but the listed ones have the same
result, in whatever order the mapping is visited. -/
theorem C80_cyrillic {sp : Spec} (h : Loaded bundled sp) (hc : sp.script = .cyrl) {country : String × String}
    (ha : country ∈ Spec.Cyrillic.alphabets) {s : Bytes} (hn : sp.lang.translit = [s]) {l : Libraries} (hl : ∀ m, (l.visit m).Perm m)
    {translits : List (Bytes × Translit)} (hs : translits.lookup s = some (cyrillic l country.1 (Cyrillic.mapping country.1)))
    {v w : List Rune} (hv : ∀ c ∈ w, validRune c = true) (hw : SameWords sp.script.is (irregular sp.lang.id) v w) :
    hangulize sp translits (encode v) = hangulize sp translits (encode w) := by
  refine hangulize_scheme hn hs rfl rfl ?_
  generalize hps : l.visit (Cyrillic.pairs (Cyrillic.mapping country.1)) = ps
  have key : ∀ p ∈ ps, _ := fun p hp => cyrillic_keys _ ha p ((hl _).mem_iff.1 (hps ▸ hp))
  have hk : Texts ps := fun p hp => by
    obtain ⟨k1, k2, k3, k4, _⟩ := key p hp
    exact ⟨k1, k2, (validUtf8_iff _).2 k3, (validUtf8_iff _).2 k4⟩
  refine same_words_left (F := fun v => afterTranslit sp (Cyrillic.transliterate ps (encode v)) none) ?_ hw hv
  intro as c bs hva hcs hci
  have one : ∀ d, Script.cyrl.is d = true → Cyrillic.transliterate ps (encode (as ++ d :: bs)) =
      Cyrillic.transliterate ps (encode as) ++ encodeRune d ++ Cyrillic.transliterate ps (encode bs) := by
    intro d hd
    have hap : Apart ps [d] := by
      intro p hp e he hm
      obtain rfl := List.mem_singleton.1 he
      rw [(key p hp).2.2.2.2 e hm] at hd
      cases hd
    have := replace_apart hk hap (by simp) (by simpa using is_valid hd) (encode bs) _ as (Nat.le_refl _) hva
    have e1 : encode [d] = encodeRune d := by simp [encode]
    rw [e1] at this
    rw [show encode (as ++ d :: bs) = encode as ++ encodeRune d ++ encode bs by simp [encode_append, encode_cons]]
    exact this
  show afterTranslit sp _ none = afterTranslit sp _ none
  rw [one c (hc ▸ hcs), one _ (is_toLower _ _ (hc ▸ hcs))]
  exact C80_after h _ _ hcs hci

/-! ## Kana -/

/-- Kana have no case. -/
theorem C80_kana {irr : List Rune} {v w : List Rune} (h : SameWords Script.hrkt.is irr v w) : v = w := by
  induction h with
  | nil => rfl
  | cons hab _ ih =>
    rw [ih]
    rcases hab with rfl | ⟨h1, _, rfl⟩ | ⟨h1, _, rfl⟩
    · rfl
    · rw [Case.hrkt_lower h1]
    · rw [Case.hrkt_lower h1]

/-! ## Pinyin -/

/-- C80 for Chinese: text in Latin letters within it may have any case, if the dictionary has no Latin letters. -/
theorem C80_pinyin {sp : Spec} (h : Loaded bundled sp) {s : Bytes} (hn : sp.lang.translit = [s]) {l : Libraries}
    {translits : List (Bytes × Translit)} (hs : translits.lookup s = some (pinyin l)) (hp : ∀ c, sp.script.is c = true → l.pinyin c = [])
    {v w : List Rune} (hv : ∀ c ∈ v, validRune c = true) (hw' : ∀ c ∈ w, validRune c = true)
    (hnv : l.nfc (encode v) = encode v) (hnw : l.nfc (encode w) = encode w) (hw : SameWords sp.script.is (irregular sp.lang.id) v w) :
    hangulize sp translits (encode v) = hangulize sp translits (encode w) := by
  refine hangulize_scheme hn hs (v' := join Pinyin.separator (Pinyin.chunksLoop l.pinyin [] v))
    (w' := join Pinyin.separator (Pinyin.chunksLoop l.pinyin [] w)) ?_ ?_ ?_
  · show Go.ok _ = _
    rw [hnv, Pinyin.transliterate, runes_encode hv]
  · show Go.ok _ = _
    rw [hnw, Pinyin.transliterate, runes_encode hw']
  refine same_words_left (F := fun v => afterTranslit sp (join Pinyin.separator (Pinyin.chunksLoop l.pinyin [] v)) none) ?_ hw hw'
  intro as c bs _ hcs hci
  obtain ⟨A, B, hAB⟩ := chunks_around l.pinyin bs as []
  show afterTranslit sp _ none = afterTranslit sp _ none
  rw [hAB c (hp c hcs), hAB _ (hp _ (is_toLower _ _ hcs))]
  exact C80_after h _ _ hcs hci

/-! ## All languages -/

theorem translits_used : ∀ x ∈ table, x.2.2.translit = [] ∨ getScript x.2.2.script = some .hrkt ∨ 
    getScript x.2.2.script = some .latn ∧ x.2.2.translit = [str "pinyin"] ∨
    getScript x.2.2.script = some .cyrl ∧ ∃ a ∈ Spec.Cyrillic.alphabets, x.2.2.translit = [str "cyrillic[" ++ str a.1 ++ str "]"] := by
  decide +kernel

/-- C80: in all bundled languages, with the standard translits, words which differ in the case of any letters but the listed ones have
the same result.  For Chinese the words are in NFC, and the dictionary has no Latin letters. -/
theorem C80_standard {sp : Spec} (h : Loaded bundled sp) {l : Libraries} (hl : ∀ m, (l.visit m).Perm m)
    (hp : ∀ c, Script.latn.is c = true → l.pinyin c = []) {v w : List Rune} (hv : ∀ c ∈ v, validRune c = true)
    (hnv : l.nfc (encode v) = encode v) (hnw : l.nfc (encode w) = encode w) (hw : SameWords sp.script.is (irregular sp.lang.id) v w) :
    hangulize sp (standardRegistry l) (encode v) = hangulize sp (standardRegistry l) (encode w) := by
  have hvw : ∀ c ∈ w, validRune c = true := by
    have : ∀ {v w : List Rune}, SameWords sp.script.is (irregular sp.lang.id) v w → (∀ c ∈ v, validRune c = true) → ∀ c ∈ w, validRune c = true := by
      intro v w h
      induction h with
      | nil => exact fun h => h
      | @cons a b v w hab _ ih =>
        intro hv c hc
        rcases List.mem_cons.1 hc with rfl | hc
        · rcases hab with rfl | ⟨h1, _, rfl⟩ | ⟨h1, _, _⟩
          · exact hv _ (by simp)
          · exact is_valid (is_toLower _ _ h1)
          · exact is_valid h1
        · exact ih (fun c hc => hv c (by simp [hc])) c hc
    exact this hw hv
  obtain ⟨lang, src, o, h1, h2, h3⟩ := id h
  obtain ⟨la, hm, hs⟩ := bundled_sound h1
  obtain ⟨sp', e1, e2, e3, _⟩ := hs o h2
  rw [h3] at e1
  cases e1
  have hx := translits_used _ hm
  simp only [← e2] at hx e3
  rcases hx with hx | hx | ⟨hx, ht⟩ | ⟨hx, a, ha, ht⟩
  · exact C80_word_partial h hx _ hw
  · rw [hx, Option.some.injEq] at e3
    rw [← e3] at hw
    rw [C80_kana hw]
  · rw [hx, Option.some.injEq] at e3
    exact C80_pinyin h ht (standard_lookup (t := pinyin l) (by simp [standard])) (e3 ▸ hp) hv hvw hnv hnw hw
  · rw [hx, Option.some.injEq] at e3
    refine C80_cyrillic h e3.symm ha ht hl (standard_lookup (t := cyrillic l a.1 (Cyrillic.mapping a.1)) ?_) hvw hw
    simp only [Spec.Cyrillic.alphabets, List.mem_cons, List.not_mem_nil, or_false] at ha
    rcases ha with rfl | rfl | rfl | rfl <;> simp [standard, cyrillics, Cyrillic.mapping]

/-- The hypotheses of C80 are met, for instance by the Russian spec, the word `Москва` and the word `мОскВа`. -/
example : ∃ sp, Loaded bundled sp ∧ sp.lang.id = str "rus" ∧ sp.lang.translit = [str "cyrillic[ru]"] ∧
    hangulize sp (standardRegistry ⟨id, fun _ => [], fun _ => [], id⟩) (str "Москва") =
      hangulize sp (standardRegistry ⟨id, fun _ => [], fun _ => [], id⟩) (str "мОскВа") := by
  have ok : Ord.written.Ok := ⟨fun _ _ _ _ => .refl _, fun _ => .refl _⟩
  obtain ⟨src, hs⟩ := Option.isSome_iff_exists.1 (show (bundled (str "rus")).isSome = true by decide +kernel)
  obtain ⟨la, hm, hsd⟩ := bundled_sound hs
  obtain ⟨sp, h1, h2, h3, _⟩ := hsd .written ok
  have ht : ∀ x ∈ table, x.1 = str "rus" → x.2.2.translit = [str "cyrillic[ru]"] ∧ getScript x.2.2.script = some .cyrl ∧
      x.2.2.id = str "rus" := by decide +kernel
  obtain ⟨t1, t2, t3⟩ := ht _ hm rfl
  have hsc : sp.script = .cyrl := by
    rw [t2] at h3
    simpa using h3.symm
  have hl : Loaded bundled sp := ⟨_, _, _, hs, ok, h1⟩
  refine ⟨sp, hl, by rw [h2]; exact t3, by rw [h2]; exact t1, ?_⟩
  have hw : SameWords sp.script.is (irregular sp.lang.id) [0x41C, 0x43E, 0x441, 0x43A, 0x432, 0x430] [0x43C, 0x41E, 0x441, 0x43A, 0x412, 0x430] := by
    rw [h2, t3, hsc]
    exact .cons (.inr (.inl (by decide +kernel))) (.cons (.inr (.inr (by decide +kernel))) (.cons (.inl rfl) (.cons (.inl rfl)
      (.cons (.inr (.inr (by decide +kernel))) (.cons (.inl rfl) .nil)))))
  have := C80_standard hl (l := ⟨id, fun _ => [], fun _ => [], id⟩) (fun _ => .refl _) (fun _ _ => rfl) (by decide +kernel) rfl rfl hw
  rwa [show encode [0x41C, 0x43E, 0x441, 0x43A, 0x432, 0x430] = str "Москва" by decide +kernel, show encode [0x43C, 0x41E, 0x441, 0x43A, 0x412, 0x430] = str "мОскВа" by decide +kernel] at this

end Verif.Props
