import Verif.Model.Script
import Verif.Proofs.Furigana
import Verif.Proofs.Translit

/-! Properties C46–C52: translits and script normalization. -/

namespace Verif.Props

open Verif.Spec.Translit

/-! ## C46 -/

/-- C46: letter by letter, an iteration mark after a letter of its syllabary becomes the unvoiced (or voiced) form of
what was written before it, and everything else stays. -/
theorem C46_iteration_marks (word : Bytes) :
    (runes (Furigana.repeatKana word)).length = (runes word).length ∧
    ∀ (i : Nat) (c : Rune), (runes word)[i]? = some c → (runes (Furigana.repeatKana word))[i]? =
      some (resolve (if i = 0 then none else (runes (Furigana.repeatKana word))[i - 1]?) c) := by
  rw [Furigana.runes_repeatKana]
  refine ⟨Furigana.repeatLoop_length _ _, fun i c h => ?_⟩
  rw [Furigana.repeatLoop_get _ _ _ _ h]
  cases i with
  | zero => simp [Furigana.resolve_zero]
  | succ i => simp

/-- C46: nothing but iteration marks changes. -/
theorem C46_others (word : Bytes) (i : Nat) (c : Rune) (h : (runes word)[i]? = some c)
    (hc : c ∉ letters "ゝゞヽヾ") : (runes (Furigana.repeatKana word))[i]? = some c := by
  rw [(C46_iteration_marks word).2 i c h]
  have e : letters "ゝゞヽヾ" = ['ゝ'.toNat, 'ゞ'.toNat, 'ヽ'.toNat, 'ヾ'.toNat] := by decide +kernel
  rw [e] at hc
  simp only [List.mem_cons, List.not_mem_nil, or_false, not_or] at hc
  obtain ⟨h1, h2, h3, h4⟩ := hc
  unfold resolve
  split
  · rfl
  · simp only [h1, h2, h3, h4, and_false, or_self, if_false]

/-- Marks chain: こゞゝ. -/
example : Furigana.repeatKana (str "こゞゝとヽバヾ") = str "こごことヽババ" := by decide +kernel

/-! ## C47 -/

/-- C47: the functions do what the tables of voiced letters say. -/
theorem C47_tables (c : Rune) : Furigana.toSeion c = unvoice c ∧ Furigana.toDakuon c = voice c :=
  ⟨Furigana.toSeion_eq c, Furigana.toDakuon_eq c⟩

/-- C47: voicing and unvoicing are idempotent, stay in the syllabary and undo each other. -/
theorem C47_voicing (c : Rune) :
    Furigana.toSeion (Furigana.toSeion c) = Furigana.toSeion c ∧
    Furigana.toDakuon (Furigana.toDakuon c) = Furigana.toDakuon c ∧
    (Hiragana c ↔ Hiragana (Furigana.toSeion c)) ∧ (Hiragana c ↔ Hiragana (Furigana.toDakuon c)) ∧
    (Katakana c ↔ Katakana (Furigana.toSeion c)) ∧ (Katakana c ↔ Katakana (Furigana.toDakuon c)) ∧
    (Furigana.toSeion c = c → Furigana.toSeion (Furigana.toDakuon c) = c) ∧
    Furigana.toSeion (Furigana.toDakuon c) = Furigana.toSeion c := by
  simp only [Furigana.toSeion_eq, Furigana.toDakuon_eq]
  refine Furigana.by_block (P := fun c => unvoice (unvoice c) = unvoice c ∧ voice (voice c) = voice c ∧
    (Hiragana c ↔ Hiragana (unvoice c)) ∧ (Hiragana c ↔ Hiragana (voice c)) ∧
    (Katakana c ↔ Katakana (unvoice c)) ∧ (Katakana c ↔ Katakana (voice c)) ∧
    (unvoice c = c → unvoice (voice c) = c) ∧ unvoice (voice c) = unvoice c) (fun c hc => ?_) (by decide +kernel) c
  rw [Furigana.voice_outside hc]
  simp [Furigana.unvoice_outside hc, Furigana.voice_outside hc]

example : Furigana.toSeion 'ぷ'.toNat = 'ふ'.toNat ∧ Furigana.toDakuon 'ヲ'.toNat = 'ヺ'.toNat := by decide

/-! ## C48 -/

/-- C48: letter by letter, a vowel prolonging its predecessor becomes a mark, with the exceptions of `leftAlone`, and
everything else stays, in particular what is before the offset. -/
theorem C48_long_vowels (word : Bytes) (off : Nat) :
    (runes (Furigana.mergeLongVowels word off)).length = (runes word).length ∧
    (∀ i, i < off → (runes (Furigana.mergeLongVowels word off))[i]? = (runes word)[i]?) ∧
    (∀ (i : Nat) (c : Rune), (runes word)[i]? = some c →
      (Merged off (runes word) i c → (runes (Furigana.mergeLongVowels word off))[i]? = some 'ー'.toNat) ∧
      (¬ Merged off (runes word) i c → (runes (Furigana.mergeLongVowels word off))[i]? = some c)) ∧
    Furigana.mergeLongVowels (Furigana.mergeLongVowels word off) off = Furigana.mergeLongVowels word off := by
  refine ⟨?_, ?_, ?_, Furigana.merge_idem word off⟩
  all_goals rw [Furigana.runes_merge]
  · exact Furigana.mergeLoop_length _ _ _ _
  · exact Furigana.mergeLoop_prefix off _
  · exact Furigana.mergeLoop_get_zero off _

example : Furigana.mergeLongVowels (str "オオサカケイエイ") 2 = str "オオサカケイエイ" ∧
    Furigana.mergeLongVowels (str "オオサカクウコウ") 1 = str "オーサカクーコー" ∧
    Furigana.mergeLongVowels (str "オオサカクウコウ") 2 = str "オオサカクーコー" := by decide +kernel

/-- A letter is merged. -/
example : Merged 1 (runes (str "クウ")) 1 'ウ'.toNat :=
  ⟨by omega, 0, 'ク'.toNat, rfl, by decide +kernel, by decide +kernel, by decide +kernel⟩

/-! ## C49 -/

/-- A known token for examples. -/
def word (part sub1 sub2 root pron : String) : Furigana.Token :=
  ⟨.known, str root, [str part, str sub1, str sub2, str "*", str "*", str "*", str root, str "*", str pron]⟩

/-- A dummy token. -/
def dummy : Furigana.Token := ⟨.dummy, str "BOS", []⟩

/-- C49: every token is spoken in order up to a morpheme without any pronunciation. -/
theorem C49_typewriter (ts : List Furigana.Token) (h : ∀ t ∈ real ts, Complete t ∧ ValidUtf8 (pronunciation t)) :
    ∃ (out : Bytes) (tw : Furigana.Typewriter) (said unsaid : List Furigana.Token),
      Furigana.typewrite (Furigana.newTypewriter ts) = .ok (out, tw) ∧ real ts = said ++ unsaid ∧
      Said none said out ∧ ∀ t ∈ unsaid.head?, pronunciation t = [] := by
  have hl : (real ts).length < ts.length + 1 := by
    have := List.length_filter_le (fun t : Furigana.Token => decide (t.cls ≠ .dummy)) ts
    simp only [real]; omega
  obtain ⟨out, q, cat, said, unsaid, h1, h2, h3, h4⟩ :=
    Furigana.typewriteLoop_spec ts (ts.length + 1) 0 .illegal none rfl hl h
  refine ⟨out, ⟨ts, out, q, cat⟩, said, unsaid, ?_, h2, h3, ?_⟩
  · simp only [Furigana.typewrite, Furigana.newTypewriter, ne_eq, not_true_eq_false, if_false, h1, Go.bind_ok,
      Go.pure_eq]
  · intro t ht
    cases hu : unsaid with
    | nil => rw [hu] at ht; simp at ht
    | cons u us =>
      rw [hu] at ht
      simp only [List.head?_cons, Option.mem_some_iff] at ht
      subst ht
      exact (h4 _ _ hu).1

/-- C49: with pronunciations for all tokens, every token is spoken in order. -/
theorem C49_typewriter_partial (ts : List Furigana.Token)
    (h : ∀ t ∈ real ts, Complete t ∧ ValidUtf8 (pronunciation t) ∧ pronunciation t ≠ []) :
    ∃ (out : Bytes) (tw : Furigana.Typewriter), Furigana.typewrite (Furigana.newTypewriter ts) = .ok (out, tw) ∧
      Said none (real ts) out := by
  obtain ⟨out, tw, said, unsaid, h1, h2, h3, h4⟩ := C49_typewriter ts fun t ht => ⟨(h t ht).1, (h t ht).2.1⟩
  refine ⟨out, tw, h1, ?_⟩
  cases unsaid with
  | nil => rw [h2, List.append_nil]; exact h3
  | cons u us => exact absurd (h4 u rfl) (h u (by rw [h2]; simp)).2.2

/-- C49: after a call, any further call returns the same text. -/
theorem C49_second_call {ts : List Furigana.Token} {out : Bytes} {tw : Furigana.Typewriter}
    (h : Furigana.typewrite (Furigana.newTypewriter ts) = .ok (out, tw)) : Furigana.typewrite tw = .ok (out, tw) := by
  simp only [Furigana.typewrite, Furigana.newTypewriter, ne_eq, not_true_eq_false, if_false, Go.bind_eq_ok] at h
  obtain ⟨⟨out', q, cat⟩, h1, h2⟩ := h
  have := Furigana.typewriteLoop_pos _ _ _ _ _ _ _ h1
  simp only [Go.pure_eq, Go.ok.injEq, Prod.mk.injEq] at h2
  obtain ⟨rfl, rfl⟩ := h2
  rw [Furigana.typewrite, if_pos (by show q ≠ 0; omega)]

/-- C49 fails: nothing is said after a token without pronunciation. -/
theorem C49_silence_refuted :
    ∃ (t u : Furigana.Token) (tw : Furigana.Typewriter), Complete t ∧ Complete u ∧ pronunciation u = str "ア" ∧
      Furigana.typewrite (Furigana.newTypewriter [t, u]) = .ok ([], tw) :=
  ⟨word "記号" "*" "*" "x" "", word "名詞" "*" "*" "亜" "ア",
    ⟨[word "記号" "*" "*" "x" "", word "名詞" "*" "*" "亜" "ア"], [], 1, .metaCat⟩, by decide +kernel, by decide +kernel,
    by decide +kernel, by decide +kernel⟩

/-- Names, an auxiliary after a dummy, an unknown word. -/
example : (Furigana.typewrite (Furigana.newTypewriter [word "名詞" "固有名詞" "人名" "山田" "ヤマダ", dummy,
      word "名詞" "固有名詞" "人名" "太郎" "タロー", word "助詞" "係助詞" "*" "は" "ワ", word "動詞" "*" "*" "行く" "イコ",
      dummy, word "助動詞" "*" "*" "う" "ウ", ⟨.unknown, str "クウコウ", []⟩])).bind (fun r => .ok r.1) =
    .ok (str "ヤマダ タローハイコークーコー") := by decide +kernel

/-- The tokens above meet the hypotheses. -/
example : ∀ t ∈ real [word "名詞" "固有名詞" "人名" "山田" "ヤマダ", dummy, word "助動詞" "*" "*" "う" "ウ",
    ⟨.unknown, str "クウコウ", []⟩], Complete t ∧ ValidUtf8 (pronunciation t) ∧ pronunciation t ≠ [] := by
  simp only [validUtf8_iff]
  decide +kernel

/-! ## C50 -/

/-- C50: the word is a sequence of letters with pinyin and unbroken runs of other letters, and the result are these
parts in order, with a separator in between. -/
theorem C50_pinyin (dict : Rune → List Bytes) (word : Bytes) :
    ∃ segs : List Segment, segs.flatMap Segment.letters = runes word ∧ (∀ s ∈ segs, s.Right dict) ∧ Unbroken segs ∧
      Pinyin.transliterate dict word = join (encodeRune 0x200B) (segs.map (Segment.text dict)) := by
  obtain ⟨segs, h1, h2, h3, h4⟩ := Pinyin.chunksLoop_spec dict (runes word) [] (by simp)
  refine ⟨segs, by simpa using h1, h2, h3, ?_⟩
  rw [Pinyin.transliterate, ← Pinyin.separator_eq, ← h4]; rfl

/-- C50: without the separators, the result is the pinyin of the letters, or the letters themselves. -/
theorem C50_nothing_lost (dict : Rune → List Bytes) (word : Bytes)
    (hd : ∀ c p, p ∈ dict c → ValidUtf8 p ∧ 0x200B ∉ runes p) (hw : 0x200B ∉ runes word) :
    (runes (Pinyin.transliterate dict word)).filter (· ≠ 0x200B) =
      (runes word).flatMap fun c => match dict c with
        | [] => [c]
        | p :: _ => runes p := by
  obtain ⟨segs, h1, h2, h3, h4⟩ := C50_pinyin dict word
  have hlet : ∀ s ∈ segs, ∀ c ∈ s.letters, c ∈ runes word := by
    intro s hs c hc; rw [← h1, List.mem_flatMap]; exact ⟨s, hs, hc⟩
  have hval : ∀ s ∈ segs, ∀ c ∈ s.letters, validRune c = true := fun s hs c hc => runes_valid word c (hlet s hs c hc)
  have hhead : ∀ c, dict c ≠ [] → (dict c).headD [] ∈ dict c := by
    intro c hc
    cases hdc : dict c with
    | nil => exact absurd hdc hc
    | cons p more => simp
  have htext : ∀ s ∈ segs, ValidUtf8 (s.text dict) ∧ 0x200B ∉ runes (s.text dict) := by
    intro s hs
    cases s with
    | hanzi c => exact hd c _ (hhead c (h2 _ hs))
    | plain run =>
      refine ⟨encode_validUtf8 run, ?_⟩
      simp only [Segment.text]
      rw [runes_encode (rs := run) (hval _ hs)]
      exact fun hm => hw (hlet _ hs _ hm)
  rw [h4, ← Pinyin.separator_eq, Pinyin.filter_join]
  · rw [← h1, List.flatMap_map, List.flatMap_assoc]
    refine Pinyin.flatMap_congr fun s hs => ?_
    cases s with
    | hanzi c =>
      have := h2 _ hs
      simp only [Segment.Right] at this
      simp only [Segment.text, Segment.letters, List.flatMap_cons, List.flatMap_nil, List.append_nil]
      cases hdc : dict c with
      | nil => exact absurd hdc this
      | cons p more => rfl
    | plain run =>
      have hr := (h2 _ hs).2
      simp only [Segment.text, Segment.letters]
      rw [runes_encode (rs := run) (hval _ hs)]
      have : ∀ l : List Rune, (∀ c ∈ l, dict c = []) → l = l.flatMap fun c => match dict c with
        | [] => [c]
        | p :: _ => runes p := by
        intro l hl
        induction l with
        | nil => rfl
        | cons c l ih =>
          rw [List.flatMap_cons, hl c (by simp), ← ih (fun x hx => hl x (by simp [hx]))]; rfl
      exact this run hr
  · intro x hx
    obtain ⟨s, hs, rfl⟩ := List.mem_map.1 hx
    exact (htext s hs).1
  · intro x hx
    obtain ⟨s, hs, rfl⟩ := List.mem_map.1 hx
    exact (htext s hs).2

/-- A dictionary for examples. -/
def hanzi (c : Rune) : List Bytes :=
  if c = '中'.toNat then [str "zhong", str "zhong"] else if c = '国'.toNat then [str "guo"] else []

example : Pinyin.transliterate hanzi (str "a b中国c") = str "a b\u200bzhong\u200bguo\u200bc" := by decide +kernel

example : ∀ c p, p ∈ hanzi c → ValidUtf8 p ∧ 0x200B ∉ runes p := by
  intro c p hp
  simp only [validUtf8_iff]
  unfold hanzi at hp
  split at hp
  · simp only [List.mem_cons, List.not_mem_nil, or_false, or_self] at hp; subst hp; decide +kernel
  · split at hp
    · simp only [List.mem_cons, List.not_mem_nil, or_false] at hp; subst hp; decide +kernel
    · simp at hp

/-! ## C51 -/

/-- The same pairs in another order. -/
theorem C51_order_refuted :
    ∀ m ∈ [Cyrillic.bulgaria, Cyrillic.macedonia, Cyrillic.russia, Cyrillic.ukraine],
      ∃ (oldnew : List (Bytes × Bytes)) (word : Bytes), oldnew.Perm (Cyrillic.pairs m) ∧
        Cyrillic.transliterate oldnew word ≠ Cyrillic.transliterate (Cyrillic.pairs m) word := by
  have key : ∀ m ∈ [Cyrillic.bulgaria, Cyrillic.macedonia, Cyrillic.russia, Cyrillic.ukraine],
      ∃ word ∈ ["sh", "lj", "š", "šč", "ju"].map str,
        Cyrillic.transliterate (Cyrillic.pairs m).reverse word ≠ Cyrillic.transliterate (Cyrillic.pairs m) word := by
    decide +kernel
  intro m hm
  obtain ⟨w, _, h⟩ := key m hm
  exact ⟨_, w, List.reverse_perm _, h⟩

/-- C51 for words at no place of which two different keys match: the order of the pairs does not matter. -/
theorem C51_cyrillic_partial {oldnew oldnew' : List (Bytes × Bytes)} (h : oldnew.Perm oldnew') {word : Bytes}
    (hw : Cyrillic.Unambiguous oldnew word) :
    Cyrillic.transliterate oldnew word = Cyrillic.transliterate oldnew' word :=
  Cyrillic.replacePairs_perm' h hw

/-- C51: whether a word is ambiguous does not depend on the order either. -/
theorem C51_unambiguous_perm {oldnew oldnew' : List (Bytes × Bytes)} (h : oldnew.Perm oldnew') {word : Bytes}
    (hw : Cyrillic.Unambiguous oldnew word) : Cyrillic.Unambiguous oldnew' word :=
  fun t ht => h.pairwise (hw t ht) fun hab hba => hab hba.symm

example : Cyrillic.Unambiguous (Cyrillic.pairs Cyrillic.russia) (str "pravda") :=
  Cyrillic.unambiguous_of_drop (by decide +kernel)

/-! ## C52 -/

/-- C52: normalizing is idempotent for kana, and leaves everything outside the block of hiragana alone. -/
theorem C52_hrkt (c : Rune) :
    Script.hrkt.normalize (Script.hrkt.normalize c) = Script.hrkt.normalize c ∧
    (¬ Hiragana c → Script.hrkt.normalize c = c) ∧ (Hiragana c → Katakana (Script.hrkt.normalize c)) := by
  simp only [Script.normalize, Hiragana, Katakana]
  refine ⟨?_, fun h => if_neg h, fun h => ?_⟩
  · split
    · rw [if_neg]; omega
    · rfl
  · rw [if_pos h]; omega

/-- The letters of the two syllabaries in the same order. -/
def counterparts : List (Rune × Rune) :=
  (letters "ぁあぃいぅうぇえぉおかがきぎくぐけげこごさざしじすずせぜそぞただちぢっつづてでとど").zip
    (letters "ァアィイゥウェエォオカガキギクグケゲコゴサザシジスズセゼソゾタダチヂッツヅテデトド") ++
  (letters "なにぬねのはばぱひびぴふぶぷへべぺほぼぽまみむめもゃやゅゆょよらりるれろゎわゐゑをんゔゕゖゝゞ").zip
    (letters "ナニヌネノハバパヒビピフブプヘベペホボポマミムメモャヤュユョヨラリルレロヮワヰヱヲンヴヵヶヽヾ")

/-- C52: every hiragana letter becomes its katakana counterpart. -/
theorem C52_letters : ∀ p ∈ counterparts, Script.hrkt.normalize p.1 = p.2 := by decide +kernel

/-- C52 fails: marks and a ligature in the block become unrelated letters. -/
theorem C52_marks_refuted :
    Script.hrkt.is 0x309B = false ∧ Script.hrkt.normalize 0x309B = '・'.toNat ∧
    Script.hrkt.normalize 0x309C = 'ー'.toNat ∧ Script.hrkt.is 'ゟ'.toNat = true ∧
    Script.hrkt.normalize 'ゟ'.toNat = 'ヿ'.toNat ∧ Script.hrkt.normalize 0x3099 = 'ヹ'.toNat := by decide +kernel

/-- C52: besides the letters with a counterpart, only eight code points change at all. -/
theorem C52_changed (c : Rune) (h : Script.hrkt.normalize c ≠ c) :
    (∃ d, (c, d) ∈ counterparts) ∨ c ∈ [0x3040, 0x3097, 0x3098, 0x3099, 0x309A, 0x309B, 0x309C, 0x309F] := by
  have hb : Hiragana c := Decidable.byContradiction fun hn => h ((C52_hrkt c).2.1 hn)
  have key : ∀ k < 0x60, 0x3040 + k ∈ counterparts.map (·.1) ∨
      0x3040 + k ∈ [0x3040, 0x3097, 0x3098, 0x3099, 0x309A, 0x309B, 0x309C, 0x309F] := by decide +kernel
  have := key (c - 0x3040) (by unfold Hiragana at hb; omega)
  rw [show 0x3040 + (c - 0x3040) = c by unfold Hiragana at hb; omega] at this
  refine this.imp (fun hm => ?_) id
  obtain ⟨⟨a, d⟩, h1, h2⟩ := List.mem_map.1 hm
  exact ⟨d, by simpa [← h2] using h1⟩

/-- Latin letters the decomposition of which starts with another letter than a basic one. -/
def compound : List Rune := letters "ǢǣǼǽǾǿẛǮǯ"

/-- C52: a decomposable Latin letter becomes a lower-case basic letter, apart from nine letters. -/
theorem C52_latn_partial (c : Rune) (hd : Unicode.latinDecomp c ≠ none) (hc : c ∉ compound) :
    'a'.toNat ≤ Script.latn.normalize c ∧ Script.latn.normalize c ≤ 'z'.toNat := by
  unfold Unicode.latinDecomp at hd
  rw [ne_eq, Option.map_eq_none_iff] at hd
  cases hf : Unicode.latinDecompTable.find? (fun (lo, hi, _) => lo ≤ c && c ≤ hi) with
  | none => exact absurd hf hd
  | some e =>
    obtain ⟨lo, hi, b⟩ := e
    have hm := List.mem_of_find?_eq_some hf
    have hr := List.find?_some hf
    simp only [Bool.and_eq_true, decide_eq_true_eq] at hr
    have key : ∀ e ∈ Unicode.latinDecompTable, ('a'.toNat ≤ Unicode.toLower e.2.2 ∧ Unicode.toLower e.2.2 ≤ 'z'.toNat) ∨
        ∀ k < e.2.1 + 1 - e.1, e.1 + k ∈ compound := by decide +kernel
    have hn : Script.latn.normalize c = Unicode.toLower b := by
      simp only [Script.normalize, Unicode.latinDecomp, hf, Option.map_some, Option.getD_some]
    rw [hn]
    rcases key _ hm with h | h
    · exact h
    · have := h (c - lo) (by simp only; omega)
      simp only at this
      rw [show lo + (c - lo) = c by omega] at this
      exact absurd this hc

/-- C52 fails: the nine letters become other letters with diacritics. -/
theorem C52_latn_refuted : ∀ c ∈ compound, Unicode.latinDecomp c ≠ none ∧
    ¬ ('a'.toNat ≤ Script.latn.normalize c ∧ Script.latn.normalize c ≤ 'z'.toNat) := by decide +kernel

/-- C52: basic letters become lower-case. -/
theorem C52_latn_basic : ∀ k < 26, Script.latn.normalize ('a'.toNat + k) = 'a'.toNat + k ∧
    Script.latn.normalize ('A'.toNat + k) = 'a'.toNat + k := by decide +kernel

example : "Éñśåẍ".toList.map (fun c => Script.latn.normalize c.toNat) = letters "ensax" ∧
    Unicode.latinDecomp 'É'.toNat ≠ none ∧ 'É'.toNat ∉ compound := by decide +kernel

end Verif.Props
