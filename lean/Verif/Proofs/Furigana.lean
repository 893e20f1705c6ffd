import Verif.Model.Furigana
import Verif.Proofs.Utf8
import Verif.Spec.Translit

/-! Proofs about `translit/furigana`. -/

namespace Verif.Furigana

open Verif.Spec.Translit

/-! ## Voicing -/

theorem lookup_none_of_keys {l : List (Rune × Rune)} {lo hi c : Nat} (h : ∀ p ∈ l, lo ≤ p.1 ∧ p.1 ≤ hi)
    (hc : ¬ (lo ≤ c ∧ c ≤ hi)) : l.lookup c = none := by
  rw [List.lookup_eq_none_iff]
  intro p hp
  have := h p hp
  rw [bne_iff_ne]
  intro e; subst e; exact hc this

theorem unvoice_outside {c : Rune} (hc : ¬ (0x3040 ≤ c ∧ c ≤ 0x30FF)) : unvoice c = c := by
  rw [unvoice, lookup_none_of_keys (lo := 0x3040) (hi := 0x30FF) (by decide +kernel) hc]; rfl

theorem voice_outside {c : Rune} (hc : ¬ (0x3040 ≤ c ∧ c ≤ 0x30FF)) : voice c = c := by
  rw [voice, lookup_none_of_keys (lo := 0x3040) (hi := 0x30FF) (by decide +kernel) hc]; rfl

theorem by_block {P : Rune → Prop} (h1 : ∀ c, ¬ (0x3040 ≤ c ∧ c ≤ 0x30FF) → P c) (h2 : ∀ k < 192, P (0x3040 + k))
    (c : Rune) : P c := by
  by_cases hc : 0x3040 ≤ c ∧ c ≤ 0x30FF
  · have := h2 (c - 0x3040) (by omega)
    rwa [show 0x3040 + (c - 0x3040) = c by omega] at this
  · exact h1 c hc

theorem toSeion_eq (c : Rune) : toSeion c = unvoice c := by
  refine by_block (P := fun c => toSeion c = unvoice c) (fun c hc => ?_) (by decide +kernel) c
  rw [unvoice_outside hc]
  have e : ∀ {lo hi : Nat}, 0x3040 ≤ lo → hi ≤ 0x30FF → within c lo hi = false := by
    intro lo hi h1 h2
    simp only [within, Bool.and_eq_false_imp, decide_eq_true_eq, decide_eq_false_iff_not]; omega
  have n : ∀ {x : Nat}, 0x3040 ≤ x → x ≤ 0x30FF → (c = x) = False := by
    intro x h1 h2; simp only [eq_iff_iff, iff_false]; omega
  unfold toSeion
  rw [e (lo := ch 'か') (hi := ch 'ぢ') (by decide) (by decide), e (lo := ch 'カ') (hi := ch 'ヂ') (by decide) (by decide),
    e (lo := ch 'つ') (hi := ch 'ど') (by decide) (by decide), e (lo := ch 'ツ') (hi := ch 'ド') (by decide) (by decide),
    e (lo := ch 'は') (hi := ch 'ぽ') (by decide) (by decide), e (lo := ch 'ハ') (hi := ch 'ポ') (by decide) (by decide),
    e (lo := ch 'ヷ') (hi := ch 'ヺ') (by decide) (by decide)]
  simp only [n (x := ch 'ゔ') (by decide) (by decide), n (x := ch 'ヴ') (by decide) (by decide),
    n (x := ch 'ゞ') (by decide) (by decide), n (x := ch 'ヾ') (by decide) (by decide)]
  simp

theorem toDakuon_eq (c : Rune) : toDakuon c = voice c := by
  refine by_block (P := fun c => toDakuon c = voice c) (fun c hc => ?_) (by decide +kernel) c
  rw [voice_outside hc]
  have e : ∀ {lo hi : Nat}, 0x3040 ≤ lo → hi ≤ 0x30FF → within c lo hi = false := by
    intro lo hi h1 h2
    simp only [within, Bool.and_eq_false_imp, decide_eq_true_eq, decide_eq_false_iff_not]; omega
  have n : ∀ {x : Nat}, 0x3040 ≤ x → x ≤ 0x30FF → (c = x) = False := by
    intro x h1 h2; simp only [eq_iff_iff, iff_false]; omega
  unfold toDakuon
  rw [e (lo := ch 'か') (hi := ch 'ぢ') (by decide) (by decide), e (lo := ch 'カ') (hi := ch 'ヂ') (by decide) (by decide),
    e (lo := ch 'つ') (hi := ch 'ど') (by decide) (by decide), e (lo := ch 'ツ') (hi := ch 'ド') (by decide) (by decide),
    e (lo := ch 'は') (hi := ch 'ぽ') (by decide) (by decide), e (lo := ch 'ハ') (hi := ch 'ポ') (by decide) (by decide),
    e (lo := ch 'ワ') (hi := ch 'ヲ') (by decide) (by decide)]
  simp only [n (x := ch 'う') (by decide) (by decide), n (x := ch 'ウ') (by decide) (by decide),
    n (x := ch 'ゝ') (by decide) (by decide), n (x := ch 'ヽ') (by decide) (by decide)]
  simp

/-! ## Iteration marks -/

theorem isHiragana_iff (c : Rune) : isHiragana c = true ↔ Hiragana c := by
  simp [isHiragana, within, Hiragana]

theorem isKatakana_iff (c : Rune) : isKatakana c = true ↔ Katakana c := by
  simp [isKatakana, within, Katakana]

theorem repeated_eq (p c : Rune) : repeated p c = resolve (some p) c := by
  have hd : Hiragana p → ¬ Katakana p := by simp only [Hiragana, Katakana]; omega
  have n1 : ch 'ゝ' ≠ ch 'ゞ' := by decide
  have n2 : ch 'ヽ' ≠ ch 'ヾ' := by decide
  unfold repeated resolve
  by_cases h1 : Hiragana p
  · rw [if_pos ((isHiragana_iff p).2 h1)]
    simp only [h1, true_and, hd h1, false_and, or_false, toSeion_eq, toDakuon_eq]
  · rw [if_neg (fun h => h1 ((isHiragana_iff p).1 h))]
    by_cases h2 : Katakana p
    · rw [if_pos ((isKatakana_iff p).2 h2)]
      simp only [h1, false_and, false_or, h2, true_and, toSeion_eq, toDakuon_eq]
    · rw [if_neg (fun h => h2 ((isKatakana_iff p).1 h))]
      simp [h1, h2]

theorem resolve_zero (c : Rune) : resolve (some 0) c = resolve none c := by
  simp [resolve, Hiragana, Katakana]

theorem repeatLoop_get : ∀ (l : List Rune) (p : Rune) (i : Nat) (c : Rune), l[i]? = some c →
    (repeatLoop p l)[i]? = some (resolve ((p :: repeatLoop p l)[i]?) c) := by
  intro l
  induction l with
  | nil => intro p i c h; simp at h
  | cons x l ih =>
    intro p i c h
    cases i with
    | zero =>
      simp only [List.getElem?_cons_zero, Option.some.injEq] at h; subst h
      simp [repeatLoop, repeated_eq]
    | succ i =>
      simp only [List.getElem?_cons_succ] at h
      simp only [repeatLoop, List.getElem?_cons_succ]
      exact ih _ _ _ h

theorem repeatLoop_length : ∀ (l : List Rune) (p : Rune), (repeatLoop p l).length = l.length := by
  intro l
  induction l with
  | nil => intro p; rfl
  | cons x l ih => intro p; simp [repeatLoop, ih]

theorem validRune_bmp {c : Rune} (h : c < 0xD800) : validRune c = true := by
  rw [validRune_iff]; omega

theorem unvoice_block (c : Rune) (h : 0x3040 ≤ c ∧ c ≤ 0x30FF) : 0x3040 ≤ unvoice c ∧ unvoice c ≤ 0x30FF := by
  revert h
  exact by_block (P := fun c => (0x3040 ≤ c ∧ c ≤ 0x30FF) → 0x3040 ≤ unvoice c ∧ unvoice c ≤ 0x30FF)
    (fun c hc h => absurd h hc) (by decide +kernel) c

theorem voice_block (c : Rune) (h : 0x3040 ≤ c ∧ c ≤ 0x30FF) : 0x3040 ≤ voice c ∧ voice c ≤ 0x30FF := by
  revert h
  exact by_block (P := fun c => (0x3040 ≤ c ∧ c ≤ 0x30FF) → 0x3040 ≤ voice c ∧ voice c ≤ 0x30FF)
    (fun c hc h => absurd h hc) (by decide +kernel) c

theorem resolve_valid {p : Option Rune} {c : Rune} (hc : validRune c = true) : validRune (resolve p c) = true := by
  cases p with
  | none => exact hc
  | some p =>
    simp only [resolve]
    split
    · rename_i h
      have := unvoice_block p (by simp only [Hiragana, Katakana] at h; omega)
      exact validRune_bmp (by omega)
    · split
      · rename_i h
        have := voice_block p (by simp only [Hiragana, Katakana] at h; omega)
        exact validRune_bmp (by omega)
      · exact hc

theorem repeatLoop_valid : ∀ (l : List Rune) (p : Rune), (∀ c ∈ l, validRune c = true) →
    ∀ c ∈ repeatLoop p l, validRune c = true := by
  intro l
  induction l with
  | nil => intro p _ c hc; simp [repeatLoop] at hc
  | cons x l ih =>
    intro p h c hc
    simp only [repeatLoop, List.mem_cons] at hc
    rcases hc with rfl | hc
    · rw [repeated_eq]; exact resolve_valid (h x (by simp))
    · exact ih _ (fun c hc => h c (by simp [hc])) c hc

theorem runes_repeatKana (word : Bytes) : runes (repeatKana word) = repeatLoop 0 (runes word) :=
  runes_encode (repeatLoop_valid _ _ (runes_valid word))

/-! ## Long vowels -/

theorem isLongVowel_block {p c : Rune} (h : isLongVowel p c = true) : 0x3040 ≤ p ∧ p ≤ 0x30FF := by
  unfold isLongVowel at h
  split at h
  · cases h
  · rename_i q x hf
    have hm := List.mem_of_find?_eq_some hf
    have key : ∀ q ∈ longVowelRels, ∀ x ∈ q.2.toList.map Char.toNat, 0x3040 ≤ x ∧ x ≤ 0x30FF := by decide +kernel
    rw [List.contains_iff_mem] at h
    exact key _ hm p h

theorem isLongVowel_letter {p c : Rune} (h : isLongVowel p c = true) : c ∈ letters "ァアィイゥウェエォオ" := by
  unfold isLongVowel at h
  split at h
  · cases h
  · rename_i q x hf
    have hm := List.mem_of_find?_eq_some hf
    have key : ∀ q ∈ longVowelRels, q.1.toNat ∈ letters "ァアィイゥウェエォオ" := by decide +kernel
    have := List.find?_some hf
    simp only [decide_eq_true_eq] at this
    rw [← this]; exact key _ hm

theorem vowelOf_block {p : Rune} (h : ¬ (0x3040 ≤ p ∧ p ≤ 0x30FF)) : vowelOf p = none := by
  rw [vowelOf, Option.map_eq_none_iff, List.find?_eq_none]
  intro r hr hc
  have key : ∀ r ∈ rows, ∀ x ∈ r.2, 0x3040 ≤ x ∧ x ≤ 0x30FF := by decide +kernel
  rw [List.contains_iff_mem] at hc
  exact h (key r hr p hc)

theorem vowelLetters_none {c : Rune} (h : c ∉ letters "ァアィイゥウェエォオ") : vowelLetters.lookup c = none := by
  rw [List.lookup_eq_none_iff]
  intro p hp
  have key : ∀ p ∈ vowelLetters, p.1 ∈ letters "ァアィイゥウェエォオ" := by decide +kernel
  have := key p hp
  rw [bne_iff_ne]
  intro e; subst e; exact h this

theorem isLongVowel_eq (p c : Rune) : isLongVowel p c = (prolongs p c && !leftAlone p c) := by
  by_cases hp : 0x3040 ≤ p ∧ p ≤ 0x30FF
  · by_cases hc : c ∈ letters "ァアィイゥウェエォオ"
    · have key : ∀ c ∈ letters "ァアィイゥウェエォオ", ∀ j < 192, isLongVowel (0x3040 + j) c =
          (prolongs (0x3040 + j) c && !leftAlone (0x3040 + j) c) := by decide +kernel
      have := key c hc (p - 0x3040) (by omega)
      rwa [show 0x3040 + (p - 0x3040) = p by omega] at this
    · have h1 : isLongVowel p c = false := by
        rw [Bool.eq_false_iff]; exact fun h => hc (isLongVowel_letter h)
      simp [h1, prolongs, vowelLetters_none hc]
  · have h1 : isLongVowel p c = false := by
      rw [Bool.eq_false_iff]; exact fun h => hp (isLongVowel_block h)
    have : prolongs p c = false := by
      unfold prolongs; rw [vowelOf_block hp]; split <;> simp_all
    simp [h1, this]

theorem isLongVowel_mark (p : Rune) : isLongVowel p (ch 'ー') = false := by
  have : longVowelRels.find? (fun q => q.1.toNat = ch 'ー') = none := by decide +kernel
  unfold isLongVowel; rw [this]

theorem isLongVowel_after_mark (c : Rune) : isLongVowel (ch 'ー') c = false := by
  unfold isLongVowel
  split
  · rfl
  · rename_i q x hf
    have hm := List.mem_of_find?_eq_some hf
    have key : ∀ q ∈ longVowelRels, (q.2.toList.map Char.toNat).contains (ch 'ー') = false := by decide +kernel
    exact key _ hm

theorem isLongVowel_zero (c : Rune) : isLongVowel 0 c = false := by
  rw [Bool.eq_false_iff]; intro h
  have := isLongVowel_block h
  omega

theorem mergeLoop_length (off : Nat) : ∀ (l : List Rune) (i : Nat) (p : Rune), (mergeLoop off i p l).length = l.length := by
  intro l
  induction l with
  | nil => intro i p; rfl
  | cons x l ih => intro i p; simp [mergeLoop, ih]

theorem mergeLoop_get (off : Nat) : ∀ (l : List Rune) (i : Nat) (p : Rune) (k : Nat) (c : Rune), l[k]? = some c →
    (mergeLoop off i p l)[k]? =
      some (if off ≤ i + k && isLongVowel (((p :: l)[k]?).getD 0) c then ch 'ー' else c) := by
  intro l
  induction l with
  | nil => intro i p k c h; simp at h
  | cons x l ih =>
    intro i p k c h
    cases k with
    | zero =>
      simp only [List.getElem?_cons_zero, Option.some.injEq] at h; subst h
      simp [mergeLoop]
    | succ k =>
      simp only [List.getElem?_cons_succ] at h
      simp only [mergeLoop, List.getElem?_cons_succ]
      rw [ih _ _ _ _ h, show i + 1 + k = i + (k + 1) by omega]

theorem mergeLoop_idem (off : Nat) : ∀ (l : List Rune) (i : Nat) (p p' : Rune), p' = p ∨ p' = ch 'ー' →
    mergeLoop off i p' (mergeLoop off i p l) = mergeLoop off i p l := by
  intro l
  induction l with
  | nil => intro i p p' _; rfl
  | cons x l ih =>
    intro i p p' hp
    simp only [mergeLoop]
    by_cases hl : (decide (off ≤ i) && isLongVowel p x) = true
    · simp only [hl, if_true, isLongVowel_mark, Bool.and_false, Bool.false_eq_true, if_false]
      rw [ih _ _ _ (Or.inr rfl)]
    · have h2 : (decide (off ≤ i) && isLongVowel p' x) = false := by
        rw [Bool.not_eq_true] at hl
        rcases hp with rfl | rfl
        · exact hl
        · rw [isLongVowel_after_mark, Bool.and_false]
      simp only [hl, h2, Bool.false_eq_true, if_false]
      rw [ih _ _ _ (Or.inl rfl)]

theorem mergeLoop_valid (off : Nat) : ∀ (l : List Rune) (i : Nat) (p : Rune), (∀ c ∈ l, validRune c = true) →
    ∀ c ∈ mergeLoop off i p l, validRune c = true := by
  intro l
  induction l with
  | nil => intro i p _ c hc; simp [mergeLoop] at hc
  | cons x l ih =>
    intro i p h c hc
    simp only [mergeLoop, List.mem_cons] at hc
    rcases hc with rfl | hc
    · split
      · decide
      · exact h x (by simp)
    · exact ih _ _ (fun c hc => h c (by simp [hc])) c hc

theorem runes_merge (word : Bytes) (off : Nat) :
    runes (mergeLongVowels word off) = mergeLoop off 0 0 (runes word) :=
  runes_encode (mergeLoop_valid off _ _ _ (runes_valid word))

theorem merge_idem (word : Bytes) (off : Nat) :
    mergeLongVowels (mergeLongVowels word off) off = mergeLongVowels word off := by
  have := runes_merge word off
  unfold mergeLongVowels at this ⊢
  rw [this, mergeLoop_idem off _ _ _ _ (Or.inl rfl)]

/-- The letter at a position after merging. -/
theorem mergeLoop_get_zero (off : Nat) (l : List Rune) (k : Nat) (c : Rune) (h : l[k]? = some c) :
    (Merged off l k c → (mergeLoop off 0 0 l)[k]? = some (ch 'ー')) ∧
    (¬ Merged off l k c → (mergeLoop off 0 0 l)[k]? = some c) := by
  rw [mergeLoop_get off l 0 0 k c h]
  have key : (decide (off ≤ 0 + k) && isLongVowel (((0 :: l)[k]?).getD 0) c) = true ↔ Merged off l k c := by
    rw [Bool.and_eq_true, decide_eq_true_eq, Nat.zero_add]
    refine and_congr_right fun _ => ?_
    cases k with
    | zero => simp [isLongVowel_zero]
    | succ j =>
      rw [List.getElem?_cons_succ]
      have hj : j < l.length := by have := (List.getElem?_eq_some_iff.1 h).1; omega
      rw [List.getElem?_eq_getElem hj, Option.getD_some, isLongVowel_eq, Bool.and_eq_true, Bool.not_eq_true']
      constructor
      · rintro ⟨h1, h2⟩
        exact ⟨j, l[j], rfl, List.getElem?_eq_getElem hj, h1, h2⟩
      · rintro ⟨j', p, hjj, hp, h1, h2⟩
        have : j' = j := by omega
        subst this
        rw [List.getElem?_eq_getElem hj, Option.some.injEq] at hp
        subst hp; exact ⟨h1, h2⟩
  exact ⟨fun hm => by rw [if_pos (key.2 hm)], fun hm => by rw [if_neg (fun h => hm (key.1 h))]⟩

theorem mergeLoop_prolonged (off : Nat) (l : List Rune) : Prolonged l (mergeLoop off 0 0 l) := by
  refine ⟨mergeLoop_length off l 0 0, fun i c h => ?_⟩
  have := mergeLoop_get_zero off l i c h
  by_cases hk : Merged off l i c
  · have hm := hk
    obtain ⟨_, j, p, h1, h2, h3, _⟩ := hk
    exact Or.inr ⟨this.1 hm, j, p, h1, h2, h3⟩
  · exact Or.inl (this.2 hk)

theorem mergeLoop_prefix (off : Nat) (l : List Rune) (i : Nat) (h : i < off) :
    (mergeLoop off 0 0 l)[i]? = l[i]? := by
  cases hc : l[i]? with
  | none =>
    rw [List.getElem?_eq_none_iff] at hc ⊢
    rw [mergeLoop_length]; exact hc
  | some c =>
    refine (mergeLoop_get_zero off l i c hc).2 ?_
    rintro ⟨h1, _⟩; omega

/-! ## The typewriter -/

/-- A token is auxiliary for the model. -/
theorem interpret_ok {t : Token} (h : Complete t) :
    ∃ cat, interpretToken t = .ok (pronunciation t, cat) ∧ (cat = .auxiliary ↔ Auxiliary t) ∧
      (cat = .personName ↔ Name t) ∧ (cat = .unknown → t.cls ≠ .known) ∧ cat ≠ .illegal := by
  unfold interpretToken
  by_cases hk : t.cls = .known
  · rw [if_pos hk]
    have hl := h hk
    have g : ∀ k, k < 9 → index t.features k = .ok (feature t k) := by
      intro k hk
      have : k < t.features.length := by omega
      simp [index, feature, this]
    dsimp only
    rw [g 0 (by omega), g 1 (by omega), g 2 (by omega), g 6 (by omega), g 8 (by omega)]
    simp only [Go.bind_ok, pronunciation, hk, if_true, Auxiliary, Name, true_and, List.mem_cons, List.not_mem_nil,
      or_false, not_or]
    have d1 : str "フィラー" ≠ str "助動詞" ∧ str "記号" ≠ str "助動詞" ∧ str "フィラー" ≠ str "助詞" ∧
      str "記号" ≠ str "助詞" ∧ str "助動詞" ≠ str "助詞" ∧ str "は" ≠ str "へ" := by decide +kernel
    obtain ⟨d1, d2, d3, d4, d5, d6⟩ := d1
    by_cases c1 : feature t 0 = str "フィラー" ∨ feature t 0 = str "記号"
    · rw [if_pos c1]
      refine ⟨.metaCat, ?_, ?_⟩
      · rcases c1 with c1 | c1 <;> simp [c1, d3, d4, Go.pure_eq]
      · rcases c1 with c1 | c1 <;> simp [c1, d1, d2]
    · rw [if_neg c1]
      rw [not_or] at c1
      by_cases c2 : feature t 0 = str "助動詞"
      · rw [if_pos c2]
        exact ⟨.auxiliary, by simp [c2, d5, Go.pure_eq], by simp [c2], by simp [c2], by simp, by simp⟩
      · rw [if_neg c2]
        by_cases c3 : feature t 0 = str "助詞"
        · rw [if_pos c3]
          refine ⟨.morpheme, ?_, by simp [c3, d5.symm], by simp [c3], by simp, by simp⟩
          by_cases r1 : feature t 6 = str "は"
          · simp [c3, r1, Go.pure_eq]
          · by_cases r2 : feature t 6 = str "へ"
            · simp [c3, r2, d6.symm, Go.pure_eq]
            · simp [r1, r2, Go.pure_eq]
        · rw [if_neg c3]
          by_cases c4 : feature t 2 = str "人名"
          · rw [if_pos c4]
            exact ⟨.personName, by simp [c3, Go.pure_eq], by simp [c2], by simp [c4, c1, c2, c3], by simp, by simp⟩
          · rw [if_neg c4]
            by_cases c5 : feature t 1 = str "固有名詞"
            · rw [if_pos c5]
              exact ⟨.properNoun, by simp [c3, Go.pure_eq], by simp [c2], by simp [c4], by simp, by simp⟩
            · rw [if_neg c5]
              exact ⟨.morpheme, by simp [c3, Go.pure_eq], by simp [c2], by simp [c4], by simp, by simp⟩
  · rw [if_neg hk]
    refine ⟨_, by simp only [pronunciation, hk, if_false]; rfl, ?_, ?_, fun _ => hk, ?_⟩
    · simp only [Auxiliary, hk, false_and, iff_false]; split <;> simp
    · simp only [Name, hk, false_and, iff_false]; split <;> simp
    · split <;> simp

theorem readLoop_spec (tokens : List Token) : ∀ (rest : List Token) (pos : Nat), rest = tokens.drop pos →
    (real rest = [] → ∃ pos', readLoop rest pos = (none, pos') ∧ pos < pos' ∧ real (tokens.drop pos') = []) ∧
    (∀ t ts, real rest = t :: ts → ∃ pos', readLoop rest pos = (some t, pos') ∧ pos < pos' ∧
      real (tokens.drop pos') = ts ∧ real (tokens.drop (pos' - 1)) = t :: ts) := by
  intro rest
  induction rest with
  | nil =>
    intro pos h
    refine ⟨fun _ => ⟨pos + 1, rfl, by omega, ?_⟩, fun t ts he => by simp [real] at he⟩
    have : tokens.length ≤ pos := by
      have := congrArg List.length h
      simp only [List.length_nil, List.length_drop] at this; omega
    rw [List.drop_eq_nil_of_le (by omega)]; rfl
  | cons x rest ih =>
    intro pos h
    have hd : rest = tokens.drop (pos + 1) := by
      rw [← List.drop_drop, ← h]; rfl
    by_cases hx : x.cls = .dummy
    · have hr : real (x :: rest) = real rest := by simp [real, hx]
      have hl : readLoop (x :: rest) pos = readLoop rest (pos + 1) := by simp [readLoop, hx]
      rw [hr, hl]
      obtain ⟨i1, i2⟩ := ih (pos + 1) hd
      refine ⟨fun he => ?_, fun t ts he => ?_⟩
      · obtain ⟨q, h1, h2, h3⟩ := i1 he
        exact ⟨q, h1, by omega, h3⟩
      · obtain ⟨q, h1, h2, h3⟩ := i2 t ts he
        exact ⟨q, h1, by omega, h3⟩
    · have hr : real (x :: rest) = x :: real rest := by simp [real, hx]
      refine ⟨fun he => by simp [hr] at he, fun t ts he => ?_⟩
      rw [hr] at he
      injection he with e1 e2
      subst e1
      refine ⟨pos + 1, by simp [readLoop, hx], by omega, by rw [← hd, e2], ?_⟩
      rw [Nat.add_sub_cancel, ← h, hr, e2]

theorem read_spec (tokens : List Token) (pos : Nat) :
    (real (tokens.drop pos) = [] → ∃ pos', read tokens pos = (none, pos') ∧ pos < pos' ∧
      real (tokens.drop pos') = []) ∧
    (∀ t ts, real (tokens.drop pos) = t :: ts → ∃ pos', read tokens pos = (some t, pos') ∧ pos < pos' ∧
      real (tokens.drop pos') = ts ∧ real (tokens.drop (pos' - 1)) = t :: ts) :=
  readLoop_spec tokens _ pos rfl

/-- A token is auxiliary. -/
def isAux (t : Token) : Bool := decide (Auxiliary t)

theorem auxiliaryLoop_spec (tokens : List Token) : ∀ (fuel pos : Nat) (buf : Bytes),
    (∀ t ∈ real (tokens.drop pos), Complete t) → (real (tokens.drop pos)).length < fuel →
    ∃ pos', auxiliaryLoop tokens fuel pos buf =
        .ok (buf ++ ((real (tokens.drop pos)).takeWhile isAux).flatMap pronunciation, pos') ∧
      pos ≤ pos' ∧ real (tokens.drop pos') = (real (tokens.drop pos)).dropWhile isAux := by
  intro fuel
  induction fuel with
  | zero => intro pos buf _ h; omega
  | succ fuel ih =>
    intro pos buf hc hf
    obtain ⟨r1, r2⟩ := read_spec tokens pos
    rw [auxiliaryLoop]
    cases hr : real (tokens.drop pos) with
    | nil =>
      obtain ⟨q, h1, h2, h3⟩ := r1 hr
      rw [h1]
      exact ⟨q, by simp, by omega, by simpa using h3⟩
    | cons t ts =>
      obtain ⟨q, h1, h2, h3, h4⟩ := r2 t ts hr
      rw [h1]
      obtain ⟨cat, i1, i2, -⟩ := interpret_ok (hc t (by rw [hr]; simp))
      simp only [i1, Go.bind_ok]
      by_cases ha : cat = .auxiliary
      · have hax : isAux t = true := by simp [isAux, i2.1 ha]
        rw [if_pos ha]
        obtain ⟨q', e1, e2, e3⟩ := ih q (buf ++ pronunciation t) (by
          rw [h3]; intro u hu; exact hc u (by rw [hr]; simp [hu])) (by rw [h3]; rw [hr] at hf; simp at hf; omega)
        refine ⟨q', ?_, by omega, ?_⟩
        · rw [e1, h3]; simp [hax]
        · rw [e3, h3]; simp [hax]
      · have hax : isAux t = false := by
          simp only [isAux, decide_eq_false_iff_not]; exact fun h => ha (i2.2 h)
        rw [if_neg ha]
        refine ⟨q - 1, by simp [hax, Go.pure_eq], by omega, by simp [hax, h4]⟩

theorem prolonged_refl (l : List Rune) : Prolonged l l := ⟨rfl, fun _ _ h => Or.inl h⟩

theorem runes_flatMap (aux : List Token) (h : ∀ a ∈ aux, ValidUtf8 (pronunciation a)) :
    runes (aux.flatMap pronunciation) = aux.flatMap fun a => runes (pronunciation a) := by
  induction aux with
  | nil => rfl
  | cons a aux ih =>
    simp only [List.flatMap_cons]
    rw [runes_append (h a (by simp)), ih (fun b hb => h b (by simp [hb]))]

theorem mergeLongVowels_valid (s : Bytes) (off : Nat) : ValidUtf8 (mergeLongVowels s off) := encode_validUtf8 _

theorem mergeLongVowels_ne_nil {s : Bytes} (off : Nat) (h : s ≠ []) : mergeLongVowels s off ≠ [] := by
  intro he
  have := runes_merge s off
  rw [he, runes_nil] at this
  have := congrArg List.length this
  rw [mergeLoop_length] at this
  exact h ((runes_eq_nil_iff s).1 (List.eq_nil_of_length_eq_zero this.symm))

/-- The text of a morpheme. -/
theorem morpheme_text {t : Token} {aux : List Token} {core : Bytes} (ht : ValidUtf8 (pronunciation t))
    (ha : ∀ a ∈ aux, ValidUtf8 (pronunciation a))
    (hcore : core = pronunciation t ∨ core = mergeLongVowels (pronunciation t) 0 ∧ t.cls ≠ .known) :
    Morpheme t aux (mergeLongVowels (core ++ aux.flatMap pronunciation) (runes core).length) := by
  have hv : ValidUtf8 core := by
    rcases hcore with rfl | ⟨rfl, -⟩
    · exact ht
    · exact mergeLongVowels_valid _ _
  have hr : runes (core ++ aux.flatMap pronunciation) = runes core ++ aux.flatMap fun a => runes (pronunciation a) := by
    rw [runes_append hv, runes_flatMap aux ha]
  have hpro : Prolonged (runes (pronunciation t)) (runes core) := by
    rcases hcore with rfl | ⟨rfl, -⟩
    · exact prolonged_refl _
    · rw [runes_merge]; exact mergeLoop_prolonged _ _
  let out := mergeLoop (runes core).length 0 0 (runes core ++ aux.flatMap fun a => runes (pronunciation a))
  have hsplit : out = runes core ++ out.drop (runes core).length := by
    have : out.take (runes core).length = runes core := by
      apply List.ext_getElem?
      intro i
      rw [List.getElem?_take]
      split
      · rename_i hi
        rw [mergeLoop_prefix _ _ _ hi, List.getElem?_append_left hi]
      · rename_i hi
        rw [List.getElem?_eq_none (by omega)]
    conv => lhs; rw [← List.take_append_drop (runes core).length out, this]
  refine ⟨runes core, out.drop (runes core).length, ?_, hpro.1, ?_, _, hpro, rfl, ?_⟩
  · rw [← hsplit, mergeLongVowels, hr]
  · intro hk
    rcases hcore with rfl | ⟨-, h⟩
    · rfl
    · exact absurd hk h
  · rw [← hsplit]; exact mergeLoop_prolonged _ _

/-- What the typewriter remembers of the last morpheme. -/
def LastOk (prev : Option Token) (lastCat : Category) : Prop :=
  match prev with
  | none => lastCat = .illegal
  | some p => lastCat = .personName ↔ Name p

theorem takeWhile_aux (ts : List Token) : ∀ a ∈ ts.takeWhile isAux, Auxiliary a := by
  induction ts with
  | nil => simp
  | cons t ts ih =>
    intro a ha
    rw [List.takeWhile_cons] at ha
    split at ha
    · rename_i h
      simp only [isAux, decide_eq_true_eq] at h
      rcases List.mem_cons.1 ha with rfl | ha
      · exact h
      · exact ih a ha
    · simp at ha

theorem dropWhile_aux (ts : List Token) : ∀ r ∈ (ts.dropWhile isAux).head?, ¬ Auxiliary r := by
  induction ts with
  | nil => simp
  | cons t ts ih =>
    intro a ha
    rw [List.dropWhile_cons] at ha
    split at ha
    · exact ih a ha
    · rename_i h
      simp only [List.head?_cons, Option.mem_some_iff] at ha
      subst ha
      simpa [isAux] using h

theorem scan_spec {tokens : List Token} {pos : Nat} {lastCat : Category} {prev : Option Token} {t : Token}
    {ts : List Token} (hr : real (tokens.drop pos) = t :: ts) (hl : LastOk prev lastCat)
    (hc : ∀ u ∈ t :: ts, Complete u ∧ ValidUtf8 (pronunciation u)) :
    ∃ (text : Bytes) (pos' : Nat) (cat : Category), scanMorpheme tokens pos lastCat =
        .ok (if Name t ∧ ∃ p ∈ prev, Name p then [0x20] else [], text, pos', cat) ∧
      Morpheme t (ts.takeWhile isAux) text ∧
      (text = [] → pronunciation t = [] ∧ ∀ a ∈ ts.takeWhile isAux, pronunciation a = []) ∧ pos < pos' ∧ LastOk (some t) cat ∧
      real (tokens.drop pos') = ts.dropWhile isAux := by
  obtain ⟨q, h1, h2, h3, -⟩ := (read_spec tokens pos).2 t ts hr
  obtain ⟨cat, i1, i2, i3, i4, -⟩ := interpret_ok (hc t (by simp)).1
  have hlen : (real (tokens.drop q)).length < tokens.length + 1 := by
    have := List.length_filter_le (fun t : Token => decide (t.cls ≠ .dummy)) (tokens.drop q)
    simp only [real, List.length_drop] at this ⊢; omega
  let core : Bytes := if cat = .unknown then mergeLongVowels (pronunciation t) 0 else pronunciation t
  have hcore : core = pronunciation t ∨ core = mergeLongVowels (pronunciation t) 0 ∧ t.cls ≠ .known := by
    by_cases hu : cat = .unknown
    · exact Or.inr ⟨if_pos hu, i4 hu⟩
    · exact Or.inl (if_neg hu)
  have hcne : core = [] → pronunciation t = [] := by
    intro hn
    rcases hcore with h | ⟨h, -⟩
    · rw [← h]; exact hn
    · refine Decidable.byContradiction fun hne => ?_
      rw [h] at hn; exact mergeLongVowels_ne_nil _ hne hn
  obtain ⟨q', e1, e2, e3⟩ := auxiliaryLoop_spec tokens (tokens.length + 1) q core
    (by rw [h3]; intro u hu; exact (hc u (by simp [hu])).1) hlen
  rw [h3] at e1 e3
  have hsep : (if lastCat = .metaCat ∨ lastCat = .illegal then ([] : Bytes)
      else if cat = .personName ∧ lastCat = .personName then [0x20] else []) =
      if Name t ∧ ∃ p ∈ prev, Name p then [0x20] else [] := by
    cases prev with
    | none =>
      have : lastCat = .illegal := hl
      simp [this]
    | some p =>
      have hp : lastCat = .personName ↔ Name p := hl
      have hx : (Name t ∧ ∃ p' ∈ some p, Name p') ↔ (cat = .personName ∧ lastCat = .personName) := by
        rw [i3, hp]
        constructor
        · rintro ⟨a, _, hm, b⟩; cases hm; exact ⟨a, b⟩
        · rintro ⟨a, b⟩; exact ⟨a, p, rfl, b⟩
      by_cases hs : cat = .personName ∧ lastCat = .personName
      · rw [if_pos (hx.2 hs), if_pos hs, if_neg]
        rw [hs.2]; simp
      · rw [if_neg (fun h => hs (hx.1 h)), if_neg hs]; simp
  refine ⟨_, q', cat, ?_, morpheme_text (hc t (by simp)).2
    (fun a ha => (hc a (by simp [(List.takeWhile_sublist isAux).subset ha])).2) hcore,
    ?_, by omega, i3, e3⟩
  rotate_left
  · intro hn
    have : core ++ (ts.takeWhile isAux).flatMap pronunciation = [] :=
      Decidable.byContradiction fun hne => mergeLongVowels_ne_nil _ hne hn
    rw [List.append_eq_nil_iff, List.flatMap_eq_nil_iff] at this
    exact ⟨hcne this.1, this.2⟩
  rw [scanMorpheme, h1]
  simp only [i1, Go.bind_ok]
  rw [show (if cat = .unknown then mergeLongVowels (pronunciation t) 0 else pronunciation t) = core from rfl, e1]
  simp only [Go.bind_ok, Go.pure_eq, hsep]

theorem scan_end {tokens : List Token} {pos : Nat} (lastCat : Category) (hr : real (tokens.drop pos) = []) :
    ∃ pos', scanMorpheme tokens pos lastCat = .ok ([], [], pos', lastCat) ∧ pos < pos' := by
  obtain ⟨q, h1, h2, -⟩ := (read_spec tokens pos).1 hr
  exact ⟨q, by rw [scanMorpheme, h1], h2⟩

theorem typewriteLoop_spec (tokens : List Token) : ∀ (fuel pos : Nat) (lastCat : Category) (prev : Option Token),
    LastOk prev lastCat → (real (tokens.drop pos)).length < fuel →
    (∀ u ∈ real (tokens.drop pos), Complete u ∧ ValidUtf8 (pronunciation u)) →
    ∃ (out : Bytes) (pos' : Nat) (cat : Category) (said unsaid : List Token),
      typewriteLoop tokens fuel pos lastCat = .ok (out, pos', cat) ∧
      real (tokens.drop pos) = said ++ unsaid ∧ Said prev said out ∧
      (∀ u us, unsaid = u :: us → pronunciation u = [] ∧ ∀ a ∈ us.takeWhile isAux, pronunciation a = []) := by
  intro fuel
  induction fuel with
  | zero => intro _ _ _ _ h; omega
  | succ fuel ih =>
    intro pos lastCat prev hl hf hc
    rw [typewriteLoop]
    cases hr : real (tokens.drop pos) with
    | nil =>
      obtain ⟨q, h1, h2⟩ := scan_end lastCat hr
      exact ⟨[], q, lastCat, [], [], by simp [h1, Go.pure_eq], rfl, Said.nil _, by simp⟩
    | cons t ts =>
      rw [hr] at hc hf
      obtain ⟨text, q, cat, h1, h2, h3, h4, h5, h6⟩ := scan_spec hr hl hc
      by_cases hn : text = []
      · subst hn
        refine ⟨[], q, cat, [], t :: ts, ?_, rfl, Said.nil _, ?_⟩
        · rw [h1]; simp [Go.pure_eq]
        · intro u us he
          injection he with e1 e2
          subst e1; subst e2; exact h3 rfl
      have hsub : ∀ u ∈ ts.dropWhile isAux, u ∈ ts := fun u hu => (List.dropWhile_sublist isAux).subset hu
      have hlen : (ts.dropWhile isAux).length ≤ ts.length := (List.dropWhile_sublist isAux).length_le
      obtain ⟨out, q', cat', said, unsaid, e1, e2, e3, e4⟩ := ih q cat (some t) h5 (by rw [h6]; simp at hf; omega)
        (by rw [h6]; intro u hu; exact hc u (by simp [hsub u hu]))
      rw [h6] at e2
      refine ⟨(if Name t ∧ ∃ p ∈ prev, Name p then [0x20] else []) ++ text ++ out, q', cat',
        t :: ts.takeWhile isAux ++ said, unsaid, ?_, ?_, ?_, e4⟩
      · rw [h1]
        simp only [Go.bind_ok, hn, if_false, e1, Go.pure_eq]
      · rw [List.append_assoc, ← e2, List.cons_append, List.takeWhile_append_dropWhile]
      · refine Said.cons (takeWhile_aux ts) ?_ h2 e3
        cases said with
        | nil => simp
        | cons x said =>
          have := dropWhile_aux ts
          rw [e2] at this
          simpa using this

theorem readLoop_pos : ∀ (rest : List Token) (pos : Nat), pos < (readLoop rest pos).2 := by
  intro rest
  induction rest with
  | nil => intro pos; simp [readLoop]
  | cons t rest ih =>
    intro pos
    rw [readLoop]
    split
    · have := ih (pos + 1); omega
    · simp

theorem read_pos {tokens : List Token} {pos pos' : Nat} {t : Option Token} (h : read tokens pos = (t, pos')) :
    pos < pos' := by
  have := readLoop_pos (tokens.drop pos) pos
  rw [read] at h; rw [h] at this; exact this

theorem auxiliaryLoop_pos (tokens : List Token) : ∀ (fuel pos : Nat) (buf s : Bytes) (pos' : Nat),
    auxiliaryLoop tokens fuel pos buf = .ok (s, pos') → pos ≤ pos' := by
  intro fuel
  induction fuel with
  | zero => intro pos buf s pos' h; simp [auxiliaryLoop] at h
  | succ fuel ih =>
    intro pos buf s pos' h
    rw [auxiliaryLoop] at h
    split at h
    · rename_i hr
      have := read_pos hr
      simp only [Go.ok.injEq, Prod.mk.injEq] at h; omega
    · rename_i hr
      have := read_pos hr
      rw [Go.bind_eq_ok] at h
      obtain ⟨⟨x, cat⟩, h1, h2⟩ := h
      simp only at h2
      split at h2
      · have := ih _ _ _ _ h2; omega
      · simp only [Go.pure_eq, Go.ok.injEq, Prod.mk.injEq] at h2; omega

theorem scanMorpheme_pos {tokens : List Token} {pos : Nat} {lastCat : Category} {sep s : Bytes} {pos' : Nat}
    {cat : Category} (h : scanMorpheme tokens pos lastCat = .ok (sep, s, pos', cat)) : pos < pos' := by
  rw [scanMorpheme] at h
  split at h
  · rename_i hr
    have := read_pos hr
    simp only [Go.ok.injEq, Prod.mk.injEq] at h; omega
  · rename_i hr
    have := read_pos hr
    rw [Go.bind_eq_ok] at h
    obtain ⟨⟨x, cat'⟩, h1, h2⟩ := h
    simp only [Go.bind_eq_ok] at h2
    obtain ⟨⟨y, q⟩, h3, h4⟩ := h2
    have := auxiliaryLoop_pos _ _ _ _ _ _ h3
    simp only [Go.pure_eq, Go.ok.injEq, Prod.mk.injEq] at h4; omega

theorem typewriteLoop_pos (tokens : List Token) : ∀ (fuel pos : Nat) (lastCat : Category) (out : Bytes) (pos' : Nat)
    (cat : Category), typewriteLoop tokens fuel pos lastCat = .ok (out, pos', cat) → pos < pos' := by
  intro fuel
  induction fuel with
  | zero => intro pos lastCat out pos' cat h; simp [typewriteLoop] at h
  | succ fuel ih =>
    intro pos lastCat out pos' cat h
    rw [typewriteLoop, Go.bind_eq_ok] at h
    obtain ⟨⟨sep, s, q, c⟩, h1, h2⟩ := h
    have := scanMorpheme_pos h1
    simp only at h2
    split at h2
    · simp only [Go.pure_eq, Go.ok.injEq, Prod.mk.injEq] at h2; omega
    · rw [Go.bind_eq_ok] at h2
      obtain ⟨⟨rest, q', c'⟩, h3, h4⟩ := h2
      have := ih _ _ _ _ _ h3
      simp only [Go.pure_eq, Go.ok.injEq, Prod.mk.injEq] at h4; omega

end Verif.Furigana
