import Verif.Proofs.BlindText
import Verif.Props.Words
import Verif.Props.Foreign

/-! Property C83: the kind of white space makes no difference. -/

namespace Verif.Props

open Verif.Specs Verif.Unicode Verif.Spec.Bundle Verif.Spec.Words Verif.Spec.Reference Verif.Words Verif.Blind

theorem tame_whites (b : UInt8) : tame b = if b ∈ whites then 0x20 else b := by
  have : ∀ n : Fin 256, tame (UInt8.ofNat n) = if UInt8.ofNat n ∈ whites then 0x20 else UInt8.ofNat n := by decide +kernel
  have h := this ⟨b.toNat, b.toNat_lt⟩
  simpa using h

theorem alike_tame {a b : UInt8} (h : Kindred a b) : tame a = tame b := by
  rcases h with rfl | ⟨ha, hb⟩
  · rfl
  · rw [tame_whites, tame_whites, if_pos ha, if_pos hb]

theorem alike_map {v w : Bytes} (h : List.Forall₂ Kindred v w) : v.map tame = w.map tame := by
  induction h with
  | nil => rfl
  | cons h _ ih => rw [List.map_cons, List.map_cons, alike_tame h, ih]

/-! ## Normalization -/

theorem keys_plain {normalize : List (Bytes × List Bytes)} {keys : List (Rune × List Rune)}
    (k1 : (normArgs normalize).mapM Case.keyOf = some keys) (k2 : Case.spaceless keys = true) : Plain (normArgs normalize) := by
  generalize normArgs normalize = ps at k1
  induction ps generalizing keys with
  | nil => exact fun _ h => absurd h (by simp)
  | cons a as ih =>
    rw [List.mapM_cons] at k1
    cases ha : Case.keyOf a with
    | none => simp [ha] at k1
    | some a' =>
      cases has : as.mapM Case.keyOf with
      | none => simp [ha, has] at k1
      | some as' =>
        simp [ha, has] at k1
        subst k1
        simp only [Case.spaceless, List.all_cons, Bool.and_eq_true, Bool.not_eq_true', List.all_eq_true] at k2
        obtain ⟨⟨k3, k4⟩, k5⟩ := k2
        obtain ⟨g1, g2, g3, _, g4⟩ := Case.keyOf_some ha
        intro p hp
        rcases List.mem_cons.1 hp with rfl | hp
        · have hv : validRune a'.1 = true := by
            have := runes_valid p.1
            rw [g1] at this
            exact this _ (by simp)
          constructor
          · simp only [blankless, List.all_eq_true, Bool.not_eq_true', ← g2]
            have := dense_bytes (rs := [a'.1]) (by simpa using hv) (by simpa using k3)
            simpa [encode_cons, encode_nil] using this
          · simp only [blankless, List.all_eq_true, Bool.not_eq_true']
            have := dense_bytes (runes_valid p.2) (by rw [g4]; exact k4)
            rwa [encode_runes g3] at this
        · exact ih (by simpa [Case.spaceless] using k5) has p hp

theorem normalized_tame (sp : Spec) (cs : List Rune) : normalized sp (cs.map tameR) = (normalized sp cs).map tameR := by
  unfold normalized
  rw [List.map_map, List.map_map]
  refine List.map_congr_left fun c _ => ?_
  have no : ∀ d, blank d = true → ¬ (sp.script.is d = true ∧ d ∉ sp.normLetters) := by
    rintro d hd ⟨h, _⟩
    have := (blank_space d hd).2
    rw [is_space h] at this
    contradiction
  simp only [Function.comp]
  cases hc : blank c with
  | true =>
    rw [if_neg (no c hc), if_neg (no _ (by rwa [tameR_blank]))]
  | false =>
    have e : tameR c = c := by rw [tameR, hc, if_neg (by simp)]
    rw [e]
    split
    next h =>
      have : blank (sp.script.normalize c) = false := by
        rw [Bool.eq_false_iff]
        intro hb
        have := (blank_space _ hb).2
        rw [is_space (C62_stays h.1)] at this
        contradiction
      rw [tameR, this, if_neg (by simp)]
    next => exact e.symm

/-- The letters after normalization. -/
theorem normal_tame {sp : Spec} (h : Loaded bundled sp) (w : Bytes) : normal sp (w.map tame) = (normal sp w).map tameR := by
  obtain ⟨⟨keys, k1, k2, k3, k4⟩, _⟩ := loaded_words h
  unfold normal
  rw [k4, k4, replace_tame (keys_plain k1 k2), runes_tame, normalized_tame, encode_tame, runes_tame]

theorem hangulize_tame {sp : Spec} (h : Loaded bundled sp) (hs : sp.lang.id ∉ spanning) {translits : List (Bytes × Translit)}
    {w w' v : Bytes} {evs evs' : List Trace} (h1 : Transliterated translits sp.lang.translit v evs w)
    (h2 : Transliterated translits sp.lang.translit (v.map tame) evs' w') (hw : w' = w.map tame) :
    hangulize sp translits (v.map tame) = hangulize sp translits v := by
  obtain ⟨_, _, _, _, r1, t1⟩ := loaded_checked h
  obtain ⟨_, hc, _⟩ := loaded_words h
  obtain ⟨_, _, hb⟩ := hc hs
  obtain ⟨x, hx⟩ := hangulize_ok h h1
  obtain ⟨y, hy⟩ := hangulize_ok h h2
  obtain ⟨w1, _, g1, g2⟩ := (hangulize_rest h).1 hx
  obtain ⟨w2, _, g3, g4⟩ := (hangulize_rest h).1 hy
  have e1 := transliterated_unique g1 h1
  have e2 := transliterated_unique g3 h2
  subst e1 e2 hw
  rw [normal_tame h] at g4
  rw [hx, hy, rest_tame r1 t1 (fun r hr => hb r (by simp [hr])) (fun r hr => hb r (by simp [hr])) (normal_valid _ _) g2 g4]

/-! ## Texts -/

/-- Translits which leave words as they are. -/
theorem echo_transliterated (w : Bytes) : ∀ (ss : List Bytes) (translits : List (Bytes × Translit)),
    (∀ s ∈ ss, translits.lookup s = some ⟨s, .ok⟩) → ∃ evs, Transliterated translits ss w evs w
  | [], _, _ => ⟨_, .done w⟩
  | s :: ss, translits, h => by
    obtain ⟨evs, he⟩ := echo_transliterated w ss translits fun s hs => h s (by simp [hs])
    exact ⟨_, .scheme (h s (by simp)) rfl he⟩

/-- C83 for any translits, as those of Japanese: texts of which the transliterations differ in the kind of white space have the
same result. -/
theorem C83_after {sp : Spec} (h : Loaded bundled sp) (hs : sp.lang.id ∉ spanning) {translits : List (Bytes × Translit)}
    {v w a b : Bytes} {evs evs' : List Trace} (hv : Transliterated translits sp.lang.translit v evs a)
    (hw : Transliterated translits sp.lang.translit w evs' b) (hk : List.Forall₂ Kindred a b) :
    hangulize sp translits v = hangulize sp translits w := by
  obtain ⟨echo, he⟩ : ∃ echo : List (Bytes × Translit), ∀ s ∈ sp.lang.translit, echo.lookup s = some ⟨s, .ok⟩ := by
    generalize sp.lang.translit = ss
    induction ss with
    | nil => exact ⟨[], by simp⟩
    | cons s ss ih =>
      obtain ⟨echo, he⟩ := ih
      refine ⟨(s, ⟨s, .ok⟩) :: echo, fun t ht => ?_⟩
      rw [List.lookup_cons]
      split
      · rename_i e
        rw [beq_iff_eq.1 e]
      · rename_i e
        rcases List.mem_cons.1 ht with rfl | ht
        · simp at e
        · exact he t ht
  have same : ∀ {v a : Bytes} {evs : List Trace}, Transliterated translits sp.lang.translit v evs a →
      hangulize sp translits v = hangulize sp echo a := by
    intro v a evs hv
    obtain ⟨evs', hv'⟩ := echo_transliterated a _ _ he
    obtain ⟨x, hx⟩ := hangulize_ok h hv
    obtain ⟨w1, _, g1, g2⟩ := (hangulize_rest h).1 hx
    cases transliterated_unique hv g1
    rw [hx, (hangulize_rest h).2 ⟨_, _, hv', g2⟩]
  have key : ∀ a, hangulize sp echo (a.map tame) = hangulize sp echo a := fun a => by
    obtain ⟨e1, h1⟩ := echo_transliterated a _ _ he
    obtain ⟨e2, h2⟩ := echo_transliterated (a.map tame) _ _ he
    exact hangulize_tame h hs h1 h2 rfl
  rw [same hv, same hw, ← key a, ← key b, alike_map hk]

/-- C83: in most bundled languages without translit, texts which differ in the kind of white space have the same result,
whatever the translits. -/
theorem C83_kinds {sp : Spec} (h : Loaded bundled sp) (hs : sp.lang.id ∉ spanning) (hn : sp.lang.translit = [])
    (translits : List (Bytes × Translit)) {v w : Bytes} (hv : List.Forall₂ Kindred v w) :
    hangulize sp translits v = hangulize sp translits w := by
  have key : ∀ v, hangulize sp translits (v.map tame) = hangulize sp translits v := fun v =>
    hangulize_tame h hs (evs := []) (evs' := []) (w := v) (w' := v.map tame) (by rw [hn]; exact .done _) (by rw [hn]; exact .done _) rfl
  rw [← key v, ← key w, alike_map hv]

/-- C83 for the Cyrillic languages: in whatever order the mapping of the translit is visited. -/
theorem C83_cyrillic {sp : Spec} (h : Loaded bundled sp) (hs : sp.lang.id ∉ spanning) {country : String × String}
    (hc : country ∈ Spec.Cyrillic.alphabets) {s : Bytes} (hn : sp.lang.translit = [s]) {l : Libraries}
    (hl : ∀ m, (l.visit m).Perm m) {translits : List (Bytes × Translit)}
    (ht : translits.lookup s = some (cyrillic l country.1 (Cyrillic.mapping country.1))) {v w : Bytes}
    (hv : List.Forall₂ Kindred v w) : hangulize sp translits v = hangulize sp translits w := by
  have hp : ∀ c ∈ Spec.Cyrillic.alphabets, ∀ p ∈ Cyrillic.pairs (Cyrillic.mapping c.1), blankless p.1 = true ∧ blankless p.2 = true := by
    decide +kernel
  have hk : Plain (l.visit (Cyrillic.pairs (Cyrillic.mapping country.1))) := fun p h => hp _ hc p ((hl _).mem_iff.1 h)
  have tr : ∀ w, ∃ evs, Transliterated translits sp.lang.translit w evs
      (Cyrillic.transliterate (l.visit (Cyrillic.pairs (Cyrillic.mapping country.1))) w) := fun w => by
    rw [hn]
    exact ⟨_, .scheme ht (w' := Cyrillic.transliterate (l.visit (Cyrillic.pairs (Cyrillic.mapping country.1))) w) rfl (.done _)⟩
  have key : ∀ v, hangulize sp translits (v.map tame) = hangulize sp translits v := fun v => by
    obtain ⟨e1, h1⟩ := tr v
    obtain ⟨e2, h2⟩ := tr (v.map tame)
    exact hangulize_tame h hs h1 h2 (replace_tame hk v)
  rw [← key v, ← key w, alike_map hv]

theorem cutWhite_tame : ∀ (w : Bytes), cut (w.map tame) = cutWhite w
  | [] => rfl
  | b :: t => by
    rw [List.map_cons, cut, cutWhite, cutWhite_tame t, tame_whites]
    split
    next h => simp
    next h =>
      have : b ≠ 0x20 := fun e => h (by rw [e]; decide)
      rw [if_neg this]

/-- C81 with C83: in most bundled languages without translit, the words of the result are the results for the words of the
text, without empty ones, whichever the white space of ASCII between them. -/
theorem C83_text {sp : Spec} (h : Loaded bundled sp) (hs : sp.lang.id ∉ spanning) (hn : sp.lang.translit = [])
    (translits : List (Bytes × Translit)) {text : Bytes} (hv : ValidUtf8 text)
    (hw : ∀ c ∈ runes text, isSpace c = true → ∃ b ∈ whites, c = b.toNat) :
    ∃ xs out, List.Forall₂ (fun w x => hangulize sp translits w = .ok x) (cutWhite text) xs ∧
      hangulize sp translits text = .ok out ∧ fields out = xs.filter (· ≠ []) := by
  have he : hangulize sp translits (text.map tame) = hangulize sp translits text :=
    hangulize_tame h hs (evs := []) (evs' := []) (w := text) (w' := text.map tame) (by rw [hn]; exact .done _) (by rw [hn]; exact .done _) rfl
  rw [← he, ← cutWhite_tame]
  refine C81_text h hs hn translits (by rw [← encode_runes hv, ← encode_tame]; exact encode_validUtf8 _) ?_
  rw [runes_tame]
  intro c hc hx
  obtain ⟨d, hd, rfl⟩ := List.mem_map.1 hc
  rw [tameR_space] at hx
  obtain ⟨b, hb, rfl⟩ := hw d hd hx
  rw [← tame_toNat, tame_whites, if_pos hb]
  rfl

/-- The hypotheses of C83 are met, for instance by the Italian spec and the texts `dolce vita` with a space or a tab. -/
example : ∃ sp : Spec, Loaded bundled sp ∧ sp.lang.id ∉ spanning ∧ sp.lang.translit = [] ∧
    List.Forall₂ Kindred (str "dolce\tvita\r\n") (str "dolce vita  ") ∧
    cutWhite (str "dolce\tvita\r\n") = [str "dolce", str "vita", [], []] := by
  have ok : Ord.written.Ok := ⟨fun _ _ _ _ => .refl _, fun _ => .refl _⟩
  obtain ⟨src, hs⟩ := Option.isSome_iff_exists.1 (show (bundled (str "ita")).isSome = true by decide +kernel)
  obtain ⟨la, hm, hsd⟩ := bundled_sound hs
  obtain ⟨sp, h1, h2, _⟩ := hsd .written ok
  have ht : ∀ x ∈ table, x.1 = str "ita" → x.2.2.translit = [] ∧ x.2.2.id = str "ita" := by decide +kernel
  obtain ⟨t1, t2⟩ := ht _ hm rfl
  refine ⟨sp, ⟨_, _, _, hs, ok, h1⟩, by rw [h2, t2]; decide +kernel, by rw [h2]; exact t1, ?_, by decide +kernel⟩
  unfold Kindred
  decide +kernel

/-- The hypotheses of `C83_after` are met, for instance by the Japanese spec and すし twice with a space or a tab between, unknown to
the tokenizer. -/
example : ∃ sp : Spec, Loaded bundled sp ∧ sp.lang.translit = [str "furigana"] ∧
    hangulize sp [(str "furigana", furigana plain)] (str "すし\tすし") = hangulize sp [(str "furigana", furigana plain)] (str "すし すし") := by
  have ok : Ord.written.Ok := ⟨fun _ _ _ _ => .refl _, fun _ => .refl _⟩
  obtain ⟨src, hs⟩ := Option.isSome_iff_exists.1 (show (bundled (str "jpn")).isSome = true by decide +kernel)
  obtain ⟨la, hm, hsd⟩ := bundled_sound hs
  obtain ⟨sp, h1, h2, _⟩ := hsd .written ok
  have ht : ∀ x ∈ table, x.1 = str "jpn" → x.2.2.translit = [str "furigana"] ∧ x.2.2.id ∉ spanning := by decide +kernel
  obtain ⟨t1, t2⟩ := ht _ hm rfl
  have hl : Loaded bundled sp := ⟨_, _, _, hs, ok, h1⟩
  have hn : sp.lang.translit = [str "furigana"] := by rw [h2]; exact t1
  have tr : ∀ w w', (furigana plain).transliterate w = .ok w' →
      Transliterated [(str "furigana", furigana plain)] sp.lang.translit w _ w' := fun w w' hw => by
    rw [hn]
    exact .scheme (t := furigana plain) rfl hw (.done _)
  refine ⟨sp, hl, hn, C83_after hl (by rw [h2]; exact t2) (tr _ (str "すし\tすし") (by decide +kernel)) (tr _ (str "すし すし") (by decide +kernel)) ?_⟩
  unfold Kindred
  decide +kernel

/-! ## Where the kind of white space makes a difference -/

/-- Some lines of specs/ita.hsl. -/
def itaEdges : Bytes := str "lang:
    id      = \"ita\"
    codes   = \"it\", \"ita\"
    english = \"Italian\"
    korean  = \"이탈리아어\"
    script  = \"Latn\"

transcribe:
    \"^l\" -> \"ㄹ\"
    \"l\"  -> \"-ㄹㄹ\"
    \"n\"  -> \"ㄴ\"
    \"a\"  -> \"ㅏ\"
    \"u\"  -> \"ㅜ\"
"

/-- C83 fails for white space which regular expressions do not know, such as the no-break space: no word begins after it,
although it is white space and becomes a space. -/
theorem C83_refuted : ∃ sp, parseSpec .written itaEdges = .ok sp ∧ isSpace 0xA0 = true ∧ isSpace 0x0B = true ∧
    hangulize sp [] (str "la luna") = .ok (str "라 루나") ∧ hangulize sp [] (str "la\tluna") = .ok (str "라 루나") ∧
    hangulize sp [] (str "la\u00a0luna") = .ok (str "라 을루나") ∧ hangulize sp [] (str "la\x0bluna") = .ok (str "라 을루나") := by
  have h : ((parseSpec .written itaEdges).bind fun sp => (hangulize sp [] (str "la luna")).bind fun a =>
      (hangulize sp [] (str "la\tluna")).bind fun b => (hangulize sp [] (str "la\u00a0luna")).bind fun c =>
      (hangulize sp [] (str "la\x0bluna")).bind fun d =>
      .ok (a, b, c, d)) = .ok (str "라 루나", str "라 루나", str "라 을루나", str "라 을루나") := by
    decide +kernel
  simp only [Rx.go_bind_ok] at h
  obtain ⟨sp, h1, a, h2, b, h3, c, h4, d, h5, h6⟩ := h
  simp only [Go.ok.injEq, Prod.mk.injEq] at h6
  obtain ⟨rfl, rfl, rfl, rfl⟩ := h6
  exact ⟨sp, h1, by decide +kernel, by decide +kernel, h2, h3, h4, h5⟩

/-- Some lines of specs/cym.hsl. -/
def cymLines : Bytes := str "lang:
    id      = \"cym\"
    codes   = \"cy\", \"cym\"
    english = \"Welsh\"
    korean  = \"웨일스어\"
    script  = \"Latn\"

rewrite:
    \"n nh\" -> \"n h\"

transcribe:
    \"n\" -> \"ㄴ\"
    \"h\" -> \"ㅎ\"
    \"a\" -> \"ㅏ\"
"

/-- C83 fails where rules contain spaces. -/
theorem C83_spanning : ∃ sp, parseSpec .written cymLines = .ok sp ∧ sp.lang.id ∈ spanning ∧
    hangulize sp [] (str "an nha") = .ok (str "아느 하") ∧ hangulize sp [] (str "an\tnha") = .ok (str "아느 느하") := by
  have h : ((parseSpec .written cymLines).bind fun sp => (hangulize sp [] (str "an nha")).bind fun a =>
      (hangulize sp [] (str "an\tnha")).bind fun b =>
      .ok (sp.lang.id, a, b)) = .ok (str "cym", str "아느 하", str "아느 느하") := by
    decide +kernel
  simp only [Rx.go_bind_ok] at h
  obtain ⟨sp, h1, a, h2, b, h3, h4⟩ := h
  simp only [Go.ok.injEq, Prod.mk.injEq] at h4
  obtain ⟨h5, rfl, rfl⟩ := h4
  exact ⟨sp, h1, by rw [h5]; decide +kernel, h2, h3⟩

end Verif.Props
