import Verif.Spec.Wordwise
import Verif.Proofs.WordWhole
import Verif.Proofs.WordReplace
import Verif.Props.Case
import Verif.Props.Cyrillic
import Verif.Props.Output

/-! Property C81: words are hangulized one by one. -/

namespace Verif.Props

open Verif.Specs Verif.Unicode Verif.Spec.Bundle Verif.Spec.Words Verif.Spec.Reference Verif.Words

/-! ## Normalization -/

/-- The facts about a bundled spec. -/
theorem loaded_words {sp : Spec} (h : Loaded bundled sp) : (∃ keys,
    (normArgs sp.normalize).mapM Case.keyOf = some keys ∧ Case.spaceless keys = true ∧
    sp.normLetters = Case.keptOf sp.normalize ∧
    ∀ w, replacePairs sp.normPairs w = replacePairs (normArgs sp.normalize) w) ∧
    (sp.lang.id ∉ spanning → (∀ r ∈ sp.rewrite, wordCheck .rewrite r = true) ∧
      (∀ r ∈ sp.transcribe, wordCheck .transcribe r = true) ∧ ∀ r ∈ sp.rewrite ++ sp.transcribe, Blind.blindCheck r = true) ∧
    (sp.script = .hrkt → sp.lang.translit = [str "furigana"]) := by
  obtain ⟨keys', k1', _, k3', k4'⟩ := loaded_case h
  obtain ⟨lang, src, o, h1, h2, h3⟩ := h
  obtain ⟨l, hm, hs⟩ := bundled_sound h1
  obtain ⟨sp', e1, e2, e3, _, _, _, _, _, _, ⟨keys, k1, _, _, k2, _⟩, e4, _⟩ := hs o h2
  rw [h3] at e1
  simp only [Go.ok.injEq] at e1
  subst e1
  refine ⟨⟨keys, k1, k2, k3', k4'⟩, fun hi => e4 (by rwa [e2] at hi), fun hk => ?_⟩
  have key : ∀ x ∈ table, getScript x.2.2.script = some .hrkt → x.2.2.translit = [str "furigana"] := by decide +kernel
  rw [e2]
  exact key _ hm (by rw [← hk]; exact e3)

/-- Letters are not white space. -/
theorem is_space {sc : Script} {c : Rune} (h : sc.is c = true) : isSpace c = false := by
  rw [Bool.eq_false_iff]
  intro hc
  have key : ∀ t, tablesDisjoint spaceTable t = true → inTable t c = false := fun t ht => not_inTable ht hc
  cases sc with
  | latn =>
    rw [Script.is, key _ (by decide +kernel)] at h
    simp at h
  | cyrl =>
    simp only [Script.is, isMark, Bool.or_eq_true] at h
    rw [key _ (by decide +kernel), key _ (by decide +kernel)] at h
    simp at h
  | geor =>
    rw [Script.is, key _ (by decide +kernel)] at h
    simp at h
  | grek =>
    rw [Script.is, key _ (by decide +kernel)] at h
    simp at h
  | hrkt =>
    simp only [Script.is, Bool.or_eq_true, beq_iff_eq] at h
    rw [key _ (by decide +kernel), key _ (by decide +kernel)] at h
    rcases h with (h | h) | h
    · subst h
      exact absurd hc (by decide +kernel)
    · simp at h
    · simp at h

theorem turned_dense {sc : Script} {keys : List (Rune × List Rune)} (hk : Case.spaceless keys = true) (kept : List Rune)
    {c : Rune} (hc : isSpace c = false) : Dense (Case.turned sc keys kept c) := by
  have h1 : Dense (keys.foldr (fun p r => cond (Nat.beq p.1 c) p.2 r) [c]) := by
    induction keys with
    | nil => intro d hd; rw [List.foldr_nil, List.mem_singleton] at hd; rw [hd]; exact hc
    | cons k keys ih =>
      simp only [Case.spaceless, List.all_cons, Bool.and_eq_true] at hk
      simp only [List.foldr_cons]
      cases hb : Nat.beq k.1 c with
      | false => exact ih (by simpa [Case.spaceless] using hk.2)
      | true =>
        intro d hd
        have := List.all_eq_true.1 hk.1.2 d hd
        simpa using this
  intro d hd
  simp only [Case.turned, List.mem_map] at hd
  obtain ⟨e, he, rfl⟩ := hd
  cases hb : kept.any (Nat.beq e) || !sc.is e with
  | true => exact h1 e he
  | false =>
    simp only [Bool.or_eq_false_iff, Bool.not_eq_false'] at hb
    exact is_space (C62_stays hb.2)

theorem turned_gap {sc : Script} {keys : List (Rune × List Rune)} (hk : Case.spaceless keys = true) (kept : List Rune) :
    Case.turned sc keys kept 0x20 = [0x20] := by
  have h1 : keys.foldr (fun p r => cond (Nat.beq p.1 0x20) p.2 r) [0x20] = [0x20] := by
    induction keys with
    | nil => rfl
    | cons k keys ih =>
      simp only [Case.spaceless, List.all_cons, Bool.and_eq_true, Bool.not_eq_true'] at hk
      simp only [List.foldr_cons]
      have : Nat.beq k.1 0x20 = false := by
        rw [Bool.eq_false_iff]
        intro hb
        rw [Nat.beq_eq] at hb
        rw [hb] at hk
        exact absurd hk.1.1 (by decide +kernel)
      rw [this, cond_false]
      exact ih (by simpa [Case.spaceless] using hk.2)
  rw [Case.turned, h1]
  simp [(marks_script sc).2]

/-- The letters after normalization. -/
noncomputable def normal (sp : Spec) (w : Bytes) : List Rune := runes (encode (normalized sp (runes (replacePairs sp.normPairs w))))

theorem normal_eq (sp : Spec) (w : Bytes) : normal sp w = runes (normalizeScript sp (normalizeSpec sp w)) := by
  rw [normalizeScript_normalized]
  rfl

theorem normal_both {sp : Spec} (h : Loaded bundled sp) (x y : Bytes) :
    normal sp (x ++ 0x20 :: y) = normal sp x ++ 0x20 :: normal sp y := by
  obtain ⟨⟨keys, k1, k2, k3, k4⟩, _⟩ := loaded_words h
  have := normalize_around k1 k3 k4 (c := 0x20) (by decide) x y
  rw [turned_gap k2, show encodeRune 0x20 = [0x20] from by decide, List.append_assoc] at this
  rw [normal_eq, normal_eq, normal_eq, ← runes_both]
  exact congrArg runes this

theorem normal_dense {sp : Spec} (h : Loaded bundled sp) {w : Bytes} (hw : Word w) : Dense (normal sp w) := by
  obtain ⟨⟨keys, k1, k2, k3, k4⟩, _⟩ := loaded_words h
  have n : normalizeScript sp (normalizeSpec sp []) = [] := by
    unfold normalizeSpec normalizeScript
    rw [k4, replacePairs, Case.replace_nil (Case.keys_of k1)]
    rfl
  have key : ∀ cs : List Rune, (∀ c ∈ cs, validRune c = true) → Dense cs →
      ∃ ds, (∀ d ∈ ds, validRune d = true) ∧ Dense ds ∧ normalizeScript sp (normalizeSpec sp (encode cs)) = encode ds := by
    intro cs
    induction cs with
    | nil => exact fun _ _ => ⟨[], by simp, .nil, n⟩
    | cons c cs ih =>
      intro hv hd
      obtain ⟨ds, h1, h2, h3⟩ := ih (fun d hd' => hv d (by simp [hd'])) fun d hd' => hd d (by simp [hd'])
      have hc := hv c (by simp)
      have := normalize_around k1 k3 k4 hc [] (encode cs)
      rw [n, List.nil_append, List.nil_append, ← encode_cons, h3, ← encode_append] at this
      refine ⟨_, ?_, Dense.append (turned_dense k2 _ (hd c (by simp))) h2, this⟩
      intro d hd'
      rcases List.mem_append.1 hd' with hd' | hd'
      · exact turned_valid k1 hc d hd'
      · exact h1 d hd'
  obtain ⟨ds, h1, h2, h3⟩ := key (runes w) (runes_valid w) hw.2
  rw [encode_runes hw.1] at h3
  rw [normal_eq, h3, runes_encode h1]
  exact h2

theorem normal_valid (sp : Spec) (w : Bytes) : ∀ c ∈ normal sp w, validRune c = true := runes_valid _

/-! ## C81 -/

theorem transliterated_unique {translits : List (Bytes × Translit)} {ss : List Bytes} {w a b : Bytes} {e e' : List Trace}
    (ha : Transliterated translits ss w e a) (hb : Transliterated translits ss w e' b) : a = b := by
  induction ha generalizing e' with
  | done w => cases hb; rfl
  | scheme found ok rest ih =>
    cases hb with
    | scheme found' ok' rest' =>
      rw [found] at found'
      cases found'
      rw [ok] at ok'
      cases ok'
      exact ih rest'

theorem hangulize_rest {sp : Spec} (h : Loaded bundled sp) {translits : List (Bytes × Translit)} {word out : Bytes} :
    hangulize sp translits word = .ok out ↔
      ∃ w evs, Transliterated translits sp.lang.translit word evs w ∧ Rest sp (normal sp w) out := by
  obtain ⟨o, src, _, hp, _, _⟩ := loaded_checked h
  unfold hangulize
  rw [C59_reference hp]
  constructor
  · rintro ⟨_, w, evs1, rows, rows', rewritten, transcribed, composed, ht, e1, e2, e3, e4, _⟩
    exact ⟨w, evs1, ht, rows, rows', rewritten, transcribed, composed, e1, e2, e3, e4⟩
  · rintro ⟨w, evs1, ht, rows, rows', rewritten, transcribed, composed, e1, e2, e3, e4⟩
    exact ⟨_, w, evs1, rows, rows', rewritten, transcribed, composed, ht, e1, e2, e3, e4, rfl⟩

/-- A text which can be transliterated can be hangulized. -/
theorem hangulize_ok {sp : Spec} (h : Loaded bundled sp) {translits : List (Bytes × Translit)} {word w : Bytes} {evs : List Trace}
    (ht : Transliterated translits sp.lang.translit word evs w) : ∃ out, hangulize sp translits word = .ok out := by
  obtain ⟨o, src, _, hp, h1, h2⟩ := loaded_checked h
  refine C64_runs hp (fun r hr => ?_) translits word none (w := w) ?_
  · rcases List.mem_append.1 hr with hr | hr
    · exact bundleCheck_checked (h1 r hr)
    · exact bundleCheck_checked (h2 r hr)
  · rw [transliterateLoop_eq, (transliterateRun_iff _ _ _ _ _).2 ht]

/-- C81: in most bundled languages a first word and what follows it are hangulized one by one, with a space between
them; only if what follows begins with a space in the result, no other one is added. -/
theorem C81_two {sp : Spec} (h : Loaded bundled sp) (hs : sp.lang.id ∉ spanning) {translits : List (Bytes × Translit)}
    (ht : Wordwise translits sp.lang.translit) {a b x y : Bytes} (ha : Word a) (hx : hangulize sp translits a = .ok x)
    (hy : hangulize sp translits b = .ok y) :
    hangulize sp translits (a ++ 0x20 :: b) = .ok (x ++ 0x20 :: y) ∨
      ((∃ y', y = 0x20 :: y') ∧ hangulize sp translits (a ++ 0x20 :: b) = .ok (x ++ y)) := by
  obtain ⟨_, _, _, _, r1, t1⟩ := loaded_checked h
  obtain ⟨_, hw, _⟩ := loaded_words h
  obtain ⟨r2, t2, _⟩ := hw hs
  obtain ⟨a', e1, h1, h2⟩ := (hangulize_rest h).1 hx
  obtain ⟨b', e2, h3, h4⟩ := (hangulize_rest h).1 hy
  obtain ⟨h5, e3, h6⟩ := ht ha h1 h3
  obtain ⟨z, hz⟩ := hangulize_ok h h6
  obtain ⟨c', e4, h7, h8⟩ := (hangulize_rest h).1 hz
  have := transliterated_unique h7 h6
  subst this
  rw [normal_both h] at h8
  rw [hz]
  rcases rest_both r1 t1 r2 t2 (normal_valid _ _) (normal_dense h h5) (normal_valid _ _) h2 h4 h8 with e | ⟨e, e'⟩
  · exact .inl (by rw [e])
  · exact .inr ⟨e, by rw [e']⟩

/-- C81: in most bundled languages the result for a word has no spaces. -/
theorem C81_spaceless {sp : Spec} (h : Loaded bundled sp) (hs : sp.lang.id ∉ spanning) (hk : sp.script ≠ .hrkt)
    {translits : List (Bytes × Translit)} (ht : Wordwise translits sp.lang.translit) {a x : Bytes} (ha : Word a)
    (hx : hangulize sp translits a = .ok x) : 0x20 ∉ x := by
  obtain ⟨_, _, _, _, r1, t1⟩ := loaded_checked h
  obtain ⟨_, hw, _⟩ := loaded_words h
  obtain ⟨r2, _⟩ := hw hs
  obtain ⟨a', e1, h1, h2⟩ := (hangulize_rest h).1 hx
  obtain ⟨h5, _⟩ := ht ha h1 h1
  obtain ⟨_, _, _, _, _, _, k⟩ := rest_stages r1 t1 (normal_valid _ _) h2
  exact (k r2 (normal_dense h h5)).2.2 hk

/-- C81: in most bundled languages words are hangulized one by one, unless one of them has an empty result. -/
theorem C81_words {sp : Spec} (h : Loaded bundled sp) (hs : sp.lang.id ∉ spanning) (hk : sp.script ≠ .hrkt)
    {translits : List (Bytes × Translit)} (ht : Wordwise translits sp.lang.translit) (f : Bytes → Bytes) :
    ∀ (ws : List Bytes), ws ≠ [] → (∀ w ∈ ws, Word w ∧ hangulize sp translits w = .ok (f w) ∧ f w ≠ []) →
      hangulize sp translits (join [0x20] ws) = .ok (join [0x20] (ws.map f))
  | [], hn, _ => absurd rfl hn
  | [w], _, hw => (hw w (by simp)).2.1
  | w :: v :: ws, _, hw => by
    have ih := C81_words h hs hk ht f (v :: ws) (by simp) fun u hu => hw u (by simp [hu])
    obtain ⟨w1, w2, _⟩ := hw w (by simp)
    obtain ⟨v1, v2, v3⟩ := hw v (by simp)
    have hj : ∀ (a b : Bytes) (l : List Bytes), join [0x20] (a :: b :: l) = a ++ 0x20 :: join [0x20] (b :: l) := by
      intro a b l
      simp [join]
    rw [hj, List.map_cons, List.map_cons, hj, ← List.map_cons]
    rcases C81_two h hs ht w1 w2 ih with e | ⟨⟨y, e⟩, _⟩
    · exact e
    · exfalso
      have hv := C81_spaceless h hs hk ht v1 v2
      cases hf : f v with
      | nil => exact v3 hf
      | cons b t =>
        rw [hf] at hv
        have : ∃ t', join [0x20] ((v :: ws).map f) = b :: t' := by
          cases ws with
          | nil => exact ⟨t, by simp [join, hf]⟩
          | cons u ws => exact ⟨_, by rw [List.map_cons, List.map_cons, hj, hf, List.cons_append]⟩
        obtain ⟨t', ht'⟩ := this
        rw [ht'] at e
        simp only [List.cons.injEq] at e
        rw [e.1] at hv
        simp at hv

theorem cut_ne_nil : ∀ w : Bytes, cut w ≠ []
  | [] => by simp [cut]
  | b :: t => by
    rw [cut]
    split
    · simp
    · split <;> simp

theorem cut_append {y : Bytes} : ∀ {x : Bytes}, 0x20 ∉ x → cut (x ++ 0x20 :: y) = x :: cut y
  | [], _ => by simp [cut]
  | b :: t, h => by
    have hb : b ≠ 0x20 := fun e => h (by simp [e])
    rw [List.cons_append, cut, if_neg hb, cut_append fun h' => h (by simp [h'])]

theorem cut_single : ∀ {x : Bytes}, 0x20 ∉ x → cut x = [x]
  | [], _ => rfl
  | b :: t, h => by
    have hb : b ≠ 0x20 := fun e => h (by simp [e])
    rw [cut, if_neg hb, cut_single fun h' => h (by simp [h'])]

theorem join_cut : ∀ w : Bytes, join [0x20] (cut w) = w
  | [] => rfl
  | b :: t => by
    have ih := join_cut t
    rw [cut]
    split
    next hb =>
      subst hb
      cases hc : cut t with
      | nil => exact absurd hc (cut_ne_nil t)
      | cons x xs =>
        rw [hc] at ih
        rw [show join [0x20] ([] :: x :: xs) = 0x20 :: join [0x20] (x :: xs) from by simp [join], ih]
    next =>
      cases hc : cut t with
      | nil => exact absurd hc (cut_ne_nil t)
      | cons x xs =>
        rw [hc] at ih
        cases xs with
        | nil => simpa [join] using ih
        | cons y ys => simp only [join] at ih ⊢; simp [← ih]

theorem cut_before {t x : Bytes} {xs : List Bytes} (h : cut t = x :: xs) : ∀ {p : Bytes}, 0x20 ∉ p → cut (p ++ t) = (p ++ x) :: xs
  | [], _ => h
  | b :: p, hp => by
    have hb : b ≠ 0x20 := fun e => hp (by simp [e])
    rw [List.cons_append, cut, if_neg hb, cut_before h fun h' => hp (by simp [h'])]
    rfl

/-- The parts of a text are texts. -/
theorem cut_encode : ∀ {cs : List Rune}, (∀ c ∈ cs, validRune c = true) → ∀ w ∈ cut (encode cs), ∃ ds, w = encode ds ∧
    ∀ d ∈ ds, d ∈ cs ∧ d ≠ 0x20
  | [], _, w, hw => ⟨[], by simpa [cut] using hw, by simp⟩
  | c :: cs, hv, w, hw => by
    have ih := cut_encode (cs := cs) fun d hd => hv d (by simp [hd])
    rw [encode_cons] at hw
    by_cases hc : c = 0x20
    · subst hc
      rw [show encodeRune 0x20 = [0x20] from by decide, List.singleton_append, cut, if_pos rfl] at hw
      rcases List.mem_cons.1 hw with rfl | hw
      · exact ⟨[], rfl, by simp⟩
      · obtain ⟨ds, e, h⟩ := ih w hw
        exact ⟨ds, e, fun d hd => ⟨by simp [(h d hd).1], (h d hd).2⟩⟩
    · have hb : (0x20 : UInt8) ∉ encodeRune c := fun h => hc (encodeRune_ascii (hv c (by simp)) h (by decide)).symm
      cases hx : cut (encode cs) with
      | nil => exact absurd hx (cut_ne_nil _)
      | cons x xs =>
        rw [cut_before hx hb] at hw
        rcases List.mem_cons.1 hw with rfl | hw
        · obtain ⟨ds, e, h⟩ := ih x (by rw [hx]; simp)
          refine ⟨c :: ds, by rw [encode_cons, e], fun d hd => ?_⟩
          rcases List.mem_cons.1 hd with rfl | hd
          · exact ⟨by simp, hc⟩
          · exact ⟨by simp [(h d hd).1], (h d hd).2⟩
        · obtain ⟨ds, e, h⟩ := ih w (by rw [hx]; simp [hw])
          exact ⟨ds, e, fun d hd => ⟨by simp [(h d hd).1], (h d hd).2⟩⟩

theorem cut_words {text : Bytes} (hv : ValidUtf8 text) (hw : ∀ c ∈ runes text, isSpace c = true → c = 0x20) :
    ∀ w ∈ cut text, Word w := by
  intro w h
  rw [← encode_runes hv] at h
  obtain ⟨ds, rfl, hd⟩ := cut_encode (runes_valid text) w h
  refine ⟨encode_validUtf8 _, fun c hc => ?_⟩
  rw [runes_encode fun d h => runes_valid text d (hd d h).1] at hc
  rw [Bool.eq_false_iff]
  exact fun h => (hd c hc).2 (hw c (hd c hc).1 h)

/-- C81: in most bundled languages the words of the result are the results for the words, without empty ones, whichever the
number of spaces between them. -/
theorem C81_fields {sp : Spec} (h : Loaded bundled sp) (hs : sp.lang.id ∉ spanning) (hk : sp.script ≠ .hrkt)
    {translits : List (Bytes × Translit)} (ht : Wordwise translits sp.lang.translit) {text : Bytes} {xs : List Bytes}
    (hw : ∀ w ∈ cut text, Word w) (hx : List.Forall₂ (fun w x => hangulize sp translits w = .ok x) (cut text) xs) :
    ∃ out, hangulize sp translits text = .ok out ∧ fields out = xs.filter (· ≠ []) := by
  have key : ∀ (ws xs : List Bytes), ws ≠ [] → (∀ w ∈ ws, Word w) → List.Forall₂ (fun w x => hangulize sp translits w = .ok x) ws xs →
      ∃ out, hangulize sp translits (join [0x20] ws) = .ok out ∧ fields out = xs.filter (· ≠ []) := by
    intro ws
    induction ws with
    | nil => exact fun _ h => absurd rfl h
    | cons w ws ih =>
      intro xs _ hw hx
      cases hx with
      | cons h1 h2 =>
        rename_i x xs
        have sx := C81_spaceless h hs hk ht (hw w (by simp)) h1
        cases ws with
        | nil =>
          cases h2
          exact ⟨x, h1, by rw [fields, cut_single sx]⟩
        | cons v ws =>
          obtain ⟨out, e1, e2⟩ := ih xs (by simp) (fun u hu => hw u (by simp [hu])) h2
          have hj : join [0x20] (w :: v :: ws) = w ++ 0x20 :: join [0x20] (v :: ws) := by simp [join]
          rw [hj]
          rcases C81_two h hs ht (hw w (by simp)) h1 e1 with e | ⟨⟨y, rfl⟩, e⟩
          · refine ⟨_, e, ?_⟩
            rw [fields, cut_append sx, List.filter_cons, List.filter_cons, ← e2]
            rfl
          · refine ⟨_, e, ?_⟩
            rw [fields, cut_append sx, List.filter_cons, List.filter_cons, ← e2]
            rfl
  have := key (cut text) xs (cut_ne_nil _) hw hx
  rwa [join_cut] at this

/-! ## Languages without translit and Cyrillic languages -/

theorem wordwise_nil (translits : List (Bytes × Translit)) : Wordwise translits [] := by
  intro a b a' b' evs evs' ha h1 h2
  cases h1
  cases h2
  exact ⟨ha, [], .done _⟩

/-- The Cyrillic translits go word by word, in whatever order the mapping is visited. -/
theorem wordwise_cyrillic {country : String × String} (hc : country ∈ Spec.Cyrillic.alphabets) {l : Libraries}
    (hl : ∀ m, (l.visit m).Perm m) {translits : List (Bytes × Translit)} {s : Bytes}
    (hs : translits.lookup s = some (cyrillic l country.1 (Cyrillic.mapping country.1))) : Wordwise translits [s] := by
  have key : ∀ c ∈ Spec.Cyrillic.alphabets, ∀ p ∈ Cyrillic.pairs (Cyrillic.mapping c.1), p.1 ≠ [] ∧ 0x20 ∉ p.1 ∧
      encode (runes p.1) = p.1 ∧ encode (runes p.2) = p.2 ∧ ∀ d ∈ runes p.2, isSpace d = false := by decide +kernel
  have hk : Texts (l.visit (Cyrillic.pairs (Cyrillic.mapping country.1))) := by
    intro p hp
    obtain ⟨k1, k2, k3, k4, _⟩ := key _ hc p ((hl _).mem_iff.1 hp)
    exact ⟨k1, k2, (validUtf8_iff _).2 k3, (validUtf8_iff _).2 k4⟩
  intro a b a' b' evs evs' ha h1 h2
  cases h1 with
  | scheme found ok rest =>
    cases rest
    rw [hs] at found
    cases found
    cases ok
    cases h2 with
    | scheme found ok rest =>
      cases rest
      rw [hs] at found
      cases found
      cases ok
      refine ⟨?_, _, .scheme hs (w' := _) ?_ (.done _)⟩
      · obtain ⟨ds, g1, g2, g3⟩ := replace_letters hk _ (runes a) (Nat.le_refl _) (runes_valid a)
        rw [encode_runes ha.1] at g2
        unfold Cyrillic.transliterate replacePairs
        rw [g2]
        refine ⟨encode_validUtf8 _, ?_⟩
        rw [runes_encode g1]
        intro d hd
        rcases g3 d hd with g | ⟨p, hp, g⟩
        · exact ha.2 d g
        · exact (key _ hc p ((hl _).mem_iff.1 hp)).2.2.2.2 d g
      · show Go.ok _ = Go.ok _
        congr 1
        exact replace_gap hk b a 0 (Nat.zero_le _)

/-- C81 for the languages without translit: whatever the translits. -/
theorem C81_plain {sp : Spec} (h : Loaded bundled sp) (hs : sp.lang.id ∉ spanning) (hn : sp.lang.translit = [])
    (translits : List (Bytes × Translit)) (f : Bytes → Bytes) {ws : List Bytes} (hw : ws ≠ [])
    (hf : ∀ w ∈ ws, Word w ∧ hangulize sp translits w = .ok (f w) ∧ f w ≠ []) :
    hangulize sp translits (join [0x20] ws) = .ok (join [0x20] (ws.map f)) := by
  refine C81_words h hs (fun hk => ?_) (by rw [hn]; exact wordwise_nil _) f ws hw hf
  have := (loaded_words h).2.2 hk
  rw [hn] at this
  simp at this

/-- C81 for all texts without white space but spaces, in the languages without translit: whatever the translits. -/
theorem C81_text {sp : Spec} (h : Loaded bundled sp) (hs : sp.lang.id ∉ spanning) (hn : sp.lang.translit = [])
    (translits : List (Bytes × Translit)) {text : Bytes} (hv : ValidUtf8 text)
    (hw : ∀ c ∈ runes text, isSpace c = true → c = 0x20) :
    ∃ xs out, List.Forall₂ (fun w x => hangulize sp translits w = .ok x) (cut text) xs ∧
      hangulize sp translits text = .ok out ∧ fields out = xs.filter (· ≠ []) := by
  have he : ∀ w, ∃ x, hangulize sp translits w = .ok x := fun w =>
    hangulize_ok h (evs := []) (w := w) (by rw [hn]; exact .done w)
  have hf : ∀ ws : List Bytes, List.Forall₂ (fun w x => hangulize sp translits w = .ok x) ws (ws.map fun w => (he w).choose) := by
    intro ws
    induction ws with
    | nil => exact .nil
    | cons w ws ih => exact .cons (he w).choose_spec ih
  obtain ⟨out, h1, h2⟩ := C81_fields h hs (fun hk => by
    have := (loaded_words h).2.2 hk
    rw [hn] at this
    simp at this) (by rw [hn]; exact wordwise_nil _) (cut_words hv hw) (hf _)
  exact ⟨_, out, hf _, h1, h2⟩

/-- C81 for the Cyrillic languages: in whatever order the mapping of the translit is visited. -/
theorem C81_cyrillic {sp : Spec} (h : Loaded bundled sp) (hs : sp.lang.id ∉ spanning) {country : String × String}
    (hc : country ∈ Spec.Cyrillic.alphabets) {s : Bytes} (hn : sp.lang.translit = [s]) (hf : s ≠ str "furigana") {l : Libraries}
    (hl : ∀ m, (l.visit m).Perm m) {translits : List (Bytes × Translit)}
    (ht : translits.lookup s = some (cyrillic l country.1 (Cyrillic.mapping country.1))) (f : Bytes → Bytes) {ws : List Bytes} (hw : ws ≠ [])
    (hf : ∀ w ∈ ws, Word w ∧ hangulize sp translits w = .ok (f w) ∧ f w ≠ []) :
    hangulize sp translits (join [0x20] ws) = .ok (join [0x20] (ws.map f)) := by
  refine C81_words h hs (fun hk => ?_) (by rw [hn]; exact wordwise_cyrillic hc hl ht) f ws hw hf
  have := (loaded_words h).2.2 hk
  rw [hn] at this
  simp_all

/-- The hypotheses of C81 are met, for instance by the Italian spec and the words `dolce` and `vita`, whatever `f` says of
other words. -/
example : ∃ (sp : Spec) (f : Bytes → Bytes), Loaded bundled sp ∧ sp.lang.id ∉ spanning ∧ sp.lang.translit = [] ∧
    ∀ w ∈ [str "dolce", str "vita"], Word w ∧ hangulize sp [] w = .ok (f w) := by
  have ok : Ord.written.Ok := ⟨fun _ _ _ _ => .refl _, fun _ => .refl _⟩
  obtain ⟨src, hs⟩ := Option.isSome_iff_exists.1 (show (bundled (str "ita")).isSome = true by decide +kernel)
  obtain ⟨la, hm, hsd⟩ := bundled_sound hs
  obtain ⟨sp, h1, h2, _⟩ := hsd .written ok
  have ht : ∀ x ∈ table, x.1 = str "ita" → x.2.2.translit = [] ∧ x.2.2.id = str "ita" := by decide +kernel
  obtain ⟨t1, t2⟩ := ht _ hm rfl
  have hl : Loaded bundled sp := ⟨_, _, _, hs, ok, h1⟩
  have hn : sp.lang.translit = [] := by rw [h2]; exact t1
  have he : ∀ w, ∃ x, hangulize sp [] w = .ok x := fun w =>
    hangulize_ok hl (evs := []) (w := w) (by rw [hn]; exact .done w)
  refine ⟨sp, fun w => (he w).choose, hl, by rw [h2, t2]; decide +kernel, hn, fun w hw => ⟨?_, (he w).choose_spec⟩⟩
  have : ∀ w ∈ [str "dolce", str "vita"], encode (runes w) = w ∧ ∀ c ∈ runes w, isSpace c = false := by decide +kernel
  exact ⟨(validUtf8_iff w).2 (this w hw).1, (this w hw).2⟩

/-! ## Where words do not stand by themselves -/

/-- Some lines of specs/ita.hsl. -/
def itaLines : Bytes := str "lang:
    id      = \"ita\"
    codes   = \"it\", \"ita\"
    english = \"Italian\"
    korean  = \"이탈리아어\"
    script  = \"Latn\"

rewrite:
    \"^'\" -> \"\"
    \"ce\" -> \"Ce\"

transcribe:
    \"C\" -> \"ㅊ\"
    \"d\" -> \"ㄷ\"
    \"l\" -> \"-ㄹ\"
    \"v\" -> \"ㅂ\"
    \"t\" -> \"ㅌ\"
    \"a\" -> \"ㅏ\"
    \"e\" -> \"ㅔ\"
    \"i\" -> \"ㅣ\"
    \"o\" -> \"ㅗ\"
"

/-- With words which have an empty result there are less spaces than words. -/
theorem C81_vanishing : ∃ sp, parseSpec .written itaLines = .ok sp ∧
    hangulize sp [] (str "vita") = .ok (str "비타") ∧ hangulize sp [] (str "dolce") = .ok (str "돌체") ∧
    hangulize sp [] (str "'") = .ok [] ∧ hangulize sp [] (str "vita dolce") = .ok (str "비타 돌체") ∧
    hangulize sp [] (str "vita ' dolce") = .ok (str "비타 돌체") := by
  have h : ((parseSpec .written itaLines).bind fun sp => (hangulize sp [] (str "vita")).bind fun a =>
      (hangulize sp [] (str "dolce")).bind fun b => (hangulize sp [] (str "'")).bind fun c =>
      (hangulize sp [] (str "vita dolce")).bind fun d => (hangulize sp [] (str "vita ' dolce")).bind fun e =>
      .ok (a, b, c, d, e)) = .ok (str "비타", str "돌체", [], str "비타 돌체", str "비타 돌체") := by
    decide +kernel
  simp only [Rx.go_bind_ok] at h
  obtain ⟨sp, h1, a, h2, b, h3, c, h4, d, h5, e, h6, h7⟩ := h
  simp only [Go.ok.injEq, Prod.mk.injEq] at h7
  obtain ⟨rfl, rfl, rfl, rfl, rfl⟩ := h7
  exact ⟨sp, h1, h2, h3, h4, h5, h6⟩

/-- Some lines of specs/nld.hsl. -/
def nldLines : Bytes := str "lang:
    id      = \"nld\"
    codes   = \"nl\", \"nld\"
    english = \"Dutch\"
    korean  = \"네덜란드어\"
    script  = \"Latn\"

rewrite:
    \"^de \" -> \"de{}\"

transcribe:
    \"b\" -> \"ㅂ\"
    \"d\" -> \"ㄷ\"
    \"a\" -> \"ㅏ\"
    \"e\" -> \"ㅓ\"
"

/-- C81 fails for languages with rules for several words: in Dutch the article `de` is written together with the word
which follows. -/
theorem C81_refuted : ∃ sp, parseSpec .written nldLines = .ok sp ∧ sp.lang.id ∈ spanning ∧ Word (str "de") ∧
    hangulize sp [] (str "de") = .ok (str "더") ∧ hangulize sp [] (str "ab") = .ok (str "아브") ∧
    hangulize sp [] (str "de ab") = .ok (str "더아브") := by
  have h : ((parseSpec .written nldLines).bind fun sp => (hangulize sp [] (str "de")).bind fun a =>
      (hangulize sp [] (str "ab")).bind fun b => (hangulize sp [] (str "de ab")).bind fun c =>
      .ok (sp.lang.id, a, b, c)) = .ok (str "nld", str "더", str "아브", str "더아브") := by
    decide +kernel
  simp only [Rx.go_bind_ok] at h
  obtain ⟨sp, h1, a, h2, b, h3, c, h4, h5⟩ := h
  simp only [Go.ok.injEq, Prod.mk.injEq] at h5
  obtain ⟨h5, rfl, rfl, rfl⟩ := h5
  exact ⟨sp, h1, by rw [h5]; decide +kernel, ⟨(validUtf8_iff _).2 (by decide +kernel), by decide +kernel⟩, h2, h3, h4⟩

end Verif.Props
