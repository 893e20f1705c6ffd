import Verif.Proofs.ForeignText
import Verif.Props.Words
import Verif.Props.SpecFile

/-! Property C82: text of other scripts stays as it is. -/

namespace Verif.Props

open Verif.Specs Verif.Unicode Verif.Spec.Bundle Verif.Spec.Reference Verif.Spec.Foreign Verif.Words Verif.Foreign

/-! ## Normalization -/

/-- The facts about a bundled spec. -/
theorem loaded_foreign {sp : Spec} (h : Loaded bundled sp) : ∃ keys,
    (normArgs sp.normalize).mapM Case.keyOf = some keys ∧ Case.spaceless keys = true ∧ Case.steady sp.script keys = true ∧
    sp.normLetters = Case.keptOf sp.normalize ∧
    (∀ w, replacePairs sp.normPairs w = replacePairs (normArgs sp.normalize) w) ∧
    (sp.script ≠ .hrkt → ∀ r ∈ sp.rewrite, alive sp.script.is (signs sp.lang.id) r.pat.re = true) ∧
    ∀ r ∈ sp.transcribe, alive (fun c => !isSpace c) [] r.pat.re = true := by
  obtain ⟨keys', k1', _, k3', k4'⟩ := loaded_case h
  obtain ⟨lang, src, o, h1, h2, h3⟩ := h
  obtain ⟨l, hm, hs⟩ := bundled_sound h1
  obtain ⟨sp', e1, e2, e3, _, _, _, _, _, _, ⟨keys, k1, _, _, k2, k3⟩, _, e4, e5, _⟩ := hs o h2
  rw [h3] at e1
  simp only [Go.ok.injEq] at e1
  subst e1
  refine ⟨keys, k1, k2, k3, k3', k4', fun hk r hr => ?_, e5⟩
  have := e4 r hr
  simp only [foreignCheck, e3, Option.all_some, Bool.or_eq_true] at this
  rcases this with this | this
  · contradiction
  · rwa [e2]

theorem normalize_nil {sp : Spec} {keys : List (Rune × List Rune)} (k1 : (normArgs sp.normalize).mapM Case.keyOf = some keys)
    (k4 : ∀ w, replacePairs sp.normPairs w = replacePairs (normArgs sp.normalize) w) :
    normalizeScript sp (normalizeSpec sp []) = [] := by
  unfold normalizeSpec normalizeScript
  rw [k4, replacePairs, Case.replace_nil (Case.keys_of k1)]
  rfl

/-- The letters of a text after normalization. -/
theorem normal_letters {sp : Spec} {keys : List (Rune × List Rune)} (k1 : (normArgs sp.normalize).mapM Case.keyOf = some keys)
    (k3 : sp.normLetters = Case.keptOf sp.normalize)
    (k4 : ∀ w, replacePairs sp.normPairs w = replacePairs (normArgs sp.normalize) w) {cs : List Rune}
    (hv : ∀ c ∈ cs, validRune c = true) :
    normal sp (encode cs) = cs.flatMap (Case.turned sp.script keys (Case.keptOf sp.normalize)) := by
  have key : ∀ cs : List Rune, (∀ c ∈ cs, validRune c = true) → normalizeScript sp (normalizeSpec sp (encode cs)) =
      encode (cs.flatMap (Case.turned sp.script keys (Case.keptOf sp.normalize))) ∧
      ∀ d ∈ cs.flatMap (Case.turned sp.script keys (Case.keptOf sp.normalize)), validRune d = true := by
    intro cs
    induction cs with
    | nil => exact fun _ => ⟨normalize_nil k1 k4, by simp⟩
    | cons c cs ih =>
      intro hv
      obtain ⟨h1, h2⟩ := ih fun d hd => hv d (by simp [hd])
      have hc := hv c (by simp)
      have := normalize_around k1 k3 k4 hc [] (encode cs)
      rw [normalize_nil k1 k4, List.nil_append, List.nil_append, ← encode_cons, h1, ← encode_append] at this
      refine ⟨this, fun d hd => ?_⟩
      rcases List.mem_append.1 (by rwa [List.flatMap_cons] at hd) with hd | hd
      · exact turned_valid k1 hc d hd
      · exact h2 d hd
  obtain ⟨h1, h2⟩ := key cs hv
  rw [normal_eq, h1, runes_encode h2]

/-- The letters around a letter after normalization. -/
theorem normal_letter {sp : Spec} {keys : List (Rune × List Rune)} (k1 : (normArgs sp.normalize).mapM Case.keyOf = some keys)
    (k3 : sp.normLetters = Case.keptOf sp.normalize)
    (k4 : ∀ w, replacePairs sp.normPairs w = replacePairs (normArgs sp.normalize) w) (a b : Bytes) {c : Rune}
    (hc : validRune c = true) : normal sp (a ++ encodeRune c ++ b) =
      normal sp a ++ (Case.turned sp.script keys (Case.keptOf sp.normalize) c ++ normal sp b) := by
  have hv := turned_valid (sc := sp.script) (kept := Case.keptOf sp.normalize) k1 hc
  have hn : Case.turned sp.script keys (Case.keptOf sp.normalize) c ≠ [] := by
    obtain ⟨i1, i2, i3⟩ := Case.image_keys k1 hc
    intro h
    rw [Case.turned, ← i3, List.map_eq_nil_iff, runes_eq_nil_iff] at h
    exact i2 h
  rw [normal_eq, normalize_around k1 k3 k4 hc, normal_eq, normal_eq]
  have he := encode_ne_nil hn
  obtain ⟨q, t, e, hq⟩ := Case.valid_lead (encode_validUtf8 _) he
  rw [e, List.cons_append, Case.runes_split _ hq, ← List.cons_append, ← e, runes_append (encode_validUtf8 _), runes_encode hv]

/-- The letters around a text after normalization. -/
theorem normal_around {sp : Spec} {keys : List (Rune × List Rune)} (k1 : (normArgs sp.normalize).mapM Case.keyOf = some keys)
    (k3 : sp.normLetters = Case.keptOf sp.normalize)
    (k4 : ∀ w, replacePairs sp.normPairs w = replacePairs (normArgs sp.normalize) w) (b : Bytes) :
    ∀ {xs : List Rune} (a : Bytes), (∀ c ∈ xs, validRune c = true) → xs ≠ [] →
      normal sp (a ++ encode xs ++ b) =
        normal sp a ++ xs.flatMap (Case.turned sp.script keys (Case.keptOf sp.normalize)) ++ normal sp b
  | [], _, _, h => absurd rfl h
  | [c], a, hv, _ => by
    rw [encode_cons, encode_nil, List.append_nil, normal_letter k1 k3 k4 a b (hv c (by simp))]
    simp
  | c :: d :: xs, a, hv, _ => by
    have ih := normal_around k1 k3 k4 b (xs := d :: xs) [] (fun e he => hv e (by simp [he])) (by simp)
    rw [encode_cons, List.append_assoc, List.append_assoc, ← List.append_assoc, normal_letter k1 k3 k4 a _ (hv c (by simp))]
    rw [List.nil_append, show normal sp [] = [] from by rw [normal_eq, normalize_nil k1 k4]; rfl, List.nil_append] at ih
    rw [ih, List.flatMap_cons]
    simp

theorem key_mem {normalize : List (Bytes × List Bytes)} {keys : List (Rune × List Rune)}
    (k1 : (normArgs normalize).mapM Case.keyOf = some keys) {c : Rune} (hc : validRune c = true) :
    (∀ p ∈ normalize, encodeRune c ∉ p.2) ↔ ∀ k ∈ keys, k.1 ≠ c := by
  have h1 : (∀ p ∈ normalize, encodeRune c ∉ p.2) ↔ ∀ q ∈ normArgs normalize, q.1 ≠ encodeRune c := by
    simp only [normArgs, List.mem_flatMap, List.mem_map]
    constructor
    · rintro h q ⟨p, hp, f, hf, rfl⟩ rfl
      exact h p hp hf
    · intro h p hp hf
      exact h (encodeRune c, p.1) ⟨p, hp, _, hf, rfl⟩ rfl
  rw [h1]
  have hr : runes (encodeRune c) = [c] := by
    have := runes_encode (rs := [c]) (by simpa using hc)
    simpa [encode_cons, encode_nil] using this
  generalize normArgs normalize = ps at k1
  clear h1
  induction ps generalizing keys with
  | nil =>
    simp at k1
    subst k1
    simp
  | cons a as ih =>
    rw [List.mapM_cons] at k1
    cases ha : Case.keyOf a with
    | none => simp [ha] at k1
    | some a' =>
      cases has : as.mapM Case.keyOf with
      | none => simp [ha, has] at k1
      | some as' =>
        simp [ha, has] at k1
        subst k1
        obtain ⟨g1, g2, _⟩ := Case.keyOf_some ha
        simp only [List.forall_mem_cons, ih has]
        have : a.1 ≠ encodeRune c ↔ a'.1 ≠ c := by
          refine not_congr ⟨fun h => ?_, fun h => ?_⟩
          · rw [h, hr] at g1
            simpa using g1.symm
          · rw [← g2, h]
        rw [this]

theorem turned_strange {sc : Script} {keys : List (Rune × List Rune)} {kept : List Rune} {c : Rune} (h : ∀ k ∈ keys, k.1 ≠ c)
    (hc : sc.is c = false) : Case.turned sc keys kept c = [c] := by
  have : keys.foldr (fun p r => cond (Nat.beq p.1 c) p.2 r) [c] = [c] := by
    induction keys with
    | nil => rfl
    | cons k keys ih =>
      have hb : Nat.beq k.1 c = false := by
        rw [Bool.eq_false_iff]
        intro hb
        rw [Nat.beq_eq] at hb
        exact h k (by simp) hb
      rw [List.foldr_cons, hb, cond_false]
      exact ih fun k hk => h k (by simp [hk])
  rw [Case.turned, this]
  simp [hc]

/-- What a letter becomes by the spec. -/
theorem looked_up (keys : List (Rune × List Rune)) (c : Rune) :
    (keys.foldr (fun p r => cond (Nat.beq p.1 c) p.2 r) [c] = [c] ∧ ∀ k ∈ keys, k.1 ≠ c) ∨
      ∃ k ∈ keys, k.1 = c ∧ keys.foldr (fun p r => cond (Nat.beq p.1 c) p.2 r) [c] = k.2 := by
  induction keys with
  | nil => exact .inl ⟨rfl, by simp⟩
  | cons k keys ih =>
    rw [List.foldr_cons]
    cases hb : Nat.beq k.1 c with
    | true => exact .inr ⟨k, by simp, Nat.eq_of_beq_eq_true hb, rfl⟩
    | false =>
      have hk : k.1 ≠ c := fun h => by rw [h, Nat.beq_refl] at hb; contradiction
      rw [cond_false]
      rcases ih with ⟨h1, h2⟩ | ⟨j, h1, h2, h3⟩
      · exact .inl ⟨h1, by simpa using ⟨hk, fun a b h => h2 (a, b) h⟩⟩
      · exact .inr ⟨j, by simp [h1], h2, h3⟩

theorem accent_iff {c : Rune} : Case.accent c = true ↔ 0x300 ≤ c ∧ c ≤ 0x36F := by
  rw [Case.accent, Bool.and_eq_true, Nat.ble_eq, Nat.ble_eq]

theorem steady_key {sc : Script} {keys : List (Rune × List Rune)} (h : Case.steady sc keys = true) {k : Rune × List Rune}
    (hk : k ∈ keys) : (k.1 ≠ 0x27 ∧ k.1 ≠ 0x200B ∧ Case.accent k.1 = false ∧ ∀ c ∈ k.2, Case.accent c = false) ∧
      ¬ (0xAC00 ≤ k.1 ∧ k.1 ≤ 0xD7A3) ∧
      ∀ c ∈ k.2, sc.is c = true ∨ (sc.is k.1 = false ∧ ∀ j ∈ keys, j.1 ≠ c) := by
  have := List.all_eq_true.1 h k hk
  simp only [Bool.and_eq_true, Bool.not_eq_true', List.all_eq_true, Bool.or_eq_true, Bool.and_eq_false_iff, List.any_eq_false] at this
  obtain ⟨⟨⟨⟨h1, h0⟩, h4⟩, h2⟩, h3⟩ := this
  refine ⟨⟨fun h => by rw [h] at h1; contradiction, fun h => by rw [h] at h0; contradiction, h4, fun c hc => (h3 c hc).1⟩,
    fun ⟨h4, h5⟩ => ?_, fun c hc => ?_⟩
  · rcases h2 with h2 | h2
    · rw [Nat.ble_eq_true_of_le h4] at h2
      contradiction
    · rw [Nat.ble_eq_true_of_le h5] at h2
      contradiction
  · refine (h3 c hc).2.imp id fun ⟨h4, h5⟩ => ⟨h4, fun j hj e => ?_⟩
    exact h5 j hj (by rw [e, Nat.beq_refl])

/-- Letters of the script stay letters of the script. -/
theorem turned_script {sc : Script} {keys : List (Rune × List Rune)} {kept : List Rune} (h : Case.steady sc keys = true) {c : Rune}
    (hc : sc.is c = true) : ∀ d ∈ Case.turned sc keys kept c, sc.is d = true := by
  intro d hd
  simp only [Case.turned, List.mem_map] at hd
  obtain ⟨e, he, rfl⟩ := hd
  have h1 : sc.is e = true := by
    rcases looked_up keys c with ⟨h1, _⟩ | ⟨k, h1, rfl, h2⟩
    · rw [h1, List.mem_singleton] at he
      rw [he]
      exact hc
    · rw [h2] at he
      rcases (steady_key h h1).2.2 e he with h3 | ⟨h3, _⟩
      · exact h3
      · rw [hc] at h3
        contradiction
  cases kept.any (Nat.beq e) || !sc.is e with
  | true => exact h1
  | false => exact C62_stays h1

/-- White space stays as it is. -/
theorem turned_space {sc : Script} {keys : List (Rune × List Rune)} {kept : List Rune} (h : Case.spaceless keys = true) {c : Rune}
    (hc : isSpace c = true) : Case.turned sc keys kept c = [c] := by
  refine turned_strange (fun k hk e => ?_) ?_
  · have := List.all_eq_true.1 h k hk
    rw [e, hc] at this
    simp at this
  · rw [Bool.eq_false_iff]
    intro h
    rw [is_space h] at hc
    contradiction

/-- What stays outside of the script after normalization is no key. -/
theorem turned_outside {sc : Script} {keys : List (Rune × List Rune)} {kept : List Rune} (h : Case.steady sc keys = true)
    {c d : Rune} (hd : d ∈ Case.turned sc keys kept c) (hs : sc.is d = false) : ∀ k ∈ keys, k.1 ≠ d := by
  simp only [Case.turned, List.mem_map] at hd
  obtain ⟨e, he, hd⟩ := hd
  have h1 : sc.is e = false := by
    rw [Bool.eq_false_iff]
    intro h1
    have : sc.is d = true := by
      rw [← hd]
      cases kept.any (Nat.beq e) || !sc.is e with
      | true => exact h1
      | false => exact C62_stays h1
    rw [this] at hs
    contradiction
  rw [h1, Bool.not_false, Bool.or_true, cond_true] at hd
  subst hd
  rcases looked_up keys c with ⟨h2, h3⟩ | ⟨k, h2, rfl, h3⟩
  · rw [h2, List.mem_singleton] at he
    rw [he]
    exact h3
  · rw [h3] at he
    rcases (steady_key h h2).2.2 e he with h4 | ⟨_, h4⟩
    · rw [h4] at h1
      contradiction
    · exact h4

theorem not_alive {sp : Spec} {cs : List Rune} (h1 : ∀ c ∈ cs, isSpace c = true ∨ ¬ Meaningful sp c) (h2 : Signless sp cs) :
    ¬ Alive sp.script.is (signs sp.lang.id) cs := by
  rintro (⟨c, hc, hl⟩ | ⟨s, hs, hi⟩)
  · rcases h1 c hc with h | h
    · rw [is_space hl] at h
      contradiction
    · exact h (.inl hl)
  · exact h2 s hs hi

theorem syllable_plain {c : Rune} (h : Spec.Jamo.IsSyllable c) : isPunct c = false ∧ isSpace c = false := by
  have hc : inTable [(0xAC00, 0xD7A3)] c = true := by
    simp only [inTable, List.any_cons, List.any_nil, Bool.or_false, Bool.and_eq_true, decide_eq_true_eq]
    exact h
  exact ⟨not_inTable (by decide +kernel) hc, not_inTable (by decide +kernel) hc⟩

/-! ## C82 -/

/-- A word which is transliterated to two texts with meaningless text between them. -/
theorem hangulize_joined {sp : Spec} (h : Loaded bundled sp) (hs : sp.script ≠ .hrkt) {translits : List (Bytes × Translit)}
    {x : List Rune} (hn : x ≠ []) (hv : ∀ c ∈ x, validRune c = true) (hx : ∀ c ∈ x, ¬ Meaningful sp c)
    (hx' : ∀ c ∈ x, ∀ p ∈ sp.normalize, encodeRune c ∉ p.2) {w a b a' b' y z : Bytes} {e1 e2 e3 : List Trace}
    (ta : Transliterated translits sp.lang.translit a e1 a') (tb : Transliterated translits sp.lang.translit b e2 b')
    (tx : Transliterated translits sp.lang.translit w e3 (a' ++ encode x ++ b'))
    (hg : ∀ u v, u <:+ normal sp a' → v <+: normal sp b' → (∀ c ∈ u ++ v, ¬ Meaningful sp c) → Signless sp (u ++ x ++ v))
    (hy : hangulize sp translits a = .ok y) (hz : hangulize sp translits b = .ok z) :
    hangulize sp translits w = .ok (y ++ encode (x.filter (· ≠ 0x200B)) ++ z) := by
  obtain ⟨_, _, _, _, r1, t1⟩ := loaded_checked h
  obtain ⟨keys, k1, k2, k2', k3, k4, r2, t2⟩ := loaded_foreign h
  obtain ⟨_, _, f1, f2⟩ := (hangulize_rest h).1 hy
  obtain ⟨_, _, f3, f4⟩ := (hangulize_rest h).1 hz
  obtain ⟨out, ho⟩ := hangulize_ok h tx
  obtain ⟨_, _, f5, f6⟩ := (hangulize_rest h).1 ho
  cases transliterated_unique ta f1
  cases transliterated_unique tb f3
  cases transliterated_unique tx f5
  have hmid : x.flatMap (Case.turned sp.script keys (Case.keptOf sp.normalize)) = x := by
    have : ∀ c ∈ x, Case.turned sp.script keys (Case.keptOf sp.normalize) c = [c] := by
      intro c hc
      refine turned_strange ((key_mem k1 (hv c hc)).1 (hx' c hc)) ?_
      rw [Bool.eq_false_iff]
      exact fun h => hx c hc (.inl h)
    rw [List.flatMap_congr this]
    simp
  rw [normal_around k1 k3 k4 b' a' hv hn, hmid] at f6
  rw [ho]
  congr 1
  refine part_between (r2 hs) hs (normal_valid sp _) hv (normal_valid sp _) hn hx (fun u v h1 h2 hm => ?_)
    (rest_part r1 t1 (normal_valid sp _) f2) (rest_part r1 t1 (normal_valid sp _) f4) (rest_part r1 t1 ?_ f6)
  · refine not_alive (fun c hc => .inr ?_) (hg u v h1 h2 hm)
    simp only [List.mem_append] at hc hm
    rcases hc with (hc | hc) | hc
    · exact hm c (.inl hc)
    · exact hx c hc
    · exact hm c (.inr hc)
  · intro c hc
    simp only [List.mem_append] at hc
    rcases hc with (hc | hc) | hc
    · exact normal_valid sp _ c hc
    · exact hv c hc
    · exact normal_valid sp _ c hc

/-- C82: a piece of text without letters of the script stays as it is but for zero width spaces, and what is before and after
it is hangulized as if it was alone, unless a sign spans the piece and the meaningless letters next to it. -/
theorem C82_anywhere {sp : Spec} (h : Loaded bundled sp) (hs : sp.script ≠ .hrkt) {translits : List (Bytes × Translit)}
    {x : List Rune} (hn : x ≠ []) (hv : ∀ c ∈ x, validRune c = true) (hx : ∀ c ∈ x, ¬ Meaningful sp c)
    (hx' : ∀ c ∈ x, ∀ p ∈ sp.normalize, encodeRune c ∉ p.2) {a b a' b' y z : Bytes} {e1 e2 e3 : List Trace}
    (ta : Transliterated translits sp.lang.translit a e1 a') (tb : Transliterated translits sp.lang.translit b e2 b')
    (tx : Transliterated translits sp.lang.translit (a ++ encode x ++ b) e3 (a' ++ encode x ++ b'))
    (hg : ∀ u v, u <:+ normal sp a' → v <+: normal sp b' → (∀ c ∈ u ++ v, ¬ Meaningful sp c) → Signless sp (u ++ x ++ v))
    (hy : hangulize sp translits a = .ok y) (hz : hangulize sp translits b = .ok z) :
    hangulize sp translits (a ++ encode x ++ b) = .ok (y ++ encode (x.filter (· ≠ 0x200B)) ++ z) :=
  hangulize_joined h hs hn hv hx hx' ta tb tx hg hy hz

/-- C82: a piece of text without letters of the script stays as it is, and what is before and after it is hangulized as if
it was alone. -/
theorem C82_around {sp : Spec} (h : Loaded bundled sp) (hs : sp.script ≠ .hrkt) {translits : List (Bytes × Translit)}
    {x : List Rune} (hn : x ≠ []) (hv : ∀ c ∈ x, validRune c = true) (hx : ∀ c ∈ x, Strange sp c) (hg : Signless sp x)
    {a b a' b' y z : Bytes} {e1 e2 e3 : List Trace} (ta : Transliterated translits sp.lang.translit a e1 a')
    (tb : Transliterated translits sp.lang.translit b e2 b')
    (tx : Transliterated translits sp.lang.translit (a ++ encode x ++ b) e3 (a' ++ encode x ++ b'))
    (ha : Closed sp a') (hb : Open sp b') (hy : hangulize sp translits a = .ok y) (hz : hangulize sp translits b = .ok z) :
    hangulize sp translits (a ++ encode x ++ b) = .ok (y ++ encode x ++ z) := by
  obtain ⟨keys, k1, k2, k2', k3, k4, r2, t2⟩ := loaded_foreign h
  have nil : normal sp [] = [] := by rw [normal_eq, normalize_nil k1 k4]; rfl
  have meant : ∀ {c : Rune}, sp.script.is c = true ∨ isSpace c = true →
      ∀ d ∈ Case.turned sp.script keys (Case.keptOf sp.normalize) c, Meaningful sp d := by
    rintro c (hc | hc) d hd
    · exact .inl (turned_script k2' hc d hd)
    · rw [turned_space k2 hc, List.mem_singleton] at hd
      rw [hd]
      exact .inr (.inr hc)
  have turned_ne : ∀ {c : Rune}, validRune c = true → Case.turned sp.script keys (Case.keptOf sp.normalize) c ≠ [] := by
    intro c hc h
    obtain ⟨i1, i2, i3⟩ := Case.image_keys k1 hc
    rw [Case.turned, ← i3, List.map_eq_nil_iff, runes_eq_nil_iff] at h
    exact i2 h
  have hf : x.filter (· ≠ 0x200B) = x := by
    rw [List.filter_eq_self]
    intro c hc
    simpa using (hx c hc).2.2
  have := C82_anywhere h hs hn hv (fun c hc => (hx c hc).1) (fun c hc => (hx c hc).2.1) ta tb tx ?_ hy hz
  · rwa [hf] at this
  intro u v hu hv' hm
  have e1 : u = [] := by
    rcases List.eq_nil_or_concat u with rfl | ⟨u, c, rfl⟩
    · rfl
    refine absurd ?_ (hm c (by simp))
    obtain ⟨t, ht⟩ := hu
    have hc : (normal sp a').getLast? = some c := by rw [← ht]; simp
    rcases ha with rfl | ⟨a'', d, rfl, hd, hm⟩
    · rw [nil] at hc
      simp at hc
    · have e := normal_letter k1 k3 k4 a'' [] hd
      rw [List.append_nil, nil, List.append_nil] at e
      rw [e, List.getLast?_append_of_ne_nil _ (turned_ne hd)] at hc
      exact meant hm c (List.mem_of_getLast? hc)
  have e2 : v = [] := by
    cases v with
    | nil => rfl
    | cons c v =>
    refine absurd ?_ (hm c (by simp))
    obtain ⟨t, ht⟩ := hv'
    have hc : (normal sp b').head? = some c := by rw [← ht]; simp
    rcases hb with rfl | ⟨b'', d, rfl, hd, hm⟩
    · rw [nil] at hc
      simp at hc
    · have e := normal_letter k1 k3 k4 [] b'' hd
      rw [List.nil_append, nil, List.nil_append] at e
      rw [e, List.head?_append_of_ne_nil _ (turned_ne hd)] at hc
      exact meant hm c (List.mem_of_head? hc)
  rw [e1, e2, List.nil_append, List.append_nil]
  exact hg

/-- C82 for the languages without translit: whatever the translits. -/
theorem C82_between {sp : Spec} (h : Loaded bundled sp) (ht : sp.lang.translit = []) (translits : List (Bytes × Translit))
    {x : List Rune} (hn : x ≠ []) (hv : ∀ c ∈ x, validRune c = true) (hx : ∀ c ∈ x, Strange sp c) (hg : Signless sp x)
    {a b : Bytes} (ha : Closed sp a) (hb : Open sp b) : ∃ y z, hangulize sp translits a = .ok y ∧
      hangulize sp translits b = .ok z ∧ hangulize sp translits (a ++ encode x ++ b) = .ok (y ++ encode x ++ z) := by
  have key : ∀ w, Transliterated translits sp.lang.translit w [] w := fun w => by rw [ht]; exact .done w
  obtain ⟨y, hy⟩ := hangulize_ok h (key a)
  obtain ⟨z, hz⟩ := hangulize_ok h (key b)
  refine ⟨y, z, hy, hz, C82_around h (fun hk => ?_) hn hv hx hg (key _) (key _) (key _) ha hb hy hz⟩
  have := (loaded_words h).2.2 hk
  rw [ht] at this
  contradiction

/-- C82 for the languages without translit and without signs, among them German and Spanish: whatever is before and after the
piece. -/
theorem C82_unsigned {sp : Spec} (h : Loaded bundled sp) (ht : sp.lang.translit = []) (hg : signs sp.lang.id = [])
    (translits : List (Bytes × Translit)) {x : List Rune} (hn : x ≠ []) (hv : ∀ c ∈ x, validRune c = true)
    (hx : ∀ c ∈ x, Strange sp c) (a b : Bytes) : ∃ y z, hangulize sp translits a = .ok y ∧
      hangulize sp translits b = .ok z ∧ hangulize sp translits (a ++ encode x ++ b) = .ok (y ++ encode x ++ z) := by
  have key : ∀ w, Transliterated translits sp.lang.translit w [] w := fun w => by rw [ht]; exact .done w
  obtain ⟨y, hy⟩ := hangulize_ok h (key a)
  obtain ⟨z, hz⟩ := hangulize_ok h (key b)
  have hk : sp.script ≠ .hrkt := by
    intro hk
    have := (loaded_words h).2.2 hk
    rw [ht] at this
    contradiction
  have := C82_anywhere h hk hn hv (fun c hc => (hx c hc).1) (fun c hc => (hx c hc).2.1) (key _) (key _) (key _)
    (fun _ _ _ _ _ s hs => by rw [hg] at hs; contradiction) hy hz
  have hf : x.filter (· ≠ 0x200B) = x := by
    rw [List.filter_eq_self]
    intro c hc
    simpa using (hx c hc).2.2
  rw [hf] at this
  exact ⟨y, z, hy, hz, this⟩

/-- C82 for the languages with a Cyrillic translit: the text has no letters which it replaces. -/
theorem C82_cyrillic {sp : Spec} (h : Loaded bundled sp) {country : String × String} (hc : country ∈ Spec.Cyrillic.alphabets)
    {s : Bytes} (ht : sp.lang.translit = [s]) (hf : s ≠ str "furigana") {l : Libraries} (hl : ∀ m, (l.visit m).Perm m)
    {translits : List (Bytes × Translit)} (hs : translits.lookup s = some (cyrillic l country.1 (Cyrillic.mapping country.1)))
    {x : List Rune} (hn : x ≠ []) (hv : ∀ c ∈ x, validRune c = true) (hx : ∀ c ∈ x, Strange sp c) (hg : Signless sp x)
    (hk : ∀ p ∈ Cyrillic.mapping country.1, ∀ c ∈ x, c ∉ runes (str p.1)) {a b : Bytes} (va : ValidUtf8 a)
    (ha : Closed sp (Cyrillic.transliterate (l.visit (Cyrillic.pairs (Cyrillic.mapping country.1))) a))
    (hb : Open sp (Cyrillic.transliterate (l.visit (Cyrillic.pairs (Cyrillic.mapping country.1))) b)) :
    ∃ y z, hangulize sp translits a = .ok y ∧ hangulize sp translits b = .ok z ∧
      hangulize sp translits (a ++ encode x ++ b) = .ok (y ++ encode x ++ z) := by
  have key : ∀ w, Transliterated translits sp.lang.translit w _ _ := fun w => by
    rw [ht]
    exact .scheme hs (w' := Cyrillic.transliterate (l.visit (Cyrillic.pairs (Cyrillic.mapping country.1))) w) rfl (.done _)
  have key' : ∀ c ∈ Spec.Cyrillic.alphabets, ∀ p ∈ Cyrillic.pairs (Cyrillic.mapping c.1), p.1 ≠ [] ∧ 0x20 ∉ p.1 ∧
      encode (runes p.1) = p.1 ∧ encode (runes p.2) = p.2 := by decide +kernel
  have hk' : Texts (l.visit (Cyrillic.pairs (Cyrillic.mapping country.1))) := by
    intro p hp
    obtain ⟨k1, k2, k3, k4⟩ := key' _ hc p ((hl _).mem_iff.1 hp)
    exact ⟨k1, k2, (validUtf8_iff _).2 k3, (validUtf8_iff _).2 k4⟩
  have hap : Apart (l.visit (Cyrillic.pairs (Cyrillic.mapping country.1))) x := by
    intro p hp
    have := (hl _).mem_iff.1 hp
    simp only [Cyrillic.pairs, List.mem_map] at this
    obtain ⟨q, hq, rfl⟩ := this
    exact hk q hq
  obtain ⟨y, hy⟩ := hangulize_ok h (key a)
  obtain ⟨z, hz⟩ := hangulize_ok h (key b)
  have hr := replace_apart hk' hap hn hv b _ (runes a) (Nat.le_refl _) (runes_valid a)
  rw [encode_runes va] at hr
  have tx := key (a ++ encode x ++ b)
  rw [show Cyrillic.transliterate (l.visit (Cyrillic.pairs (Cyrillic.mapping country.1))) (a ++ encode x ++ b) = _ from hr] at tx
  refine ⟨y, z, hy, hz, C82_around h (fun hk => ?_) hn hv hx hg (key a) (key b) tx ha hb hy hz⟩
  have := (loaded_words h).2.2 hk
  rw [ht] at this
  simp_all

/-- C82 for a whole text: without letters of the script only the white space is cleaned up. -/
theorem C82_plain {sp : Spec} (h : Loaded bundled sp) (hs : sp.script ≠ .hrkt) {translits : List (Bytes × Translit)}
    {x : List Rune} (hv : ∀ c ∈ x, validRune c = true) (hx : ∀ c ∈ x, isSpace c = true ∨ Strange sp c) (hg : Signless sp x)
    {evs : List Trace} (ht : Transliterated translits sp.lang.translit (encode x) evs (encode x)) :
    hangulize sp translits (encode x) = .ok (encode (squeezed x)) := by
  obtain ⟨_, _, _, _, r1, t1⟩ := loaded_checked h
  obtain ⟨keys, k1, k2, k2', k3, k4, r2, t2⟩ := loaded_foreign h
  obtain ⟨out, ho⟩ := hangulize_ok h ht
  obtain ⟨_, _, f1, f2⟩ := (hangulize_rest h).1 ho
  cases transliterated_unique ht f1
  have hmid : x.flatMap (Case.turned sp.script keys (Case.keptOf sp.normalize)) = x := by
    have : ∀ c ∈ x, Case.turned sp.script keys (Case.keptOf sp.normalize) c = [c] := by
      intro c hc
      rcases hx c hc with h | ⟨s1, s2, _⟩
      · exact turned_space k2 h
      · refine turned_strange ((key_mem k1 (hv c hc)).1 s2) ?_
        rw [Bool.eq_false_iff]
        exact fun h => s1 (.inl h)
    rw [List.flatMap_congr this]
    simp
  rw [normal_letters k1 k3 k4 hv, hmid] at f2
  rw [ho]
  congr 1
  have hm : ∀ c ∈ x, isSpace c = true ∨ ¬ Meaningful sp c := fun c hc => (hx c hc).imp id fun h => h.1
  refine rest_plain r1 t1 (r2 hs) t2 hs hv hm (fun hc => ?_) (not_alive hm hg) f2
  rcases hx _ hc with h | h
  · exact absurd h (by decide +kernel)
  · exact h.2.2 rfl

/-- C82: what has been hangulized is not changed by hangulizing it again, aside from its white space. -/
theorem C82_again {sp : Spec} (h : Loaded bundled sp) (ht : sp.lang.translit = []) (translits : List (Bytes × Translit))
    {word out : Bytes} (hw : ValidUtf8 word) (ho : hangulize sp translits word = .ok out) (hg : Signless sp (runes out))
    (hq : 0x27 ∈ runes out → 0x27 ∉ sp.puncts) : hangulize sp translits out = .ok (encode (squeezed (runes out))) := by
  have hs : sp.script ≠ .hrkt := by
    intro hk
    have := (loaded_words h).2.2 hk
    rw [ht] at this
    contradiction
  obtain ⟨keys, k1, k2, k2', k3, k4, r2, t2⟩ := loaded_foreign h
  obtain ⟨_, _, _, hp, _, _⟩ := loaded_checked h
  obtain ⟨w, evs, e1, e2⟩ := C67_alphabet (tr := none) h ho
  rw [ht] at e1
  cases e1
  have hv : ValidUtf8 out := (C39_valid_output _ _ _ _ ho).1
  rw [← encode_runes hv, runes_encode (runes_valid out)]
  refine C82_plain h hs (runes_valid out) (fun c hc => ?_) hg (evs := []) (by rw [ht]; exact .done _)
  have hcv := runes_valid out c hc
  cases e2 c hc with
  | syllable hy =>
    refine .inr ⟨?_, ?_, ?_⟩
    · rintro (h1 | h1 | h1)
      · rw [syllable_script hy] at h1
        contradiction
      · have := ((C29_puncts_partial hp c).1 h1).1
        rw [(syllable_plain hy).1] at this
        contradiction
      · rw [(syllable_plain hy).2] at h1
        contradiction
    · refine (key_mem k1 hcv).2 fun k hk e => (steady_key k2' hk).2.1 ?_
      rw [e]
      exact hy
    · rintro rfl
      exact absurd hy (by decide)
  | apostrophe =>
    refine .inr ⟨?_, ?_, by decide⟩
    · rintro (h1 | h1 | h1)
      · exact absurd h1 (by rw [show sp.script.is '\''.toNat = false from (marks_script _).1]; decide)
      · exact hq hc h1
      · exact absurd h1 (by decide +kernel)
    · exact (key_mem k1 hcv).2 fun k hk e => (steady_key k2' hk).1.1 e
  | space => exact .inl (by decide +kernel)
  | kept hl hm hz =>
    refine .inr ⟨hm, ?_, hz⟩
    refine (key_mem k1 hcv).2 ?_
    have hl' : c ∈ normal sp word := hl
    rw [← encode_runes hw, normal_letters k1 k3 k4 (runes_valid word)] at hl'
    obtain ⟨d, _, hd⟩ := List.mem_flatMap.1 hl'
    refine turned_outside k2' hd ?_
    rw [Bool.eq_false_iff]
    exact fun h => hm (.inl h)
  | punctuation kana => exact absurd kana hs

theorem squeezed_same : ∀ {cs : List Rune}, (∀ c ∈ cs, isSpace c = true → c = 0x20) → ¬ [0x20, 0x20] <:+: cs → squeezed cs = cs
  | [], _, _ => rfl
  | c :: cs, h1, h2 => by
    have ih := squeezed_same (cs := cs) (fun d hd => h1 d (by simp [hd])) fun h => h2 (h.trans (List.suffix_cons c cs).isInfix)
    rw [squeezed, ih]
    split
    next hc =>
      have hc := h1 c (by simp) hc
      subst hc
      split
      next hd =>
        obtain ⟨d, hd, hs⟩ := hd
        cases cs with
        | nil => simp at hd
        | cons e cs =>
          simp only [List.head?_cons, Option.mem_def, Option.some.injEq] at hd
          subst hd
          have := h1 e (by simp) hs
          subst this
          exact absurd ⟨[], cs, rfl⟩ h2
      next => rfl
    next => rfl

/-- C82: so a result without successive spaces is not changed at all. -/
theorem C82_idempotent {sp : Spec} (h : Loaded bundled sp) (ht : sp.lang.translit = []) (translits : List (Bytes × Translit))
    {word out : Bytes} (hw : ValidUtf8 word) (ho : hangulize sp translits word = .ok out) (hg : Signless sp (runes out))
    (hq : 0x27 ∈ runes out → 0x27 ∉ sp.puncts) (hd : ¬ [0x20, 0x20] <:+: runes out) : hangulize sp translits out = .ok out := by
  rw [C82_again h ht translits hw ho hg hq, squeezed_same (fun c hc hs => ?_) hd, encode_runes (C39_valid_output _ _ _ _ ho).1]
  obtain ⟨_, _, _, e⟩ := C67_alphabet (tr := none) h ho
  cases e c hc with
  | syllable hy =>
    rw [(syllable_plain hy).2] at hs
    contradiction
  | apostrophe => exact absurd hs (by decide +kernel)
  | space => rfl
  | kept _ hm _ => exact absurd (.inr (.inr hs)) hm
  | punctuation kana =>
    have := (loaded_words h).2.2 kana
    rw [ht] at this
    contradiction

/-! ## Hangul -/

theorem signs_low (lang : Bytes) : ∀ s ∈ signs lang, ∃ c ∈ s, c < 0xAC00 ∧ isSpace c = false := by
  intro s hs
  have key : ∀ s ∈ ([[0x3B], [0x2C, 0x2C], [0x2D], [0x2019], [0x27], [0xB7], [0x7E], [0x300], [0x301], [0x342], [0x308], [0x344],
      [0x304], [0x313], [0x343], [0x314]] : List (List Rune)), ∃ c ∈ s, c < 0xAC00 ∧
        isSpace c = false := by decide +kernel
  refine key s ?_
  unfold signs at hs
  rcases List.mem_append.1 hs with hs | hs
  · split at hs <;> simp at hs
    rcases hs with rfl | rfl <;> simp
  · repeat' split at hs
    all_goals simp at hs
    all_goals try subst hs
    all_goals simp_all
    all_goals (try rcases hs with rfl | hs) <;> simp_all

theorem strange_syllable {sp : Spec} (h : Loaded bundled sp) {c : Rune} (hy : Spec.Jamo.IsSyllable c) : Strange sp c := by
  obtain ⟨keys, k1, _, k2, _⟩ := loaded_foreign h
  obtain ⟨_, _, _, hp, _, _⟩ := loaded_checked h
  have hc : validRune c = true := by
    obtain ⟨h1, h2⟩ := hy
    simp only [validRune, Bool.or_eq_true, Bool.and_eq_true, decide_eq_true_eq]
    omega
  refine ⟨?_, ?_, ?_⟩
  · rintro (h1 | h1 | h1)
    · rw [syllable_script hy] at h1
      contradiction
    · have := ((C29_puncts_partial hp c).1 h1).1
      rw [(syllable_plain hy).1] at this
      contradiction
    · rw [(syllable_plain hy).2] at h1
      contradiction
  · exact (key_mem k1 hc).2 fun k hk e => (steady_key k2 hk).2.1 (by rw [e]; exact hy)
  · rintro rfl
    exact absurd hy (by decide)

theorem signless_syllables {sp : Spec} {x : List Rune} (hx : ∀ c ∈ x, Spec.Jamo.IsSyllable c ∨ isSpace c = true) :
    Signless sp x := by
  intro s hs hi
  obtain ⟨c, hc, h1, h2⟩ := signs_low _ s hs
  rcases hx c (hi.subset hc) with h | h
  · have := h.1
    omega
  · rw [h] at h2
    contradiction

/-- C82: Hangul in a text stays as it is. -/
theorem C82_hangul {sp : Spec} (h : Loaded bundled sp) (ht : sp.lang.translit = []) (translits : List (Bytes × Translit))
    {x : List Rune} (hn : x ≠ []) (hx : ∀ c ∈ x, Spec.Jamo.IsSyllable c) {a b : Bytes} (ha : Closed sp a) (hb : Open sp b) :
    ∃ y z, hangulize sp translits a = .ok y ∧ hangulize sp translits b = .ok z ∧
      hangulize sp translits (a ++ encode x ++ b) = .ok (y ++ encode x ++ z) := by
  refine C82_between h ht translits hn (fun c hc => ?_) (fun c hc => strange_syllable h (hx c hc))
    (signless_syllables fun c hc => .inl (hx c hc)) ha hb
  obtain ⟨h1, h2⟩ := hx c hc
  simp only [validRune, Bool.or_eq_true, Bool.and_eq_true, decide_eq_true_eq]
  omega

/-- The hypotheses are met, for instance by the Italian spec and `dolce 비타 vita`. -/
example : ∃ sp, Loaded bundled sp ∧ sp.lang.id = str "ita" ∧ sp.lang.translit = [] ∧ Closed sp (str "dolce ") ∧ Open sp (str " vita") ∧
    Signless sp (runes (str "비타")) ∧ (∀ c ∈ runes (str "비타"), Spec.Jamo.IsSyllable c ∧ Strange sp c) ∧
    ∃ y z, hangulize sp [] (str "dolce ") = .ok y ∧ hangulize sp [] (str " vita") = .ok z ∧
      hangulize sp [] (str "dolce 비타 vita") = .ok (y ++ str "비타" ++ z) := by
  have ok : Ord.written.Ok := ⟨fun _ _ _ _ => .refl _, fun _ => .refl _⟩
  obtain ⟨src, hs⟩ := Option.isSome_iff_exists.1 (show (bundled (str "ita")).isSome = true by decide +kernel)
  obtain ⟨la, hm, hsd⟩ := bundled_sound hs
  obtain ⟨sp, h1, h2, _⟩ := hsd .written ok
  have ht : ∀ x ∈ table, x.1 = str "ita" → x.2.2.translit = [] ∧ x.2.2.id = str "ita" := by decide +kernel
  obtain ⟨t1, t2⟩ := ht _ hm rfl
  have hl : Loaded bundled sp := ⟨_, _, _, hs, ok, h1⟩
  have hn : sp.lang.translit = [] := by rw [h2]; exact t1
  have hy : ∀ c ∈ runes (str "비타"), Spec.Jamo.IsSyllable c := by decide +kernel
  have ha : Closed sp (str "dolce ") :=
    .inr ⟨str "dolce", 0x20, by decide +kernel, by decide +kernel, .inr (by decide +kernel)⟩
  have hb : Open sp (str " vita") := .inr ⟨str "vita", 0x20, by decide +kernel, by decide +kernel, .inr (by decide +kernel)⟩
  refine ⟨sp, hl, by rw [h2, t2], hn, ha, hb, signless_syllables fun c hc => .inl (hy c hc),
    fun c hc => ⟨hy c hc, strange_syllable hl (hy c hc)⟩, ?_⟩
  obtain ⟨y, z, h3, h4, h5⟩ := C82_hangul hl hn [] (x := runes (str "비타")) (by decide +kernel) hy ha hb
  refine ⟨y, z, h3, h4, ?_⟩
  rwa [show encode (runes (str "비타")) = str "비타" from by decide +kernel,
    show str "dolce " ++ str "비타" ++ str " vita" = str "dolce 비타 vita" from by decide +kernel] at h5

/-- The hypotheses of `C82_cyrillic` are met, for instance by the Russian spec and `ivan 이반 иван`. -/
example : ∃ sp, Loaded bundled sp ∧ sp.lang.id = str "rus" ∧ ∃ y z,
    hangulize sp [(str "cyrillic[ru]", cyrillic plain "ru" (Cyrillic.mapping "ru"))] (str "ivan ") = .ok y ∧
    hangulize sp [(str "cyrillic[ru]", cyrillic plain "ru" (Cyrillic.mapping "ru"))] (str " иван") = .ok z ∧
    hangulize sp [(str "cyrillic[ru]", cyrillic plain "ru" (Cyrillic.mapping "ru"))] (str "ivan 이반 иван") =
      .ok (y ++ str "이반" ++ z) := by
  have ok : Ord.written.Ok := ⟨fun _ _ _ _ => .refl _, fun _ => .refl _⟩
  obtain ⟨src, hs⟩ := Option.isSome_iff_exists.1 (show (bundled (str "rus")).isSome = true by decide +kernel)
  obtain ⟨la, hm, hsd⟩ := bundled_sound hs
  obtain ⟨sp, h1, h2, _⟩ := hsd .written ok
  have ht : ∀ x ∈ table, x.1 = str "rus" → x.2.2.translit = [str "cyrillic[ru]"] ∧ x.2.2.id = str "rus" := by decide +kernel
  obtain ⟨t1, t2⟩ := ht _ hm rfl
  have hl : Loaded bundled sp := ⟨_, _, _, hs, ok, h1⟩
  obtain ⟨country, hc, he⟩ : ∃ c ∈ Spec.Cyrillic.alphabets, c.1 = "ru" := by decide +kernel
  have hy : ∀ c ∈ runes (str "이반"), Spec.Jamo.IsSyllable c := by decide +kernel
  refine ⟨sp, hl, by rw [h2, t2], ?_⟩
  obtain ⟨y, z, h3, h4, h5⟩ := C82_cyrillic hl hc (s := str "cyrillic[ru]") (by rw [h2, t1]) (by decide +kernel) (l := plain)
    (fun _ => .refl _) (translits := [(str "cyrillic[ru]", cyrillic plain "ru" (Cyrillic.mapping "ru"))])
    (by rw [he]; rfl) (x := runes (str "이반")) (by decide +kernel) (runes_valid _) (fun c hc => strange_syllable hl (hy c hc))
    (signless_syllables fun c hc => .inl (hy c hc)) (by rw [he]; decide +kernel) (a := str "ivan ") (b := str " иван")
    ((validUtf8_iff _).2 (by decide +kernel))
    (.inr ⟨str "иван", 0x20, by rw [he]; decide +kernel, by decide +kernel, .inr (by decide +kernel)⟩)
    (.inr ⟨str "иван", 0x20, by rw [he]; decide +kernel, by decide +kernel, .inr (by decide +kernel)⟩)
  refine ⟨y, z, h3, h4, ?_⟩
  rwa [show encode (runes (str "이반")) = str "이반" from by decide +kernel,
    show str "ivan " ++ str "이반" ++ str " иван" = str "ivan 이반 иван" from by decide +kernel] at h5

/-- In Italian Hangul with white space only loses some of the latter. -/
example : ∃ sp, Loaded bundled sp ∧ sp.lang.id = str "ita" ∧ hangulize sp [] (str "돌체\t  비타") = .ok (str "돌체 비타") := by
  have ok : Ord.written.Ok := ⟨fun _ _ _ _ => .refl _, fun _ => .refl _⟩
  obtain ⟨src, hs⟩ := Option.isSome_iff_exists.1 (show (bundled (str "ita")).isSome = true by decide +kernel)
  obtain ⟨la, hm, hsd⟩ := bundled_sound hs
  obtain ⟨sp, h1, h2, h3, _⟩ := hsd .written ok
  have ht : ∀ x ∈ table, x.1 = str "ita" → x.2.2.translit = [] ∧ x.2.2.id = str "ita" ∧ getScript x.2.2.script = some .latn := by
    decide +kernel
  obtain ⟨t1, t2, t3⟩ := ht _ hm rfl
  have hl : Loaded bundled sp := ⟨_, _, _, hs, ok, h1⟩
  have hk : sp.script ≠ .hrkt := by
    intro hk
    rw [t3, hk] at h3
    simp at h3
  have hy : ∀ c ∈ runes (str "돌체\t  비타"), Spec.Jamo.IsSyllable c ∨ isSpace c = true := by decide +kernel
  have := C82_plain (translits := []) hl hk (runes_valid (str "돌체\t  비타")) (fun c hc => (hy c hc).elim
    (fun h => .inr (strange_syllable hl h)) .inl) (signless_syllables hy) (evs := []) (by rw [h2, t1]; exact .done _)
  refine ⟨sp, hl, by rw [h2, t2], ?_⟩
  rwa [show encode (runes (str "돌체\t  비타")) = str "돌체\t  비타" from by decide +kernel,
    show encode (squeezed (runes (str "돌체\t  비타"))) = str "돌체 비타" from by decide +kernel] at this

/-- C82: when a word of which all letters have a meaning becomes Hangul, hangulizing this again leaves it as it is. -/
theorem C82_twice {sp : Spec} (h : Loaded bundled sp) (ht : sp.lang.translit = []) (translits : List (Bytes × Translit))
    {word out : Bytes} (hw : ValidUtf8 word) (ho : hangulize sp translits word = .ok out) (hm : ∀ c ∈ normal sp word, Meaningful sp c)
    (hq : 0x27 ∉ runes out) : hangulize sp translits out = .ok (encode (squeezed (runes out))) := by
  refine C82_again h ht translits hw ho (signless_syllables fun c hc => ?_) fun h => absurd h hq
  rcases C67_hangul (tr := none) h ho (fun w evs e => by rw [ht] at e; cases e; exact hm) c hc with h1 | rfl | rfl
  · exact .inl h1
  · exact absurd hc hq
  · exact .inr (by decide +kernel)

/-! ## Signs -/

/-- Some lines of specs/por.hsl. -/
def porLines : Bytes := str "lang:
    id      = \"por\"
    codes   = \"pt\", \"por\"
    english = \"Portuguese\"
    korean  = \"포르투갈어\"
    script  = \"Latn\"

rewrite:
    \"l\" -> \"l;\"
    \"~\" -> \"~,\"
    \";\" -> \"\"

transcribe:
    \"~\" -> \"-ㅇ\"
    \",\" -> \"\"
"

/-- C82 fails for signs which rules use as marks: they are worked on when they occur in the text, although they have no
meaning for the spec. -/
theorem C82_refuted : ∃ sp, parseSpec .written porLines = .ok sp ∧ Strange sp 0x7E ∧ Strange sp 0x3B ∧ Strange sp 0x31 ∧
    ¬ Signless sp [0x7E] ∧ hangulize sp [] (str "1~1") = .ok (str "1응1") ∧ hangulize sp [] (str "1;1") = .ok (str "11") := by
  have h : ((parseSpec .written porLines).bind fun sp => (hangulize sp [] (str "1~1")).bind fun a =>
      (hangulize sp [] (str "1;1")).bind fun b => .ok (sp.lang.id, a, b, decide (sp.normalize = [] ∧
        ¬ Meaningful sp 0x7E ∧ ¬ Meaningful sp 0x3B ∧ ¬ Meaningful sp 0x31))) = .ok (str "por", str "1응1", str "11", true) := by
    decide +kernel
  simp only [Rx.go_bind_ok] at h
  obtain ⟨sp, h1, a, h2, b, h3, h4⟩ := h
  simp only [Go.ok.injEq, Prod.mk.injEq, decide_eq_true_eq] at h4
  obtain ⟨h4, rfl, rfl, h5, h6, h7, h8⟩ := h4
  refine ⟨sp, h1, ⟨h6, by simp [h5], by decide⟩, ⟨h7, by simp [h5], by decide⟩, ⟨h8, by simp [h5], by decide⟩, fun h => ?_, h2, h3⟩
  exact h [0x7E] (by rw [h4]; decide +kernel) (List.infix_refl _)

end Verif.Props
