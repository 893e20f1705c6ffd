import Verif.Props.CaseTranslit

/-! Property C86: Chinese text is hangulized character by character. -/

namespace Verif.Props

open Verif.Specs Verif.Unicode Verif.Spec.Bundle Verif.Spec.Reference Verif.Spec.Foreign Verif.Spec.Chinese

theorem chinese {sp : Spec} (h : Loaded bundled sp) (hc : sp.lang.id = str "chi") :
    sp.lang.translit = [str "pinyin"] ∧ sp.script = .latn := by
  obtain ⟨lang, src, o, h1, h2, h3⟩ := h
  obtain ⟨la, hm, hs⟩ := bundled_sound h1
  obtain ⟨sp', e1, e2, e3, _⟩ := hs o h2
  rw [h3] at e1
  cases e1
  have : ∀ x ∈ table, x.2.2.id = str "chi" → x.2.2.translit = [str "pinyin"] ∧ getScript x.2.2.script = some .latn := by
    decide +kernel
  have ht := this _ hm (by rw [← hc, e2])
  rw [ht.2, Option.some.injEq] at e3
  exact ⟨by rw [e2]; exact ht.1, e3.symm⟩

/-- What the translit makes of a text in NFC. -/
theorem spelled {sp : Spec} (ht : sp.lang.translit = [str "pinyin"]) {l : Libraries} {translits : List (Bytes × Translit)}
    (hl : translits.lookup (str "pinyin") = some (pinyin l)) {cs : List Rune} (hv : ∀ c ∈ cs, validRune c = true)
    (hn : l.nfc (encode cs) = encode cs) : Transliterated translits sp.lang.translit (encode cs)
      [{ step := .transliterate, word := join Pinyin.separator (Pinyin.chunksLoop l.pinyin [] cs), why := (pinyin l).scheme }]
      (join Pinyin.separator (Pinyin.chunksLoop l.pinyin [] cs)) := by
  rw [ht]
  refine .scheme hl ?_ (.done _)
  show Go.ok _ = _
  rw [hn, Pinyin.transliterate, runes_encode hv]

/-- C86: two pieces of Chinese text are hangulized one by one if one of them has a character of the dictionary next to the
other one. -/
theorem C86_two {sp : Spec} (h : Loaded bundled sp) (hc : sp.lang.id = str "chi") {l : Libraries}
    {translits : List (Bytes × Translit)} (hl : translits.lookup (str "pinyin") = some (pinyin l)) {as bs : List Rune}
    (ha : as ≠ []) (hb : bs ≠ []) (va : ∀ c ∈ as, validRune c = true) (vb : ∀ c ∈ bs, validRune c = true)
    (na : l.nfc (encode as) = encode as) (nb : l.nfc (encode bs) = encode bs)
    (nc : l.nfc (encode (as ++ bs)) = encode (as ++ bs)) (hs : Spec.Chinese.Beside l.pinyin as bs) :
    ∃ y z, hangulize sp translits (encode as) = .ok y ∧ hangulize sp translits (encode bs) = .ok z ∧
      hangulize sp translits (encode (as ++ bs)) = .ok (y ++ z) := by
  obtain ⟨ht, hk⟩ := chinese h hc
  have key : ∀ {cs : List Rune}, _ := fun {cs} => spelled ht hl (cs := cs)
  obtain ⟨y, hy⟩ := hangulize_ok h (key va na)
  obtain ⟨z, hz⟩ := hangulize_ok h (key vb nb)
  have tx := key (cs := as ++ bs) (fun c hc => (List.mem_append.1 hc).elim (va c) (vb c)) nc
  rw [chunks_beside hs, join_append _ (chunks_ne (.inr hb)) (chunks_ne (.inr ha)),
    show Pinyin.separator = encode [0x200B] by decide +kernel] at tx
  have := hangulize_joined h (by rw [hk]; decide) (x := [0x200B]) (by simp) (by decide) ?_ ?_ (key va na) (key vb nb) tx
    (fun _ _ _ _ _ s hs => ?_) hy hz
  · refine ⟨y, z, hy, hz, ?_⟩
    simpa [encode] using this
  · intro c hc
    rw [List.mem_singleton.1 hc]
    obtain ⟨_, _, _, hp, _, _⟩ := loaded_checked h
    rintro (h1 | h1 | h1)
    · rw [hk] at h1
      exact absurd h1 (by decide +kernel)
    · exact absurd ((C29_puncts_partial hp _).1 h1).1 (by decide +kernel)
    · exact absurd h1 (by decide +kernel)
  · intro c hc
    rw [List.mem_singleton.1 hc]
    obtain ⟨keys, k1, k2, k2', _⟩ := loaded_foreign h
    exact (key_mem k1 (by decide)).2 fun k hk => (steady_key k2' hk).1.2.1
  · rw [hc] at hs
    exact absurd hs (by rw [show signs (str "chi") = [] by decide +kernel]; simp)

/-- C86: pieces of Chinese text are hangulized one by one if of two neighbours one has a character of the dictionary next to
the other one. -/
theorem C86_pieces {sp : Spec} (h : Loaded bundled sp) (hc : sp.lang.id = str "chi") {l : Libraries}
    {translits : List (Bytes × Translit)} (hl : translits.lookup (str "pinyin") = some (pinyin l)) :
    ∀ {ps : List (List Rune)}, ps ≠ [] → (∀ p ∈ ps, p ≠ []) → (∀ c ∈ ps.flatten, validRune c = true) →
      (∀ ds, ds <:+: ps.flatten → l.nfc (encode ds) = encode ds) → ps.IsChain (Spec.Chinese.Beside l.pinyin) →
      ∃ ys, List.Forall₂ (fun p y => hangulize sp translits (encode p) = .ok y) ps ys ∧
        hangulize sp translits (encode ps.flatten) = .ok ys.flatten
  | [], hn, _, _, _, _ => absurd rfl hn
  | [p], _, hp, hv, nf, _ => by
    rw [List.flatten_singleton] at hv nf
    obtain ⟨y, hy⟩ := hangulize_ok h (spelled (chinese h hc).1 hl hv (nf p ⟨[], [], by simp⟩))
    exact ⟨[y], .cons hy .nil, by simpa using hy⟩
  | p :: q :: ps, _, hp, hv, nf, hb => by
    obtain ⟨zs, h1, h2⟩ := C86_pieces h hc hl (ps := q :: ps) (by simp) (fun r hr => hp r (by simp [hr]))
      (fun c hc => hv c (by rw [List.flatten_cons]; exact List.mem_append_right _ hc)) (fun ds hd => nf ds (hd.trans ⟨p, [], by simp⟩)) hb.tail
    obtain ⟨y, z, e1, e2, e3⟩ := C86_two h hc hl (as := p) (bs := (q :: ps).flatten) (hp p (by simp)) (by simp [hp q])
      (fun c hc => hv c (by rw [List.flatten_cons]; exact List.mem_append_left _ hc)) (fun c hc => hv c (by rw [List.flatten_cons]; exact List.mem_append_right _ hc))
      (nf _ ⟨[], (q :: ps).flatten, by simp⟩) (nf _ ⟨p, [], by simp⟩) (nf _ (by simp)) (by
        rcases (List.isChain_cons_cons.1 hb).1 with h | ⟨c, hq, hd⟩
        · exact .inl h
        · refine .inr ⟨c, ?_, hd⟩
          rw [List.flatten_cons, List.head?_append_of_ne_nil _ (hp q (by simp))]
          exact hq)
    rw [h2] at e2
    cases e2
    exact ⟨y :: zs, .cons e1 h1, by simpa using e3⟩

/-- C86: text of characters of the dictionary is hangulized character by character. -/
theorem C86_characters {sp : Spec} (h : Loaded bundled sp) (hc : sp.lang.id = str "chi") {l : Libraries}
    {translits : List (Bytes × Translit)} (hl : translits.lookup (str "pinyin") = some (pinyin l)) {cs : List Rune}
    (hn : cs ≠ []) (hv : ∀ c ∈ cs, validRune c = true) (hd : ∀ c ∈ cs, l.pinyin c ≠ [])
    (nf : ∀ ds, ds <:+: cs → l.nfc (encode ds) = encode ds) :
    ∃ ys, List.Forall₂ (fun c y => hangulize sp translits (encodeRune c) = .ok y) cs ys ∧
      hangulize sp translits (encode cs) = .ok ys.flatten := by
  have e : (cs.map fun c => [c]).flatten = cs := by simp [← List.flatMap_def]
  have ch : ∀ cs : List Rune, (∀ c ∈ cs, l.pinyin c ≠ []) → (cs.map fun c => [c]).IsChain (Spec.Chinese.Beside l.pinyin) := by
    intro cs
    induction cs with
    | nil => intro _; simp
    | cons c cs ih =>
      intro hd
      cases cs with
      | nil => simp
      | cons d cs =>
        refine List.isChain_cons_cons.2 ⟨.inl ⟨c, rfl, hd c (by simp)⟩, ih fun d hd' => hd d (by simp [hd'])⟩
  obtain ⟨ys, h1, h2⟩ := C86_pieces h hc hl (ps := cs.map fun c => [c]) (by simpa using hn) (by simp) (by rwa [e]) (by rwa [e])
    (ch cs hd)
  rw [e] at h2
  refine ⟨ys, ?_, h2⟩
  rw [List.forall₂_map_left_iff] at h1
  simpa [encode] using h1

/-- C86: white space between characters of the dictionary becomes a space between the results. -/
theorem C86_words {sp : Spec} (h : Loaded bundled sp) (hc : sp.lang.id = str "chi") {l : Libraries}
    {translits : List (Bytes × Translit)} (hl : translits.lookup (str "pinyin") = some (pinyin l)) {as ws bs : List Rune}
    (va : ∀ c ∈ as ++ ws ++ bs, validRune c = true) (hw : ws ≠ []) (hs : ∀ c ∈ ws, isSpace c = true ∧ l.pinyin c = [])
    (ha : ∃ c ∈ as.getLast?, l.pinyin c ≠ []) (hb : ∃ c ∈ bs.head?, l.pinyin c ≠ [])
    (nf : ∀ ds, ds <:+: as ++ ws ++ bs → l.nfc (encode ds) = encode ds) :
    ∃ y z, hangulize sp translits (encode as) = .ok y ∧ hangulize sp translits (encode bs) = .ok z ∧
      hangulize sp translits (encode (as ++ ws ++ bs)) = .ok (y ++ 0x20 :: z) := by
  have na : as ≠ [] := by rintro rfl; simp at ha
  have nb : bs ≠ [] := by rintro rfl; simp at hb
  obtain ⟨ys, h1, h2⟩ := C86_pieces h hc hl (ps := [as, ws, bs]) (by simp) (by simp [na, nb, hw]) (by simpa using va) (by simpa using nf)
    (List.isChain_cons_cons.2 ⟨.inl ha, List.isChain_cons_cons.2 ⟨.inr hb, by simp⟩⟩)
  cases h1 with | cons e1 h1 => cases h1 with | cons e2 h1 => cases h1 with | cons e3 h1 => cases h1 with | nil =>
  refine ⟨_, _, e1, e3, ?_⟩
  have vw : ∀ c ∈ ws, validRune c = true := fun c hc => va c (by simp [hc])
  have tx := spelled (chinese h hc).1 hl vw (nf ws ⟨as, bs, rfl⟩)
  have he : ∀ (ws : List Rune) (buf : Bytes), (∀ c ∈ ws, isSpace c = true ∧ l.pinyin c = []) →
      join Pinyin.separator (Pinyin.chunksLoop l.pinyin buf ws) = buf ++ encode ws := by
    intro ws
    induction ws with
    | nil => intro buf _; by_cases hb : buf = [] <;> simp [Pinyin.chunksLoop, join, hb, encode]
    | cons c ws ih =>
      intro buf hs
      rw [Pinyin.chunksLoop, (hs c (by simp)).2]
      simp only
      rw [ih _ fun d hd => hs d (by simp [hd]), encode_cons, List.append_assoc]
  rw [he ws [] hs, List.nil_append] at tx
  have hp := C82_plain h (by rw [(chinese h hc).2]; decide) vw (fun c hc => .inl (hs c hc).1)
    (fun s hs => by rw [hc] at hs; exact absurd hs (by rw [show signs (str "chi") = [] by decide +kernel]; simp)) tx
  have hq : ∀ ws : List Rune, ws ≠ [] → (∀ c ∈ ws, isSpace c = true ∧ l.pinyin c = []) → squeezed ws = [0x20] := by
    intro ws
    induction ws with
    | nil => intro h _; contradiction
    | cons c ws ih =>
      intro _ hs
      rw [squeezed, if_pos (hs c (by simp)).1]
      cases ws with
      | nil => simp [squeezed]
      | cons d ws =>
        rw [if_pos ⟨d, rfl, (hs d (by simp)).1⟩]
        exact ih (by simp) fun e he => hs e (by simp [he])
  rw [e2, hq ws hw hs] at hp
  cases hp
  simpa [encode, show encodeRune 32 = [32] by decide +kernel] using h2

/-- A dictionary with `北` and `京`. -/
def twoCharacters : Libraries :=
  ⟨id, fun _ => [], fun c => if c = 0x5317 then [str "bei"] else if c = 0x4EAC then [str "jing"] else [], id⟩

/-- The hypotheses of C86 are met, for instance by `北京` and `京 北`. -/
example : ∃ sp, Loaded bundled sp ∧ sp.lang.id = str "chi" ∧
    (∃ y z, hangulize sp (standardRegistry twoCharacters) (str "北") = .ok y ∧
      hangulize sp (standardRegistry twoCharacters) (str "京") = .ok z ∧
      hangulize sp (standardRegistry twoCharacters) (str "北京") = .ok (y ++ z) ∧
      hangulize sp (standardRegistry twoCharacters) (str "京  北") = .ok (z ++ 0x20 :: y)) := by
  have ok : Ord.written.Ok := ⟨fun _ _ _ _ => .refl _, fun _ => .refl _⟩
  obtain ⟨src, hs⟩ := Option.isSome_iff_exists.1 (show (bundled (str "chi")).isSome = true by decide +kernel)
  obtain ⟨la, hm, hsd⟩ := bundled_sound hs
  obtain ⟨sp, h1, h2, h3, _⟩ := hsd .written ok
  have ht : ∀ x ∈ table, x.1 = str "chi" → x.2.2.id = str "chi" := by decide +kernel
  have hl : Loaded bundled sp := ⟨_, _, _, hs, ok, h1⟩
  have hi : sp.lang.id = str "chi" := by rw [h2]; exact ht _ hm rfl
  have hr : (standardRegistry twoCharacters).lookup (str "pinyin") = some (pinyin twoCharacters) :=
    standard_lookup (t := pinyin twoCharacters) (by simp [standard])
  obtain ⟨ys, e1, e2⟩ := C86_characters hl hi hr (cs := [0x5317, 0x4EAC]) (by simp) (by decide) (by decide +kernel) (fun _ _ => rfl)
  cases e1 with | cons f1 e1 => cases e1 with | cons f2 e1 => cases e1 with | nil =>
  obtain ⟨y, z, g1, g2, g3⟩ := C86_words hl hi hr (as := [0x4EAC]) (ws := [0x20, 0x20]) (bs := [0x5317]) (by decide) (by simp)
    (by decide +kernel) ⟨0x4EAC, rfl, by decide +kernel⟩ ⟨0x5317, rfl, by decide +kernel⟩ (fun _ _ => rfl)
  rw [show encode [0x4EAC] = encodeRune 0x4EAC by decide +kernel, f2] at g1
  rw [show encode [0x5317] = encodeRune 0x5317 by decide +kernel, f1] at g2
  cases g1
  cases g2
  rw [show encodeRune 0x5317 = str "北" by decide +kernel] at f1
  rw [show encodeRune 0x4EAC = str "京" by decide +kernel] at f2
  rw [show encode [0x5317, 0x4EAC] = str "北京" by decide +kernel] at e2
  rw [show encode ([0x4EAC] ++ [0x20, 0x20] ++ [0x5317]) = str "京  北" by decide +kernel] at g3
  exact ⟨sp, hl, hi, _, _, f1, f2, by simpa using e2, g3⟩

end Verif.Props
