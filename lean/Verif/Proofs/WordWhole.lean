import Verif.Proofs.WordText
import Verif.Proofs.Alphabet

/-! The whole procedure on a text of two parts separated by a space. -/

namespace Verif.Words

open Verif.Hre Verif.Spec.Subword Verif.Spec.Procedure Verif.Spec.Reference

/-! ## Segments without white space -/

/-- Every letter. -/
abbrev Any : Rune → Prop := fun _ => True

/-- Letters without white space. -/
abbrev Dense (rs : List Rune) : Prop := ∀ c ∈ rs, Unicode.isSpace c = false

theorem Dense.nil : Dense [] := fun _ h => absurd h (by simp)

theorem Dense.append {a b : List Rune} (ha : Dense a) (hb : Dense b) : Dense (a ++ b) := by
  intro c hc
  rcases List.mem_append.1 hc with hc | hc
  · exact ha c hc
  · exact hb c hc

/-- Rewritten text without white space. -/
def H1 (l : Int) (rs : List Rune) : Prop := G1 Any l rs ∧ Dense rs

/-- Transcribed text without white space. -/
def H2 (l : Int) (rs : List Rune) : Prop := G2 Any l rs ∧ Dense rs

/-- The same without what was not transcribed. -/
def H3 (l : Int) (rs : List Rune) : Prop := G3 Any l rs ∧ Dense rs

theorem H1.append {l : Int} {a b : List Rune} (ha : H1 l a) (hb : H1 l b) : H1 l (a ++ b) :=
  ⟨ha.1.append hb.1, Dense.append ha.2 hb.2⟩

theorem H2.append {l : Int} {a b : List Rune} (ha : H2 l a) (hb : H2 l b) : H2 l (a ++ b) :=
  ⟨ha.1.append hb.1, Dense.append ha.2 hb.2⟩

theorem H3.append {l : Int} {a b : List Rune} (ha : H3 l a) (hb : H3 l b) : H3 l (a ++ b) :=
  ⟨ha.1.append hb.1, Dense.append ha.2 hb.2⟩

theorem H1.divisible : Divisible H1 := fun l a b hl h =>
  have := G1.divisible l a b hl h.1
  ⟨⟨this.1, fun c hc => h.2 c (by simp [hc])⟩, ⟨this.2, fun c hc => h.2 c (by simp [hc])⟩⟩

theorem H2.divisible : Divisible H2 := fun l a b hl h =>
  have := G2.divisible l a b hl h.1
  ⟨⟨this.1, fun c hc => h.2 c (by simp [hc])⟩, ⟨this.2, fun c hc => h.2 c (by simp [hc])⟩⟩

theorem H1.not_two (rs : List Rune) : ¬ H1 2 rs := by
  rintro ⟨⟨h, _⟩ | h, _⟩ <;> omega

theorem encodeRune_ascii {r : Rune} {b : UInt8} (hv : validRune r = true) (h : b ∈ encodeRune r) (hb : b.toNat < 0x80) : b.toNat = r := by
  obtain ⟨u, v, e⟩ := List.append_of_mem h
  have h1 := runes_encode (rs := [r]) (by simpa using hv)
  simp only [encode_cons, encode_nil, List.append_nil] at h1
  have h2 := decode_split u hb v
  rw [← e] at h2
  have : b.toNat ∈ runes (encodeRune r) := by
    simp only [runes, h2]
    simp
  rw [h1] at this
  simpa using this

theorem blank_space : ∀ c, blank c = true → c < 0x80 ∧ Unicode.isSpace c = true := by
  intro c h
  simp only [blank, Bool.or_eq_true, beq_iff_eq] at h
  rcases h with (((rfl | rfl) | rfl) | rfl) | rfl <;> exact ⟨by omega, by decide +kernel⟩

theorem dense_bytes {rs : List Rune} (hv : ∀ r ∈ rs, validRune r = true) (h : ∀ c ∈ rs, Unicode.isSpace c = false) :
    ∀ b ∈ encode rs, blank b.toNat = false := by
  intro b hb
  cases hn : blank b.toNat with
  | false => rfl
  | true =>
    obtain ⟨h1, h2⟩ := blank_space _ hn
    simp only [encode, List.mem_flatMap] at hb
    obtain ⟨r, hr, hb⟩ := hb
    rw [encodeRune_ascii (hv r hr) hb h1, h r hr] at h2
    simp at h2

theorem made_solid {G : Int → List Rune → Prop} (hG : ∀ l rs, G l rs → Dense rs) {t : Tagged} (h : Made G t) : ∀ x ∈ t, blank x.1.toNat = false := by
  obtain ⟨segs, hs, rfl⟩ := h
  intro x hx
  simp only [segText, List.mem_flatMap, at_, List.mem_map] at hx
  obtain ⟨s, h1, b, h2, rfl⟩ := hx
  obtain ⟨h3, h4⟩ := hs s h1
  exact dense_bytes h3 (hG _ _ h4) b h2

/-! ## Rules -/

theorem rewrite_dense {r : Rule} (h : bundleCheck .rewrite r = true) (hw : wordCheck .rewrite r = true) {word : Bytes} {m : List Int} {w : Bytes}
    (hi : interpolate r.to r.pat word m = .ok w) : ValidUtf8 w ∧ ∀ c ∈ runes w, Unicode.isSpace c = false := by
  simp only [bundleCheck, wordCheck, Bool.and_eq_true] at h hw
  obtain ⟨h1, h2⟩ := everyText_sound h.2
  obtain ⟨h3, h4⟩ := everyText_sound hw.2
  have hd : ∀ t, dense t = true → ∀ c ∈ runes t, Unicode.isSpace c = false := by
    intro t ht c hc
    simpa using List.all_eq_true.1 ht c hc
  refine interpolateParts_texts (Q := fun w => ValidUtf8 w ∧ ∀ c ∈ runes w, Unicode.isSpace c = false) ⟨.nil, by simp [runes, decode_nil]⟩
    (fun a b ha hb => ⟨ha.1.append hb.1, ?_⟩) _ _
    (fun t ht => ⟨valid_sound (h1 t ht), hd _ (h3 t ht)⟩)
    (fun v hv x hx => ⟨valid_sound (h2 v hv x hx), hd _ (h4 v hv x hx)⟩) hi
  rw [runes_append ha.1]
  intro c hc
  rcases List.mem_append.1 hc with hc | hc
  · exact ha.2 c hc
  · exact hb.2 c hc

theorem rewritten_dense {rules : List Rule} (hr : ∀ r ∈ rules, bundleCheck .rewrite r = true) (hw : ∀ r ∈ rules, wordCheck .rewrite r = true)
    {p : Subword} {ws : Option (List Bytes)} {out : List Subword} (h : Rewritten rules p ws out) (hp : Seg H1 p) :
    Made H1 (tagged out) := by
  obtain ⟨ws, t, _, h1, rfl⟩ := h
  obtain ⟨rs, e1, e2⟩ := hp
  have h2 := H1.not_two
  have hm : Made H1 t := by
    refine applied_made H1.divisible (fun t ht => (text_hidden h2 ht).2) h1 (fun r hr' => ?_) (by rw [e1]; exact .one e2)
    have hb := hr r hr'
    have hf : firm r.pat = true := by
      simp only [bundleCheck, checked, Bool.and_eq_true] at hb
      exact hb.1.1.1
    refine ⟨hf, fun word m w hi => ?_, fun t ht rs _ x _ p _ _ y hy => (text_hidden h2 ht).1 y (List.mem_of_getElem? hy)⟩
    obtain ⟨v1, v2⟩ := rewrite_dense hb (hw r hr') hi
    exact ⟨runes w, (encode_runes v1).symm, runes_valid w, .inr rfl, v2⟩
  rw [tagged_pieces hm]
  exact hm

theorem spelled_dense : ∀ (cs : List Rune) (h : Bool), spelled h cs = true → Dense cs
  | [], _, _ => .nil
  | c :: cs, h, e => by
    have far : ∀ d, 0x3130 ≤ d → Unicode.isSpace d = false := by
      intro d hd
      simp only [Unicode.isSpace, Unicode.inTable, Unicode.spaceTable, List.any_eq_false, Bool.and_eq_true, decide_eq_true_eq]
      intro p hp
      have : ∀ p ∈ Unicode.spaceTable, p.2 < 0x3130 := by decide +kernel
      have := this p hp
      omega
    have le : ∀ d ∈ Spec.Jamo.leadLetters, 0x3130 ≤ d := by decide +kernel
    have ta : ∀ d ∈ Spec.Jamo.tailLetters, 0x3130 ≤ d := by decide +kernel
    suffices Unicode.isSpace c = false ∧ Dense cs by
      intro d hd
      rcases List.mem_cons.1 hd with rfl | hd
      · exact this.1
      · exact this.2 d hd
    unfold spelled at e
    split at e
    · rename_i hc
      subst hc
      exact ⟨by decide +kernel, spelled_dense cs true e⟩
    · simp only [Bool.and_eq_true, Bool.or_eq_true, decide_eq_true_eq, beq_iff_eq] at e
      obtain ⟨e1, e2⟩ := e
      refine ⟨?_, spelled_dense cs false e2⟩
      rcases e1 with ((e1 | e1) | e1) | e1
      · exact far c (by omega)
      · subst e1
        decide +kernel
      · exact far c (by omega)
      · refine far c ?_
        cases h
        · exact le c (by simpa using e1)
        · exact ta c (by simpa using e1)

theorem transcribe_dense {r : Rule} (h : bundleCheck .transcribe r = true) {word : Bytes} {m : List Int} {w : Bytes}
    (hi : interpolate r.to r.pat word m = .ok w) : Dense (runes w) := by
  simp only [bundleCheck, Bool.and_eq_true] at h
  obtain ⟨h1, h2⟩ := everyText_sound h.1.1.2
  obtain ⟨h3, h4⟩ := everyText_sound h.2
  exact (interpolateParts_texts (Q := fun w => ValidUtf8 w ∧ Dense (runes w)) ⟨.nil, .nil⟩
    (fun a b ha hb => ⟨ha.1.append hb.1, by rw [runes_append ha.1]; exact Dense.append ha.2 hb.2⟩) _ _
    (fun t ht => ⟨valid_sound (h1 t ht), spelled_dense _ _ (h3 t ht)⟩)
    (fun v hv x hx => ⟨valid_sound (h2 v hv x hx), spelled_dense _ _ (h4 v hv x hx)⟩) hi).2

theorem transcribed_dense {rules : List Rule} (hr : ∀ r ∈ rules, bundleCheck .transcribe r = true) {p : Subword}
    {ws : Option (List Bytes)} {out : List Subword} (h : Transcribed rules p ws out) (hp : Seg H1 p) : Made H2 (tagged out) := by
  have hp : Seg H2 p := by
    obtain ⟨rs, e1, e2, e3⟩ := hp
    refine ⟨rs, e1, e2, ?_, e3.2⟩
    rcases e3.1 with e3 | e3
    · exact .inl e3
    · exact .inr (.inl e3)
  rcases h with ⟨_, _, rfl⟩ | ⟨_, ws, t, _, h1, rfl⟩
  · exact made_of_sat (by simpa using hp)
  obtain ⟨rs, e1, e2⟩ := hp
  have hm : Made H2 t := by
    refine applied_made H2.divisible (fun t ht => rfl) h1 (fun r hr' => ?_) (by rw [e1]; exact .one e2)
    have hb := hr r hr'
    have hb' := hb
    simp only [bundleCheck, checked, Bool.and_eq_true] at hb'
    refine ⟨hb'.1.1.1.1.1, fun word m w hi => ?_, fun t ht rs hrs x hx p h1 h2 y hy e => ?_⟩
    · obtain ⟨w1, w2⟩ := transcribe_words hb hi
      exact ⟨runes w, (encode_runes w1).symm, runes_valid w, .inr (.inr ⟨rfl, w2⟩), transcribe_dense hb hi⟩
    · refine avoids_noNul hb'.1.2 _ rs hrs x hx p h1 h2 ?_
      simp [Spec.Procedure.hidden, hy, e]
  rw [tagged_pieces hm]
  exact hm

/-! ## The two stages -/

/-- One piece rewritten. -/
def RewriteT (rules : List Rule) (p : Subword) (t : Tagged) : Prop :=
  ∃ ws, Applied 1 (List.map (·.1)) rules (at_ p.level p.word) ws t

/-- How transcribing rules see a byte. -/
def veil (x : UInt8 × Int) : UInt8 := if x.2 = 2 then 0 else x.1

/-- One piece transcribed. -/
def TranscribeT (rules : List Rule) (p : Subword) (t : Tagged) : Prop :=
  (p.level = 0 ∧ t = at_ 0 p.word) ∨ (p.level ≠ 0 ∧ ∃ ws, Applied 2 (List.map veil) rules (at_ p.level p.word) ws t)

theorem at_both (a b : Bytes) : at_ 1 (a ++ 0x20 :: b) = at_ 1 a ++ gap :: at_ 1 b := by simp [at_, gap]

theorem stage_rewrite {rules : List Rule} (hr : ∀ r ∈ rules, bundleCheck .rewrite r = true) (hw : ∀ r ∈ rules, wordCheck .rewrite r = true) :
    Stage (RewriteT rules) fun x => blank x.1.toNat = false := by
  have hf : ∀ r ∈ rules, firm r.pat = true := fun r h => by
    have := hr r h
    simp only [bundleCheck, checked, Bool.and_eq_true] at this
    exact this.1.1.1
  refine ⟨fun p t t' ⟨_, h1⟩ ⟨_, h2⟩ => applied_unique h1 h2, ?_, ?_⟩
  · obtain ⟨ws, h⟩ := applied_nil (lvl := 1) (f := fun x => x.1) hf
    exact ⟨ws, h⟩
  · rintro a b x y z ha ⟨_, hx⟩ ⟨_, hy⟩ ⟨_, hz⟩
    simp only [at_both] at hz
    refine (applied_both (Q := fun x => blank x.1.toNat = false) rfl (fun _ h => h) (fun r h => ⟨hf r h, ?_, ?_⟩) ?_ hx hy hz).1
    · have := hw r h
      simp only [wordCheck, Bool.and_eq_true] at this
      exact this.1
    · intro w m v hi c hc
      obtain ⟨v1, v2⟩ := rewrite_dense (hr r h) (hw r h) hi
      rw [← encode_runes v1] at hc
      exact dense_bytes (runes_valid v) v2 c hc
    · intro c hc
      simp only [at_, List.mem_map] at hc
      obtain ⟨d, hd, rfl⟩ := hc
      exact ha d hd

theorem stage_transcribe {rules : List Rule} (hr : ∀ r ∈ rules, bundleCheck .transcribe r = true)
    (hw : ∀ r ∈ rules, wordCheck .transcribe r = true) :
    Stage (TranscribeT rules) fun x => x.2 ≠ 2 → blank x.1.toNat = false := by
  have hf : ∀ r ∈ rules, firm r.pat = true := fun r h => by
    have := hr r h
    simp only [bundleCheck, checked, Bool.and_eq_true] at this
    exact this.1.1.1.1.1
  refine ⟨?_, ?_, ?_⟩
  · rintro p t t' (⟨h1, rfl⟩ | ⟨h1, _, h2⟩) (⟨h3, rfl⟩ | ⟨h3, _, h4⟩)
    · rfl
    · exact absurd h1 h3
    · exact absurd h3 h1
    · exact applied_unique h2 h4
  · obtain ⟨ws, h⟩ := applied_nil (lvl := 2) (f := veil) hf
    exact .inr ⟨by simp, ws, h⟩
  · rintro a b x y z ha (⟨h, _⟩ | ⟨_, _, hx⟩) (⟨h, _⟩ | ⟨_, _, hy⟩) (⟨h, _⟩ | ⟨_, _, hz⟩)
    case inr.inr.inr =>
      simp only [at_both] at hz
      refine (applied_both (Q := fun x => x.2 ≠ 2 → blank x.1.toNat = false) rfl (fun x h => ?_) (fun r h => ⟨hf r h, hw r h, ?_⟩) ?_ hx hy hz).1
      · unfold veil
        split
        · rfl
        · rename_i hl
          exact h hl
      · intro w m v hi c hc h2
        exact absurd rfl h2
      · intro c hc
        simp only [at_, List.mem_map] at hc
        obtain ⟨d, hd, rfl⟩ := hc
        exact ha d hd
    all_goals simp at h

theorem each_through {R : Subword → Option (List Bytes) → List Subword → Prop} {S : Subword → Tagged → Prop} {ps : List Subword}
    {rows : List (Option (List Bytes))} {out : List Subword} (h : Each R ps rows out)
    (hs : ∀ p ∈ ps, ∀ ws out, R p ws out → S p (tagged out)) : Through S ps (tagged out) := by
  induction h with
  | nil => exact .nil
  | cons one rest ih =>
    rw [tagged_append]
    exact .cons (hs _ (by simp) _ _ one) (ih fun p hp => hs p (by simp [hp]))

theorem rewritten_T {rules : List Rule} (hr : ∀ r ∈ rules, bundleCheck .rewrite r = true) {p : Subword}
    {ws : Option (List Bytes)} {out : List Subword} (hp : Seg (G1 Any) p) (h : Rewritten rules p ws out) : RewriteT rules p (tagged out) := by
  have hm := rewritten_made hr h hp
  obtain ⟨ws, t, _, h1, rfl⟩ := h
  have : Made (G1 Any) t := by
    obtain ⟨rs, e1, e2⟩ := hp
    have h2 : ∀ rs, ¬ G1 Any 2 rs := by intro rs h; rcases h with ⟨h, _⟩ | h <;> omega
    refine applied_made G1.divisible (fun t ht => (text_hidden h2 ht).2) h1 (fun r hr' => ?_) (by rw [e1]; exact .one e2)
    have hb := hr r hr'
    have hf : firm r.pat = true := by
      simp only [bundleCheck, checked, Bool.and_eq_true] at hb
      exact hb.1.1.1
    refine ⟨hf, fun word m w hi => ?_, fun t ht rs _ x _ p _ _ y hy => (text_hidden h2 ht).1 y (List.mem_of_getElem? hy)⟩
    exact ⟨runes w, (encode_runes (rewrite_words hb hi)).symm, runes_valid w, .inr rfl⟩
  rw [tagged_pieces this]
  exact ⟨ws, h1⟩

theorem transcribed_T {rules : List Rule} (hr : ∀ r ∈ rules, bundleCheck .transcribe r = true) {p : Subword}
    {ws : Option (List Bytes)} {out : List Subword} (hp : Seg (G1 Any) p) (h : Transcribed rules p ws out) : TranscribeT rules p (tagged out) := by
  rcases h with ⟨h0, _, rfl⟩ | ⟨h0, ws, t, _, h1, rfl⟩
  · refine .inl ⟨h0, ?_⟩
    simp [tagged, at_, h0]
  · obtain ⟨rs, e1, e2, e3⟩ := hp
    have e2 : Sat (G2 Any) (p.level, rs) := by
      refine ⟨e2, ?_⟩
      rcases e3 with e3 | e3
      · exact .inl e3
      · exact .inr (.inl e3)
    have hm : Made (G2 Any) t := by
      refine applied_made G2.divisible (fun t ht => rfl) h1 (fun r hr' => ?_) (by rw [e1]; exact .one e2)
      have hb := hr r hr'
      have hb' := hb
      simp only [bundleCheck, checked, Bool.and_eq_true] at hb'
      refine ⟨hb'.1.1.1.1.1, fun word m w hi => ?_, fun t ht rs hrs x hx p h1 h2 y hy e => ?_⟩
      · obtain ⟨w1, w2⟩ := transcribe_words hb hi
        exact ⟨runes w, (encode_runes w1).symm, runes_valid w, .inr (.inr ⟨rfl, w2⟩)⟩
      · refine avoids_noNul hb'.1.2 _ rs hrs x hx p h1 h2 ?_
        simp [Spec.Procedure.hidden, hy, e]
    rw [tagged_pieces hm]
    exact .inr ⟨h0, ws, h1⟩

/-! ## After normalization -/

/-- The level of a letter at first. -/
def level (sp : Spec) (c : Rune) : Int := if Meaningful sp c then 1 else 0

/-- What follows normalization. -/
def Rest (sp : Spec) (cs : List Rune) (out : Bytes) : Prop :=
  ∃ (rows rows' : List (Option (List Bytes))) (rewritten transcribed : List Subword) (composed : Bytes),
    Each (Rewritten sp.rewrite) (chunks (cs.map fun c => (c, level sp c))) rows rewritten ∧
    Each (Transcribed sp.transcribe) (joined rewritten) rows' transcribed ∧
    Composed (joined (cleaned (joined transcribed))) composed ∧
    out = encode (localized sp.script (runes composed))

/-- The text at first. -/
def begin_ (sp : Spec) (cs : List Rune) : Tagged := runesText (cs.map fun c => (c, level sp c))

theorem chunks_begin (sp : Spec) (cs : List Rune) : chunks (cs.map fun c => (c, level sp c)) = blocks (begin_ sp cs) := by
  rw [begin_, ← tagged_chunks, blocks_tagged _ (chunks_nonempty _) (chunks_alternating _)]

theorem begin_both (sp : Spec) (xs ys : List Rune) : begin_ sp (xs ++ 0x20 :: ys) = begin_ sp xs ++ gap :: begin_ sp ys := by
  have : level sp 0x20 = 1 := by
    rw [level, if_pos]
    exact .inr (.inr (by decide +kernel))
  simp only [begin_, runesText, List.map_append, List.map_cons, List.flatMap_append, List.flatMap_cons, this]
  rfl

theorem level_01 (sp : Spec) (c : Rune) : level sp c = 0 ∨ level sp c = 1 := by
  unfold level
  split <;> simp

theorem chunk_seg {sp : Spec} {cs : List Rune} (hv : ∀ c ∈ cs, validRune c = true) :
    ∀ p ∈ chunks (cs.map fun c => (c, level sp c)), Seg (G1 Any) p := by
  have := partition_segs (K := Any) (level_01 sp) (encode cs) (fun _ _ _ => trivial)
  rwa [runes_encode hv] at this

theorem chunk_dense {sp : Spec} {cs : List Rune} (hv : ∀ c ∈ cs, validRune c = true) (hd : ∀ c ∈ cs, Unicode.isSpace c = false) :
    ∀ p ∈ chunks (cs.map fun c => (c, level sp c)), Seg H1 p := by
  intro p hp
  obtain ⟨g, hg, rfl⟩ := List.mem_map.1 hp
  have hm : ∀ c ∈ g, c.1 ∈ cs ∧ c.2 = level sp c.1 := by
    intro c hc
    have := splitBy_mem hg hc
    obtain ⟨r, h1, rfl⟩ := List.mem_map.1 this
    exact ⟨h1, rfl⟩
  refine ⟨g.map (·.1), rfl, ?_, ?_, ?_⟩
  · intro r hr
    obtain ⟨c, hc, rfl⟩ := List.mem_map.1 hr
    exact hv _ (hm c hc).1
  · cases g with
    | nil => exact .inl ⟨rfl, by simp⟩
    | cons a g =>
      have := (hm a (by simp)).2
      simp only [chunk, List.head?_cons, Option.map_some, Option.getD_some, this]
      rcases level_01 sp a.1 with h | h
      · exact .inl ⟨h, fun _ _ => trivial⟩
      · exact .inr h
  · intro r hr
    obtain ⟨c, hc, rfl⟩ := List.mem_map.1 hr
    exact hd _ (hm c hc).1

theorem tokens_other : ∀ (rs : List Rune) (h : Bool) (r : Rune), Spec.Jamo.Tok.other r ∈ Spec.Jamo.tokens h rs → r ∈ rs
  | [], h, r, hr => by simp [Spec.Jamo.tokens] at hr
  | c :: cs, h, r, hr => by
    unfold Spec.Jamo.tokens at hr
    split at hr
    · exact List.mem_cons_of_mem _ (tokens_other cs _ r hr)
    · split at hr
      · simp only [List.mem_cons, reduceCtorEq, false_or] at hr
        exact List.mem_cons_of_mem _ (tokens_other cs _ r hr)
      · split at hr
        · simp only [List.mem_cons, reduceCtorEq, false_or] at hr
          exact List.mem_cons_of_mem _ (tokens_other cs _ r hr)
        · simp only [List.mem_cons, Spec.Jamo.Tok.other.injEq] at hr
          rcases hr with rfl | hr
          · simp
          · exact List.mem_cons_of_mem _ (tokens_other cs _ r hr)

theorem compose_dense {rs : List Rune} (h : Spelled false rs) (hd : Dense rs) : 0x20 ∉ Spec.Jamo.compose rs := by
  intro hc
  unfold Spec.Jamo.compose at hc
  rw [Jamo.splitBy_eq] at hc
  obtain ⟨b, hb, e⟩ := List.mem_map.1 hc
  have hm : ∀ t ∈ b, t ∈ Spec.Jamo.tokens false rs := by
    intro t ht
    have := Jamo.groups_flatten (Spec.Jamo.tokens false rs) []
    simp only [List.nil_append] at this
    rw [← this]
    exact List.mem_flatten.2 ⟨b, hb, ht⟩
  rcases blockRune_cases fun t ht => tokens_good h t (hm t ht) with h1 | h1
  · rw [e] at h1
    exact absurd h1 (by decide)
  · rw [e] at h1
    have := tokens_other rs false 0x20 (hm _ (h1 ▸ List.mem_singleton.2 rfl))
    have := hd _ this
    exact absurd this (by decide +kernel)

theorem cleaned_dense {sws : List Subword} (h : ∀ p ∈ sws, Seg H2 p) : ∀ p ∈ cleaned sws, Seg H3 p := by
  intro p hp
  obtain ⟨q, hq, hp⟩ := List.mem_flatMap.1 hp
  obtain ⟨rs, e1, e2, e3, e4⟩ := h q hq
  split at hp
  · rename_i hl
    simp only [List.mem_singleton] at hp
    subst hp
    refine ⟨rs, e1, e2, ?_, e4⟩
    rcases e3 with e3 | e3 | e3
    · exact .inl e3
    · exact absurd e3 hl
    · exact .inr ⟨by simp only at e3 ⊢; omega, e3.2⟩
  · split at hp
    · rename_i hs
      obtain ⟨c, hc, hs⟩ := hs
      rw [e1, runes_encode e2] at hc
      simp [e4 c hc] at hs
    · simp at hp

theorem composed_dense {sws : List Subword} {w : Bytes} (h : Composed sws w) : (∀ p ∈ sws, Seg H3 p) → 0x20 ∉ runes w := by
  induction h with
  | @run sws h =>
    intro hs
    have key : ∃ rs, sws.flatMap (·.word) = encode rs ∧ (∀ r ∈ rs, validRune r = true) ∧ Spelled false rs ∧ Dense rs := by
      clear * - h hs
      induction sws with
      | nil => exact ⟨[], rfl, by simp, .done, .nil⟩
      | cons p sws ih =>
        obtain ⟨rs, h1, h2, h3, h4⟩ := ih (fun s hs' => h s (by simp [hs'])) fun s hs' => hs s (by simp [hs'])
        obtain ⟨rs', e1, e2, e3, e4⟩ := hs p (by simp)
        have hl := h p (by simp)
        rcases e3 with ⟨e3, _⟩ | ⟨_, e3⟩
        · exact absurd e3 hl
        refine ⟨rs' ++ rs, by simp [e1, h1, encode_append], ?_, e3.append h3, Dense.append e4 h4⟩
        intro r hr
        rcases List.mem_append.1 hr with hr | hr
        · exact e2 r hr
        · exact h2 r hr
    obtain ⟨rs, h1, h2, h3, h4⟩ := key
    rw [Jamo.composeHangul_eq, h1, runes_encode h2]
    have hv : ∀ c ∈ Spec.Jamo.compose rs, validRune c = true := by
      intro c hc
      rcases compose_good h3 hc with hc | rfl | rfl
      · unfold Spec.Jamo.IsSyllable at hc
        simp [validRune]
        omega
      · decide
      · decide
    rw [runes_encode hv]
    exact compose_dense h3 h4
  | @split a b s x y left hl right ih1 ih2 =>
    intro hs
    have c1 := ih1 fun p hp => hs p (by simp [hp])
    have c2 := ih2 fun p hp => hs p (by simp [hp])
    have v1 := (composed_letters (K := Any) left fun p hp => by
      obtain ⟨rs, e1, e2, e3, _⟩ := hs p (by simp [hp])
      exact ⟨rs, e1, e2, e3⟩).1
    obtain ⟨rs, e1, e2, e3, e4⟩ := hs s (by simp)
    have vs : ValidUtf8 s.word := by rw [e1]; exact encode_validUtf8 _
    rw [runes_append (v1.append vs), runes_append v1, e1, runes_encode e2]
    simp only [List.mem_append, not_or]
    refine ⟨⟨c1, fun hc => ?_⟩, c2⟩
    exact absurd (e4 _ hc) (by decide +kernel)

/-- The stages of a text. -/
theorem rest_stages {sp : Spec} (r1 : ∀ r ∈ sp.rewrite, bundleCheck .rewrite r = true) (t1 : ∀ r ∈ sp.transcribe, bundleCheck .transcribe r = true)
    {cs : List Rune} (hv : ∀ c ∈ cs, validRune c = true) {out : Bytes} (h : Rest sp cs out) : ∃ u v,
    Through (RewriteT sp.rewrite) (blocks (begin_ sp cs)) u ∧ Through (TranscribeT sp.transcribe) (blocks u) v ∧
    out = encode (localized sp.script (runes (syllables [] (tagged (cleaned (blocks v)))))) ∧
    ValidUtf8 (syllables [] (tagged (cleaned (blocks v)))) ∧
    ((∀ r ∈ sp.rewrite, wordCheck .rewrite r = true) → (∀ c ∈ cs, Unicode.isSpace c = false) → Made H1 u ∧ Made H2 v ∧ (sp.script ≠ .hrkt → 0x20 ∉ out)) := by
  obtain ⟨rows, rows', rewritten, transcribed, composed, h1, h2, h3, rfl⟩ := h
  have hm : Made (G1 Any) (tagged rewritten) := each_made (fun p ws out ho hp => rewritten_made r1 ho hp) h1 (chunk_seg hv)
  have hj := joined_sat (fun _ _ _ => G1.append) hm
  refine ⟨tagged rewritten, tagged transcribed, ?_, ?_, ?_, ?_, ?_⟩
  · rw [← chunks_begin]
    exact each_through h1 fun p hp ws out ho => rewritten_T r1 (chunk_seg hv p hp) ho
  · exact each_through h2 fun p hp ws out ho => transcribed_T t1 (hj p hp) ho
  · rw [composed_tagged h3]
    rfl
  · have m2 := each_made (fun p ws out ho hp => transcribed_made t1 ho hp) h2 hj
    have s3 := joined_sat (fun _ _ _ => G3.append) (made_of_sat (cleaned_segs (joined_sat (fun _ _ _ => G2.append) m2)))
    have := (composed_letters (K := Any) h3 s3).1
    rw [composed_tagged h3] at this
    exact this
  · intro w1 hd
    have m1 : Made H1 (tagged rewritten) := each_made (fun p ws out ho hp => rewritten_dense r1 w1 ho hp) h1 (chunk_dense hv hd)
    have hj := joined_sat (fun _ _ _ => H1.append) m1
    have m2 := each_made (fun p ws out ho hp => transcribed_dense t1 ho hp) h2 hj
    refine ⟨m1, m2, fun hs hm => ?_⟩
    have s3 := joined_sat (fun _ _ _ => H3.append) (made_of_sat (cleaned_dense (joined_sat (fun _ _ _ => H2.append) m2)))
    have s4 := composed_dense h3 s3
    rw [localized, if_neg hs] at hm
    simp only [encode, List.mem_flatMap, List.mem_filter] at hm
    obtain ⟨r, ⟨hr, _⟩, hb⟩ := hm
    have := encodeRune_ascii (runes_valid _ r hr) hb (by decide)
    rw [← this] at hr
    exact s4 hr

/-- The result for two parts. -/
theorem rest_both {sp : Spec} (r1 : ∀ r ∈ sp.rewrite, bundleCheck .rewrite r = true) (t1 : ∀ r ∈ sp.transcribe, bundleCheck .transcribe r = true)
    (r2 : ∀ r ∈ sp.rewrite, wordCheck .rewrite r = true) (t2 : ∀ r ∈ sp.transcribe, wordCheck .transcribe r = true)
    {xs ys : List Rune} (hx : ∀ c ∈ xs, validRune c = true) (hd : ∀ c ∈ xs, Unicode.isSpace c = false)
    (hy : ∀ c ∈ ys, validRune c = true) {a b c : Bytes} (ha : Rest sp xs a) (hb : Rest sp ys b) (hc : Rest sp (xs ++ 0x20 :: ys) c) :
    c = a ++ 0x20 :: b ∨ ((∃ b', b = 0x20 :: b') ∧ c = a ++ b) := by
  obtain ⟨u1, v1, k1, k2, rfl, _, k3⟩ := rest_stages r1 t1 hx ha
  obtain ⟨u2, v2, k4, k5, rfl, _⟩ := rest_stages r1 t1 hy hb
  obtain ⟨u3, v3, k6, k7, rfl, _⟩ := rest_stages r1 t1 (by
    intro c hc
    rcases List.mem_append.1 hc with hc | hc
    · exact hx c hc
    · rcases List.mem_cons.1 hc with rfl | hc
      · decide
      · exact hy c hc) hc
  obtain ⟨m1, m2, _⟩ := k3 r2 hd
  have q0 : ∀ x ∈ begin_ sp xs, blank x.1.toNat = false := by
    intro x hx'
    simp only [begin_, runesText, List.mem_flatMap, List.mem_map, at_] at hx'
    obtain ⟨p, ⟨c, hc, rfl⟩, b, hb, rfl⟩ := hx'
    refine dense_bytes hx hd b ?_
    simp only [encode, List.mem_flatMap]
    exact ⟨c, hc, hb⟩
  rw [begin_both] at k6
  have e1 := (stage_rewrite r1 r2).through q0 k1 k4 k6
  subst e1
  have e2 := (stage_transcribe t1 t2).through (fun x hx _ => made_solid (fun _ _ h => h.2) m1 x hx) k2 k5 k7
  subst e2
  have hcl := cleaned_both (A := v1) (B := v2) (by
    intro s hs hl c hc
    obtain ⟨segs, hs', e⟩ := m2
    rw [e] at hs
    obtain ⟨rs, g1, g2, g3⟩ := blocks_sat (fun _ _ _ => H2.append) segs hs' s hs
    rw [g1, runes_encode g2] at hc
    exact g3.2 c hc)
  have hg : ∀ X Y : List Subword, tagged (X ++ ⟨[0x20], 1⟩ :: Y) = tagged X ++ gap :: tagged Y := by
    intro X Y
    simp [tagged, gap]
  have fin : ∀ X Y : List Subword,
      encode (localized sp.script (runes (syllables [] (tagged (X ++ ⟨[0x20], 1⟩ :: Y))))) =
      encode (localized sp.script (runes (syllables [] (tagged X)))) ++ 0x20 ::
        encode (localized sp.script (runes (syllables [] (tagged Y)))) := by
    intro X Y
    rw [hg, syllables_both, runes_both, localized_both, encode_both]
  rcases hcl with e | ⟨C, e1, e2⟩
  · refine .inl ?_
    rw [e, fin]
  · refine .inr ?_
    have := fin [] C
    have h0 : encode (localized sp.script (runes (syllables [] (tagged [])))) = [] := by
      have : runes (syllables [] (tagged [])) = [] := by
        show runes (Jamo.composeHangul []) = []
        rw [compose_empty]
        rfl
      rw [this, localized]
      split <;> rfl
    rw [h0, List.nil_append, List.nil_append] at this
    rw [e2, e1, fin, this]
    exact ⟨⟨_, rfl⟩, rfl⟩

end Verif.Words
