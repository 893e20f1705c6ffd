import Verif.Proofs.Made
import Verif.Proofs.Bundle
import Verif.Proofs.Jamo
import Verif.Spec.Alphabet

/-! The letters of the results of bundled specs. -/

namespace Verif

open Spec.Subword Spec.Procedure Spec.Reference Spec.Jamo Spec.Alphabet Hre

/-! ## Spelled text -/

/-- Text which is composed to syllables, apostrophes and spaces only. -/
inductive Spelled : Bool → List Rune → Prop
  | done : Spelled false []
  | hyphen {h : Bool} {cs : List Rune} (t : Spelled true cs) : Spelled h (0x2D :: cs)
  | syllable {h : Bool} {c : Rune} {cs : List Rune} (hc : IsSyllable c) (t : Spelled false cs) : Spelled h (c :: cs)
  | other {h : Bool} {c : Rune} {cs : List Rune} (hc : c = 0x27 ∨ c = 0x20) (t : Spelled false cs) : Spelled h (c :: cs)
  | medial {h : Bool} {c : Rune} {cs : List Rune} (hc : 0x314F ≤ c ∧ c ≤ 0x3163) (t : Spelled false cs) : Spelled h (c :: cs)
  | lead {c : Rune} {cs : List Rune} (hc : c ∈ leadLetters) (t : Spelled false cs) : Spelled false (c :: cs)
  | tail {c : Rune} {cs : List Rune} (hc : c ∈ tailLetters) (t : Spelled false cs) : Spelled true (c :: cs)

theorem spelled_sound : ∀ (cs : List Rune) (h : Bool), spelled h cs = true → Spelled h cs
  | [], h, e => by
    simp only [spelled, Bool.not_eq_true'] at e
    subst e
    exact .done
  | c :: cs, h, e => by
    unfold spelled at e
    split at e
    · rename_i hc
      subst hc
      exact .hyphen (spelled_sound cs true e)
    · simp only [Bool.and_eq_true, Bool.or_eq_true, decide_eq_true_eq, beq_iff_eq] at e
      obtain ⟨e1, e2⟩ := e
      have t := spelled_sound cs false e2
      rcases e1 with ((e1 | e1) | e1) | e1
      · exact .syllable e1 t
      · exact .other (.inl e1) t
      · exact .medial e1 t
      · cases h
        · exact .lead (by simpa using e1) t
        · exact .tail (by simpa using e1) t

theorem Spelled.append {a b : List Rune} {h : Bool} (ha : Spelled h a) (hb : Spelled false b) : Spelled h (a ++ b) := by
  induction ha with
  | done => exact hb
  | hyphen _ ih => exact .hyphen ih
  | syllable hc _ ih => exact .syllable hc ih
  | other hc _ ih => exact .other hc ih
  | medial hc _ ih => exact .medial hc ih
  | lead hc _ ih => exact .lead hc ih
  | tail hc _ ih => exact .tail hc ih

/-- Tokens which are composed to syllables, apostrophes and spaces. -/
def TokGood : Tok → Prop
  | .jamo .lead r => r ∈ leadLetters
  | .jamo .medial r => r ∈ medialLetters
  | .jamo .tail r => r ∈ tailLetters
  | .syl l m t => l < 19 ∧ m < 21 ∧ t < 28
  | .other r => r = 0x27 ∨ r = 0x20

theorem lead_facts : ∀ r ∈ leadLetters, r ≠ 0x2D ∧ ¬ IsSyllable r ∧ IsJamo r ∧ isVowel r = false := by decide +kernel

theorem tail_facts : ∀ r ∈ tailLetters, r ≠ 0x2D ∧ ¬ IsSyllable r ∧ IsJamo r ∧ isVowel r = false := by decide +kernel

theorem medial_facts : ∀ k < 21, 0x314F + k ∈ medialLetters := by decide +kernel

theorem medial_jamo : ∀ r ∈ medialLetters, IsJamo r := by decide +kernel

theorem tokens_good {h : Bool} {rs : List Rune} (hs : Spelled h rs) : ∀ t ∈ tokens h rs, TokGood t := by
  induction hs with
  | done => simp [tokens]
  | hyphen _ ih => simpa [tokens] using ih
  | @syllable h c cs hc _ ih =>
    have : c ≠ 0x2D := by unfold IsSyllable at hc; omega
    intro t ht
    simp only [tokens, Char.reduceToNat, this, if_false, hc, if_true, List.mem_cons] at ht
    rcases ht with rfl | ht
    · unfold IsSyllable at hc
      simp only [TokGood]
      omega
    · exact ih t ht
  | @other h c cs hc _ ih =>
    have h1 : c ≠ 0x2D := by omega
    have h2 : ¬ IsSyllable c := by unfold IsSyllable; omega
    have h3 : ¬ IsJamo c := by unfold IsJamo; omega
    intro t ht
    simp only [tokens, Char.reduceToNat, h1, h2, h3, if_false, List.mem_cons] at ht
    rcases ht with rfl | ht
    · exact hc
    · exact ih t ht
  | @medial h c cs hc _ ih =>
    have h1 : c ≠ 0x2D := by omega
    have h2 : ¬ IsSyllable c := by unfold IsSyllable; omega
    have h3 : IsJamo c := by unfold IsJamo; omega
    have h4 : isVowel c = true := by simp [isVowel, hc.1, hc.2]
    intro t ht
    simp only [tokens, Char.reduceToNat, h1, h2, h3, h4, if_false, if_true, List.mem_cons] at ht
    rcases ht with rfl | ht
    · have := medial_facts (c - 0x314F) (by omega)
      rw [Nat.add_sub_cancel' hc.1] at this
      exact this
    · exact ih t ht
  | @lead c cs hc _ ih =>
    obtain ⟨h1, h2, h3, h4⟩ := lead_facts c hc
    intro t ht
    simp only [tokens, Char.reduceToNat, h1, h2, h3, h4, if_false, if_true, List.mem_cons, Bool.false_eq_true] at ht
    rcases ht with rfl | ht
    · exact hc
    · exact ih t ht
  | @tail c cs hc _ ih =>
    obtain ⟨h1, h2, h3, h4⟩ := tail_facts c hc
    intro t ht
    simp only [tokens, Char.reduceToNat, h1, h2, h3, h4, if_false, if_true, List.mem_cons, Bool.false_eq_true] at ht
    rcases ht with rfl | ht
    · exact hc
    · exact ih t ht

theorem posOf_some {cs : List Rune} {r : Rune} (h : r ∈ cs) : ∃ i, posOf cs r = some i := by
  cases hp : posOf cs r with
  | some i => exact ⟨i, rfl⟩
  | none =>
    rw [posOf, List.idxOf?_eq_none_iff] at hp
    exact absurd h hp

theorem blockRune_cases {b : List Tok} (h : ∀ t ∈ b, TokGood t) :
    IsSyllable (blockRune b) ∨ b = [.other (blockRune b)] := by
  have hok : ∀ t ∈ b, Jamo.TokOk [0x27, 0x20] t := by
    intro t ht
    have := h t ht
    cases t with
    | jamo p r =>
      cases p
      · exact (lead_facts r this).2.2.1
      · exact medial_jamo r this
      · exact (tail_facts r this).2.2.1
    | syl l m t => exact this
    | other r =>
      simp only [TokGood] at this
      rcases this with rfl | rfl <;> (simp only [Jamo.TokOk]; decide)
  have hl : ∃ l, blockLead b = some l := by
    cases b with
    | nil => exact ⟨_, rfl⟩
    | cons t b =>
      have := h t (by simp)
      cases t with
      | jamo p r =>
        cases p
        · exact posOf_some this
        all_goals exact ⟨_, rfl⟩
      | syl l m t => exact ⟨_, rfl⟩
      | other r => exact ⟨_, rfl⟩
  have hm : ∀ b : List Tok, (∀ t ∈ b, TokGood t) → ∃ l, blockMedial b = some l := by
    intro b
    induction b with
    | nil => intro _; exact ⟨_, rfl⟩
    | cons t b ih =>
      intro h
      have ih := ih fun t ht => h t (by simp [ht])
      have := h t (by simp)
      cases t with
      | jamo p r =>
        cases p
        · exact ih
        · exact posOf_some this
        · exact ih
      | syl l m t => exact ⟨_, rfl⟩
      | other r => exact ih
  have ht : ∀ b : List Tok, (∀ t ∈ b, TokGood t) → ∃ l, blockTail b = some l := by
    intro b
    induction b with
    | nil => intro _; exact ⟨_, rfl⟩
    | cons t b ih =>
      intro h
      have ih := ih fun t ht => h t (by simp [ht])
      have := h t (by simp)
      cases t with
      | jamo p r =>
        cases p
        · exact ih
        · exact ih
        · obtain ⟨i, hi⟩ := posOf_some this
          exact ⟨i + 1, by simp [blockTail, hi]⟩
      | syl l m t =>
        cases t with
        | zero => exact ih
        | succ t => exact ⟨_, rfl⟩
      | other r => exact ih
  obtain ⟨l, hl⟩ := hl
  obtain ⟨m, hm⟩ := hm b h
  obtain ⟨t, ht⟩ := ht b h
  unfold blockRune
  split
  · exact .inr rfl
  · have := Jamo.blockLead_lt hok hl
    have := Jamo.blockMedial_lt hok hm
    have := Jamo.blockTail_lt hok ht
    rw [hl, hm, ht]
    simp only [IsSyllable]
    left
    omega

theorem blockRune_good {b : List Tok} (h : ∀ t ∈ b, TokGood t) :
    IsSyllable (blockRune b) ∨ blockRune b = 0x27 ∨ blockRune b = 0x20 := by
  rcases blockRune_cases h with hb | hb
  · exact .inl hb
  · exact .inr (h (.other (blockRune b)) (hb ▸ List.mem_singleton.2 rfl))

theorem compose_good {rs : List Rune} (h : Spelled false rs) {c : Rune} (hc : c ∈ compose rs) :
    IsSyllable c ∨ c = 0x27 ∨ c = 0x20 := by
  unfold compose at hc
  rw [Jamo.splitBy_eq] at hc
  obtain ⟨b, hb, rfl⟩ := List.mem_map.1 hc
  refine blockRune_good fun t ht => tokens_good h t ?_
  have := Jamo.groups_flatten (tokens false rs) []
  simp only [List.nil_append] at this
  rw [← this]
  exact List.mem_flatten.2 ⟨b, hb, ht⟩

/-! ## Rules -/

theorem everyText_sound {P : Bytes → Bool} {p : RPattern} (h : everyText P p = true) :
    (∀ t, RPart.plain t ∈ p.parts → P t = true) ∧ ∀ vals, RPart.toVar vals ∈ p.parts → ∀ v ∈ vals, P v = true := by
  simp only [everyText, List.all_eq_true] at h
  refine ⟨fun t ht => h _ ht, fun vals hv v hm => ?_⟩
  have := h _ hv
  simp only [List.all_eq_true] at this
  exact this v hm

theorem valid_sound {t : Bytes} (h : valid t = true) : ValidUtf8 t := by
  rw [validUtf8_iff]
  simpa [valid] using h

/-- A rewriting rule writes valid text. -/
theorem rewrite_words {r : Rule} (h : bundleCheck .rewrite r = true) {word : Bytes} {m : List Int} {w : Bytes}
    (hi : interpolate r.to r.pat word m = .ok w) : ValidUtf8 w := by
  simp only [bundleCheck, Bool.and_eq_true] at h
  obtain ⟨h1, h2⟩ := everyText_sound h.2
  exact interpolateParts_texts (Q := ValidUtf8) .nil (fun _ _ ha hb => ha.append hb) _ _
    (fun t ht => valid_sound (h1 t ht)) (fun v hv x hx => valid_sound (h2 v hv x hx)) hi

/-- A transcribing rule writes spelled text. -/
theorem transcribe_words {r : Rule} (h : bundleCheck .transcribe r = true) {word : Bytes} {m : List Int} {w : Bytes}
    (hi : interpolate r.to r.pat word m = .ok w) : ValidUtf8 w ∧ Spelled false (runes w) := by
  simp only [bundleCheck, Bool.and_eq_true] at h
  obtain ⟨h1, h2⟩ := everyText_sound h.1.1.2
  obtain ⟨h3, h4⟩ := everyText_sound h.2
  exact interpolateParts_texts (Q := fun w => ValidUtf8 w ∧ Spelled false (runes w)) ⟨.nil, .done⟩
    (fun a b ha hb => ⟨ha.1.append hb.1, by rw [runes_append ha.1]; exact ha.2.append hb.2⟩) _ _
    (fun t ht => ⟨valid_sound (h1 t ht), spelled_sound _ _ (h3 t ht)⟩)
    (fun v hv x hx => ⟨valid_sound (h2 v hv x hx), spelled_sound _ _ (h4 v hv x hx)⟩) hi

/-! ## Stages -/

section
variable (K : Rune → Prop)

/-- Rewritten text: what is at level 0 is kept. -/
def G1 (l : Int) (rs : List Rune) : Prop := (l = 0 ∧ ∀ c ∈ rs, K c) ∨ l = 1

/-- Transcribed text. -/
def G2 (l : Int) (rs : List Rune) : Prop := (l = 0 ∧ ∀ c ∈ rs, K c) ∨ l = 1 ∨ (l = 2 ∧ Spelled false rs)

/-- Transcribed text without what was not transcribed. -/
def G3 (l : Int) (rs : List Rune) : Prop := (l = 0 ∧ ∀ c ∈ rs, K c) ∨ (l ≠ 0 ∧ Spelled false rs)

end

variable {K : Rune → Prop}

theorem G1.append {l : Int} {a b : List Rune} (ha : G1 K l a) (hb : G1 K l b) : G1 K l (a ++ b) := by
  unfold G1 at *
  rcases ha with ⟨h1, h2⟩ | h1
  · rcases hb with ⟨_, h3⟩ | h3
    · refine .inl ⟨h1, fun c hc => ?_⟩
      rcases List.mem_append.1 hc with hc | hc
      · exact h2 c hc
      · exact h3 c hc
    · exact .inr h3
  · exact .inr h1

theorem G1.divisible : Divisible (G1 K) := by
  intro l a b _ h
  rcases h with ⟨h1, h2⟩ | h1
  · exact ⟨.inl ⟨h1, fun c hc => h2 c (by simp [hc])⟩, .inl ⟨h1, fun c hc => h2 c (by simp [hc])⟩⟩
  · exact ⟨.inr h1, .inr h1⟩

theorem G2.append {l : Int} {a b : List Rune} (ha : G2 K l a) (hb : G2 K l b) : G2 K l (a ++ b) := by
  unfold G2 at *
  rcases ha with ⟨h1, h2⟩ | h1 | ⟨h1, h2⟩
  · rcases hb with ⟨_, h3⟩ | h3 | ⟨h3, _⟩
    · refine .inl ⟨h1, fun c hc => ?_⟩
      rcases List.mem_append.1 hc with hc | hc
      · exact h2 c hc
      · exact h3 c hc
    · exact .inr (.inl h3)
    · omega
  · exact .inr (.inl h1)
  · rcases hb with ⟨h3, _⟩ | h3 | ⟨_, h3⟩
    · omega
    · omega
    · exact .inr (.inr ⟨h1, h2.append h3⟩)

theorem G2.divisible : Divisible (G2 K) := by
  intro l a b hl h
  rcases h with ⟨h1, h2⟩ | h1 | ⟨h1, _⟩
  · exact ⟨.inl ⟨h1, fun c hc => h2 c (by simp [hc])⟩, .inl ⟨h1, fun c hc => h2 c (by simp [hc])⟩⟩
  · exact ⟨.inr (.inl h1), .inr (.inl h1)⟩
  · exact absurd h1 hl

theorem G3.append {l : Int} {a b : List Rune} (ha : G3 K l a) (hb : G3 K l b) : G3 K l (a ++ b) := by
  unfold G3 at *
  rcases ha with ⟨h1, h2⟩ | ⟨h1, h2⟩
  · rcases hb with ⟨_, h3⟩ | ⟨h3, _⟩
    · refine .inl ⟨h1, fun c hc => ?_⟩
      rcases List.mem_append.1 hc with hc | hc
      · exact h2 c hc
      · exact h3 c hc
    · exact absurd h1 h3
  · rcases hb with ⟨h3, _⟩ | ⟨_, h3⟩
    · exact absurd h3 h1
    · exact .inr ⟨h1, h2.append h3⟩

/-- The piece is a segment. -/
abbrev Seg (G : Int → List Rune → Prop) (p : Subword) : Prop := ∃ rs, p.word = encode rs ∧ Sat G (p.level, rs)

theorem chunk_levels {cs : LChars} {g : LChars} (hg : g ∈ cs.splitBy sameLevel) : ∀ c ∈ g, c.2 = (chunk g).level := by
  have hc := List.isChain_of_mem_splitBy hg
  have hl : ∀ (a : Rune × Int) (g : LChars), List.IsChain (fun x y => sameLevel x y = true) (a :: g) →
      ∀ c ∈ g, c.2 = a.2 := by
    intro a g
    induction g generalizing a with
    | nil => simp
    | cons b g ih =>
      intro h c hc
      rw [List.isChain_cons_cons] at h
      have h1 : a.2 = b.2 := by simpa [sameLevel] using h.1
      rcases List.mem_cons.1 hc with rfl | hc
      · exact h1.symm
      · rw [ih b h.2 c hc, h1]
  cases g with
  | nil => simp
  | cons a g =>
    intro c hm
    rcases List.mem_cons.1 hm with rfl | hm
    · simp [chunk]
    · simp [chunk, hl a g hc c hm]

theorem partition_segs {f : Rune → Int} (hf : ∀ c, f c = 0 ∨ f c = 1) (w : Bytes)
    (hK : ∀ c ∈ runes w, f c = 0 → K c) : ∀ p ∈ chunks ((runes w).map fun c => (c, f c)), Seg (G1 K) p := by
  intro p hp
  obtain ⟨g, hg, rfl⟩ := List.mem_map.1 hp
  have hm : ∀ c ∈ g, c.1 ∈ runes w ∧ c.2 = f c.1 := by
    intro c hc
    have := splitBy_mem hg hc
    obtain ⟨r, h1, rfl⟩ := List.mem_map.1 this
    exact ⟨h1, rfl⟩
  refine ⟨g.map (·.1), rfl, ?_, ?_⟩
  · intro r hr
    obtain ⟨c, hc, rfl⟩ := List.mem_map.1 hr
    exact runes_valid w _ (hm c hc).1
  · simp only
    by_cases h0 : (chunk g).level = 0
    · refine .inl ⟨h0, fun r hr => ?_⟩
      obtain ⟨c, hc, rfl⟩ := List.mem_map.1 hr
      refine hK _ (hm c hc).1 ?_
      rw [← (hm c hc).2, chunk_levels hg c hc, h0]
    · refine .inr ?_
      cases g with
      | nil => simp [chunk] at h0
      | cons a g =>
        have h1 := chunk_levels hg a (by simp)
        have h2 := (hm a (by simp)).2
        rcases hf a.1 with h3 | h3
        · omega
        · omega

theorem text_hidden {G : Int → List Rune → Prop} (hG : ∀ rs, ¬ G 2 rs) {t : Tagged} (h : Made G t) :
    (∀ x ∈ t, x.2 ≠ 2) ∧ Spec.Reference.text t = Spec.Procedure.hidden t := by
  have hx : ∀ x ∈ t, x.2 ≠ 2 := by
    obtain ⟨segs, hs, rfl⟩ := h
    intro x hx e
    simp only [segText, List.mem_flatMap, at_, List.mem_map] at hx
    obtain ⟨s, h1, b, _, rfl⟩ := hx
    obtain ⟨l, rs⟩ := s
    simp only at e
    subst e
    exact hG _ (hs _ h1).2
  refine ⟨hx, ?_⟩
  unfold Spec.Reference.text Spec.Procedure.hidden
  apply List.map_congr_left
  intro x h
  rw [if_neg (hx x h)]

theorem rewritten_made {rules : List Rule} (hr : ∀ r ∈ rules, bundleCheck .rewrite r = true) {p : Subword}
    {ws : Option (List Bytes)} {out : List Subword} (h : Rewritten rules p ws out) (hp : Seg (G1 K) p) :
    Made (G1 K) (tagged out) := by
  obtain ⟨ws, t, _, h1, rfl⟩ := h
  obtain ⟨rs, e1, e2⟩ := hp
  have h2 : ∀ rs, ¬ G1 K 2 rs := by intro rs h; rcases h with ⟨h, _⟩ | h <;> omega
  have hm : Made (G1 K) t := by
    refine applied_made G1.divisible (fun t ht => (text_hidden h2 ht).2) h1 (fun r hr' => ?_) (by rw [e1]; exact .one e2)
    have hb := hr r hr'
    have hf : firm r.pat = true := by
      simp only [bundleCheck, checked, Bool.and_eq_true] at hb
      exact hb.1.1.1
    refine ⟨hf, fun word m w hi => ?_, fun t ht rs _ x _ p _ _ y hy => (text_hidden h2 ht).1 y (List.mem_of_getElem? hy)⟩
    exact ⟨runes w, (encode_runes (rewrite_words hb hi)).symm, runes_valid w, .inr rfl⟩
  rw [tagged_pieces hm]
  exact hm

theorem transcribed_made {rules : List Rule} (hr : ∀ r ∈ rules, bundleCheck .transcribe r = true) {p : Subword}
    {ws : Option (List Bytes)} {out : List Subword} (h : Transcribed rules p ws out) (hp : Seg (G1 K) p) :
    Made (G2 K) (tagged out) := by
  have hp : Seg (G2 K) p := by
    obtain ⟨rs, e1, e2, e3⟩ := hp
    refine ⟨rs, e1, e2, ?_⟩
    rcases e3 with e3 | e3
    · exact .inl e3
    · exact .inr (.inl e3)
  rcases h with ⟨_, _, rfl⟩ | ⟨_, ws, t, _, h1, rfl⟩
  · exact made_of_sat (by simpa using hp)
  obtain ⟨rs, e1, e2⟩ := hp
  have hm : Made (G2 K) t := by
    refine applied_made G2.divisible (fun t ht => rfl) h1 (fun r hr' => ?_) (by rw [e1]; exact .one e2)
    have hb := hr r hr'
    have hb' := hb
    simp only [bundleCheck, checked, Bool.and_eq_true] at hb'
    refine ⟨hb'.1.1.1.1.1, fun word m w hi => ?_, fun t ht rs hrs x hx p h1 h2 y hy e => ?_⟩
    · obtain ⟨w1, w2⟩ := transcribe_words hb hi
      exact ⟨runes w, (encode_runes w1).symm, runes_valid w, .inr (.inr ⟨rfl, w2⟩)⟩
    · refine avoids_noNul hb'.1.2 _ rs hrs x hx p h1 h2 ?_
      simp [Spec.Procedure.hidden, hy, e]
  rw [tagged_pieces hm]
  exact hm

theorem cleaned_segs {sws : List Subword} (h : ∀ p ∈ sws, Seg (G2 K) p) : ∀ p ∈ cleaned sws, Seg (G3 K) p := by
  intro p hp
  obtain ⟨q, hq, hp⟩ := List.mem_flatMap.1 hp
  obtain ⟨rs, e1, e2, e3⟩ := h q hq
  split at hp
  · rename_i hl
    simp only [List.mem_singleton] at hp
    subst hp
    refine ⟨rs, e1, e2, ?_⟩
    rcases e3 with e3 | e3 | e3
    · exact .inl e3
    · exact absurd e3 hl
    · exact .inr ⟨by simp only at e3 ⊢; omega, e3.2⟩
  · split at hp
    · simp only [List.mem_singleton] at hp
      subst hp
      refine ⟨[0x20], by decide, by decide, .inr ⟨by simp, .other (.inr rfl) .done⟩⟩
    · simp at hp

theorem composed_letters {sws : List Subword} {w : Bytes} (h : Composed sws w) : (∀ p ∈ sws, Seg (G3 K) p) →
    ValidUtf8 w ∧ ∀ c ∈ runes w, IsSyllable c ∨ c = 0x27 ∨ c = 0x20 ∨ K c := by
  induction h with
  | @run sws h =>
    intro hs
    have key : ∃ rs, sws.flatMap (·.word) = encode rs ∧ (∀ r ∈ rs, validRune r = true) ∧ Spelled false rs := by
      clear * - h hs
      induction sws with
      | nil => exact ⟨[], rfl, by simp, .done⟩
      | cons p sws ih =>
        obtain ⟨rs, h1, h2, h3⟩ := ih (fun s hs' => h s (by simp [hs'])) fun s hs' => hs s (by simp [hs'])
        obtain ⟨rs', e1, e2, e3⟩ := hs p (by simp)
        have hl := h p (by simp)
        rcases e3 with ⟨e3, _⟩ | ⟨_, e3⟩
        · exact absurd e3 hl
        refine ⟨rs' ++ rs, by simp [e1, h1, encode_append], ?_, e3.append h3⟩
        intro r hr
        rcases List.mem_append.1 hr with hr | hr
        · exact e2 r hr
        · exact h2 r hr
    obtain ⟨rs, h1, h2, h3⟩ := key
    rw [Jamo.composeHangul_eq, h1, runes_encode h2]
    refine ⟨encode_validUtf8 _, ?_⟩
    have hv : ∀ c ∈ compose rs, validRune c = true := by
      intro c hc
      rcases compose_good h3 hc with hc | rfl | rfl
      · unfold IsSyllable at hc
        simp [validRune]
        omega
      · decide
      · decide
    rw [runes_encode hv]
    intro c hc
    rcases compose_good h3 hc with hc | hc | hc
    · exact .inl hc
    · exact .inr (.inl hc)
    · exact .inr (.inr (.inl hc))
  | @split a b s x y left hl right ih1 ih2 =>
    intro hs
    obtain ⟨v1, c1⟩ := ih1 fun p hp => hs p (by simp [hp])
    obtain ⟨v2, c2⟩ := ih2 fun p hp => hs p (by simp [hp])
    obtain ⟨rs, e1, e2, e3⟩ := hs s (by simp)
    have vs : ValidUtf8 s.word := by rw [e1]; exact encode_validUtf8 _
    refine ⟨(v1.append vs).append v2, ?_⟩
    rw [runes_append (v1.append vs), runes_append v1, e1, runes_encode e2]
    intro c hc
    simp only [List.mem_append] at hc
    rcases hc with (hc | hc) | hc
    · exact c1 c hc
    · rcases e3 with ⟨_, e3⟩ | ⟨e3, _⟩
      · exact .inr (.inr (.inr (e3 c hc)))
      · exact absurd hl e3
    · exact c2 c hc

theorem lookup_mem {α β : Type} [BEq α] [LawfulBEq α] {c : α} {b : β} : ∀ {l : List (α × β)}, l.lookup c = some b → (c, b) ∈ l
  | [], h => by simp at h
  | (a, b') :: l, h => by
    rw [List.lookup_cons] at h
    split at h
    · rename_i e
      simp only [beq_iff_eq, Option.some.injEq] at e h
      simp [e, h]
    · exact List.mem_cons_of_mem _ (lookup_mem h)

theorem japanese_keys : ∀ p ∈ japanese, ¬ IsSyllable p.1 ∧ p.1 ≠ 0x27 ∧ p.1 ≠ 0x20 := by decide +kernel

theorem localized_letters {sp : Spec} {letters cs : List Rune}
    (h : ∀ c ∈ cs, IsSyllable c ∨ c = 0x27 ∨ c = 0x20 ∨ (c ∈ letters ∧ ¬ Meaningful sp c)) :
    ∀ c ∈ localized sp.script cs, Written sp letters c := by
  have plain : ∀ c ∈ cs, c ≠ zwsp → Written sp letters c := by
    intro c hc hz
    rcases h c hc with h | rfl | rfl | h
    · exact .syllable h
    · exact .apostrophe
    · exact .space
    · exact .kept h.1 h.2 hz
  unfold localized
  split
  · rename_i hk
    have key : ∀ (ds : List Rune) (prev : Option Rune), (∀ c ∈ ds, c ∈ cs) →
        ∀ c ∈ (japanesePieces prev ds).flatten, Written sp letters c := by
      intro ds
      induction ds with
      | nil => intro prev _ c hc; simp [japanesePieces] at hc
      | cons d ds ih =>
        intro prev hds c hc
        simp only [japanesePieces, List.flatten_cons, List.mem_append] at hc
        rcases hc with hc | hc
        · have hd := hds d (by simp)
          unfold japanesePiece at hc
          split at hc
          · simp at hc
          · rename_i hz
            have hsp : ∀ b, c ∈ space b → c = 0x20 := by intro b hb; cases b <;> simp_all [space]
            split at hc
            · rename_i l x r hl
              simp only [List.mem_append, List.mem_singleton] at hc
              rcases hc with (hc | hc) | hc
              · rw [hsp _ hc]; exact .space
              · subst hc
                have hm := lookup_mem hl
                obtain ⟨k1, k2, k3⟩ := japanese_keys _ hm
                rcases h d hd with e | e | e | e
                · exact absurd e k1
                · exact absurd e k2
                · exact absurd e k3
                · exact .punctuation hk e.1 e.2 hm
              · rw [hsp _ hc]; exact .space
            · simp only [List.mem_singleton] at hc
              subst hc
              exact plain c hd hz
        · exact ih _ (fun c hc => hds c (by simp [hc])) c hc
    exact key cs none fun c hc => hc
  · intro c hc
    simp only [List.mem_filter, decide_eq_true_eq] at hc
    exact plain c hc.1 (by simpa using hc.2)

theorem written_valid {sp : Spec} {letters : List Rune} (hl : ∀ c ∈ letters, validRune c = true) {c : Rune}
    (h : Written sp letters c) : validRune c = true := by
  cases h with
  | syllable h =>
    unfold IsSyllable at h
    simp [validRune]
    omega
  | apostrophe => decide
  | space => decide
  | kept h _ _ => exact hl c h
  | punctuation _ _ _ known =>
    have : ∀ p ∈ japanese, validRune p.2.2.1 = true := by decide +kernel
    exact this _ known

/-- The letters of results. -/
theorem hangulized_letters {sp : Spec} (h1 : ∀ r ∈ sp.rewrite, bundleCheck .rewrite r = true)
    (h2 : ∀ r ∈ sp.transcribe, bundleCheck .transcribe r = true) {translits : List (Bytes × Translit)} {word out : Bytes}
    {evs : List Trace} (h : Hangulized sp translits word evs out) :
    ∃ w evs1, Transliterated translits sp.lang.translit word evs1 w ∧
      ∀ c ∈ runes out, Written sp (runes (encode (normalized sp (runes (replacePairs sp.normPairs w))))) c := by
  obtain ⟨w, evs1, rows, rows', rewritten, transcribed, composed, ht, e1, e2, e3, rfl, _⟩ := h
  refine ⟨w, evs1, ht, ?_⟩
  obtain ⟨w2, hw2⟩ : ∃ w2, encode (normalized sp (runes (replacePairs sp.normPairs w))) = w2 := ⟨_, rfl⟩
  rw [hw2] at e1 ⊢
  have s1 := partition_segs (K := fun c => c ∈ runes w2 ∧ ¬ Meaningful sp c)
    (f := fun c => if Meaningful sp c then 1 else 0) (by intro c; split <;> simp) w2
    (by
      intro c hc h0
      refine ⟨hc, fun hm => ?_⟩
      simp [hm] at h0)
  have s2 := joined_sat (G := G1 fun c => c ∈ runes w2 ∧ ¬ Meaningful sp c) (fun _ _ _ ha hb => ha.append hb)
    (each_made (fun p ws out h hp => rewritten_made h1 h hp) e1 s1)
  have s3 := joined_sat (G := G2 fun c => c ∈ runes w2 ∧ ¬ Meaningful sp c) (fun _ _ _ ha hb => ha.append hb)
    (each_made (fun p ws out h hp => transcribed_made h2 h hp) e2 s2)
  have s4 := joined_sat (G := G3 fun c => c ∈ runes w2 ∧ ¬ Meaningful sp c) (fun _ _ _ ha hb => ha.append hb)
    (made_of_sat (cleaned_segs s3))
  obtain ⟨_, s5⟩ := composed_letters e3 s4
  have s6 := localized_letters (sp := sp) (letters := runes w2) s5
  rw [runes_encode fun c hc => written_valid (runes_valid w2) (s6 c hc)]
  exact s6

end Verif
