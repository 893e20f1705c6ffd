import Mathlib.Data.List.Find
import Verif.Proofs.Blind
import Verif.Proofs.ForeignText

/-! The whole procedure on texts which differ in the kind of white space. -/

namespace Verif.Blind

open Verif.Hre Verif.Words Verif.Foreign Verif.Spec.Subword Verif.Spec.Procedure Verif.Spec.Reference

/-! ## Texts with levels -/

/-- A byte with its level, where white space becomes a space. -/
def tameB (x : UInt8 × Int) : UInt8 × Int := (tame x.1, x.2)

/-- White space only in meaningful text. -/
def Fixed (t : Tagged) : Prop := ∀ x ∈ t, x.2 ≠ 1 → tame x.1 = x.1

theorem at_tame (l : Int) (w : Bytes) : at_ l (w.map tame) = (at_ l w).map tameB := by
  simp [at_, tameB]

theorem blankless_at {w : Bytes} (h : blankless w = true) (l : Int) : (at_ l w).map tameB = at_ l w := by
  rw [← at_tame, blankless_tame h]

theorem splice_tame {l : Int} (t : Tagged) : ∀ {rs : List Repl} (off : Nat), (∀ r ∈ rs, blankless r.word = true) →
    splice (at_ l) (t.map tameB) off rs = (splice (at_ l) t off rs).map tameB
  | [], off, _ => by simp only [splice, List.map_drop]
  | r :: rs, off, h => by
    have ih := splice_tame (l := l) t (rs := rs) r.stop fun r hr => h r (by simp [hr])
    simp only [splice, List.map_append, List.map_take, List.map_drop, blankless_at (h r (by simp)) l, ih]

/-- What such a rule writes. -/
theorem interpolate_blankless {r : Rule} (h : blindCheck r = true) {w : Bytes} {m : List Int} {x : Bytes} (hi : interpolate r.to r.pat w m = .ok x) :
    blankless x = true := by
  obtain ⟨_, _, _, _, h5⟩ := blindCheck_parts h
  exact interpolateParts_texts (Q := fun x => blankless x = true) rfl
    (fun a b ha hb => by simp only [blankless, List.all_append, Bool.and_eq_true]; exact ⟨ha, hb⟩) _ _
    (fun t ht => h5 _ ht) (fun v hv => h5 _ hv) hi

theorem replacements_blankless {r : Rule} (h : blindCheck r = true) {w : Bytes} {rs : List Repl} (hr : r.replacements w = .ok rs) :
    ∀ x ∈ rs, blankless x.word = true := by
  intro x hx
  obtain ⟨m, hm⟩ := replacements_mem hr x hx
  exact interpolate_blankless h hm

/-- Rules do the same, whichever the white space. -/
theorem applied_tame {l : Int} {f : UInt8 × Int → UInt8} (hf : ∀ x, f (tameB x) = tame (f x)) :
    ∀ {rules : List Rule} {t t' : Tagged} {ws : List Bytes}, (∀ r ∈ rules, blindCheck r = true) →
      Applied l (List.map f) rules t ws t' → (∃ ws', Applied l (List.map f) rules (t.map tameB) ws' (t'.map tameB)) ∧ (Fixed t → Fixed t')
  | [], _, _, _, _, .done t => ⟨⟨_, .done _⟩, id⟩
  | r :: rules, t, t', _, h, .rule rs seen inside rest => by
    have hb := replacements_blankless (h r (by simp)) seen
    obtain ⟨⟨ws, ih⟩, hx⟩ := applied_tame hf (fun r hr => h r (by simp [hr])) rest
    refine ⟨⟨_, .rule (words := ws) rs ?_ (by simpa using inside) ?_⟩, fun ht => hx (splice_all ht 0 ?_)⟩
    · have : (t.map tameB).map f = (t.map f).map tame := by
        simp only [List.map_map]
        exact List.map_congr_left fun x _ => hf x
      rw [this, replacements_tame (h r (by simp))]
      exact seen
    · rw [splice_tame t 0 hb]
      exact ih
    · intro x hx y hy _
      have h1 := hb x hx
      simp only [at_, List.mem_map] at hy
      obtain ⟨b, hb, rfl⟩ := hy
      simp only [blankless, List.all_eq_true, Bool.not_eq_true'] at h1
      simp [tame, h1 b hb]

/-- A piece, where white space becomes a space. -/
def tameP (s : Subword) : Subword := ⟨s.word.map tame, s.level⟩

theorem blocks_tame : ∀ (t : Tagged), blocks (t.map tameB) = (blocks t).map tameP
  | [] => rfl
  | (b, l) :: t => by
    rw [List.map_cons, show tameB (b, l) = (tame b, l) from rfl, blocks, blocks, blocks_tame t]
    cases blocks t with
    | nil => rfl
    | cons s rest =>
      simp only [List.map_cons, tameP]
      split <;> simp [tameP]

theorem through_tame {R : Subword → Tagged → Prop} (hR : ∀ p t, R p t → R (tameP p) (t.map tameB)) :
    ∀ {ps : List Subword} {t : Tagged}, Through R ps t → Through R (ps.map tameP) (t.map tameB)
  | [], _, .nil => .nil
  | p :: ps, _, .cons one rest => by
    rw [List.map_cons, List.map_append]
    exact .cons (hR _ _ one) (through_tame hR rest)

theorem fixed_append {a b : Tagged} (ha : Fixed a) (hb : Fixed b) : Fixed (a ++ b) := by
  intro x hx
  rcases List.mem_append.1 hx with hx | hx
  · exact ha x hx
  · exact hb x hx

theorem through_fixed {R : Subword → Tagged → Prop} (hR : ∀ p t, R p t → Fixed (at_ p.level p.word) → Fixed t) :
    ∀ {ps : List Subword} {t : Tagged}, Through R ps t → Fixed (tagged ps) → Fixed t
  | [], _, .nil, _ => fun _ h => absurd h (by simp)
  | p :: ps, _, .cons one rest, h => by
    have e : tagged (p :: ps) = at_ p.level p.word ++ tagged ps := rfl
    rw [e] at h
    exact fixed_append (hR _ _ one fun x hx => h x (by simp [hx])) (through_fixed hR rest fun x hx => h x (by simp [hx]))

theorem tameR_space (c : Rune) : Unicode.isSpace (tameR c) = Unicode.isSpace c := by
  unfold tameR
  split
  next h =>
    rw [(blank_space _ h).2]
    decide +kernel
  next => rfl

/-- What remains is the same, whichever the white space. -/
theorem cleaned_tame : ∀ {ps : List Subword}, Fixed (tagged ps) → cleaned (ps.map tameP) = cleaned ps
  | [], _ => rfl
  | p :: ps, h => by
    have e : tagged (p :: ps) = at_ p.level p.word ++ tagged ps := rfl
    rw [e] at h
    rw [List.map_cons, cleaned_cons, cleaned_cons p, cleaned_tame fun x hx => h x (by simp [hx])]
    congr 1
    simp only [cleaned, List.flatMap_cons, List.flatMap_nil, tameP]
    by_cases hl : p.level = 1
    · simp only [hl, ne_eq, not_true_eq_false, if_false]
      have : (∃ c ∈ runes (p.word.map tame), Unicode.isSpace c = true) ↔ ∃ c ∈ runes p.word, Unicode.isSpace c = true := by
        simp only [runes_tame, List.mem_map]
        constructor
        · rintro ⟨_, ⟨a, ha, rfl⟩, h⟩
          exact ⟨a, ha, by rwa [tameR_space] at h⟩
        · rintro ⟨a, ha, h⟩
          exact ⟨_, ⟨a, ha, rfl⟩, by rwa [tameR_space]⟩
      by_cases hc : ∃ c ∈ runes p.word, Unicode.isSpace c = true
      · rw [if_pos hc, if_pos (this.2 hc)]
      · rw [if_neg hc, if_neg (fun h => hc (this.1 h))]
    · have : p.word.map tame = p.word := by
        rw [List.map_congr_left (g := id) (fun b hb => ?_), List.map_id]
        exact h (b, p.level) (by simp [at_, hb]) hl
      simp only [ne_eq, hl, not_false_eq_true, if_true, this]

/-! ## At first -/

theorem encodeRune_tame {c : Rune} (hv : validRune c = true) : encodeRune (tameR c) = (encodeRune c).map tame := by
  cases h : blank c with
  | true =>
    rw [tameR, if_pos h]
    rw [blank_iff] at h
    rcases h with rfl | rfl | rfl | rfl | rfl <;> decide
  | false =>
    rw [tameR, h, if_neg (by simp)]
    refine (blankless_tame ?_).symm
    simp only [blankless, List.all_eq_true, Bool.not_eq_true']
    intro b hb
    cases hn : blank b.toNat with
    | false => rfl
    | true =>
      rw [encodeRune_ascii hv hb (blank_space _ hn).1, h] at hn
      contradiction

theorem encode_tame (cs : List Rune) : encode (cs.map tameR) = (encode cs).map tame := by
  induction cs with
  | nil => rfl
  | cons c cs ih =>
    rw [List.map_cons, encode_cons, encode_cons, List.map_append, ih]
    congr 1
    cases hv : validRune c with
    | true => exact encodeRune_tame hv
    | false =>
      have : blank c = false := by
        rw [Bool.eq_false_iff]
        intro h
        rw [blank_iff] at h
        rcases h with rfl | rfl | rfl | rfl | rfl <;> exact absurd hv (by decide)
      rw [tameR, this, if_neg (by simp), encodeRune, hv, if_neg (by simp)]
      decide

theorem level_tame (sp : Spec) (c : Rune) : level sp (tameR c) = level sp c := by
  cases h : blank c with
  | true =>
    have h1 := (blank_space c h).2
    rw [level_space h1, level_space (by rwa [tameR_space])]
  | false => rw [tameR, h, if_neg (by simp)]

theorem begin_tame (sp : Spec) : ∀ {cs : List Rune}, (∀ c ∈ cs, validRune c = true) → begin_ sp (cs.map tameR) = (begin_ sp cs).map tameB
  | [], _ => rfl
  | c :: cs, h => by
    rw [List.map_cons, begin_cons, begin_cons, List.map_append, begin_tame sp fun d hd => h d (by simp [hd]), level_tame,
      encodeRune_tame (h c (by simp)), at_tame]

theorem begin_fixed (sp : Spec) : ∀ {cs : List Rune}, (∀ c ∈ cs, validRune c = true) → Fixed (begin_ sp cs)
  | [], _ => fun _ h => absurd h (by simp [begin_, runesText])
  | c :: cs, h => by
    rw [begin_cons]
    refine fixed_append ?_ (begin_fixed sp fun d hd => h d (by simp [hd]))
    intro x hx h1
    simp only [at_, List.mem_map] at hx
    obtain ⟨b, hb, rfl⟩ := hx
    cases hc : blank c with
    | true => exact absurd (level_space (blank_space c hc).2) h1
    | false =>
      have e := encodeRune_tame (h c (by simp))
      rw [tameR, hc, if_neg (by simp)] at e
      obtain ⟨i, hi, e2⟩ := List.mem_iff_getElem.1 hb
      have := congrArg (·[i]?) e
      simp only [List.getElem?_map, List.getElem?_eq_getElem hi, Option.map_some, Option.some.injEq] at this
      rw [e2] at this
      exact this.symm

/-- The result is the same, whichever the white space. -/
theorem rest_tame {sp : Spec} (r1 : ∀ r ∈ sp.rewrite, bundleCheck .rewrite r = true)
    (t1 : ∀ r ∈ sp.transcribe, bundleCheck .transcribe r = true) (r2 : ∀ r ∈ sp.rewrite, blindCheck r = true)
    (t2 : ∀ r ∈ sp.transcribe, blindCheck r = true) {cs : List Rune} (hv : ∀ c ∈ cs, validRune c = true) {a b : Bytes}
    (ha : Rest sp cs a) (hb : Rest sp (cs.map tameR) b) : b = a := by
  obtain ⟨u1, v1, k1, k2, rfl, _, _⟩ := rest_stages r1 t1 hv ha
  obtain ⟨u2, v2, k3, k4, rfl, _, _⟩ := rest_stages r1 t1 (by
    intro c hc
    obtain ⟨d, hd, rfl⟩ := List.mem_map.1 hc
    unfold tameR
    split
    · decide
    · exact hv d hd) hb
  have hf : ∀ x, (tameB x).1 = tame x.1 := fun _ => rfl
  have hg : ∀ x, veil (tameB x) = tame (veil x) := by
    intro x
    have h0 : tame 0 = 0 := by decide
    by_cases h : x.2 = 2 <;> simp [veil, tameB, h, h0]
  have hR : ∀ p t, RewriteT sp.rewrite p t → RewriteT sp.rewrite (tameP p) (t.map tameB) := by
    rintro p t ⟨ws, h⟩
    obtain ⟨⟨ws', h'⟩, _⟩ := applied_tame hf r2 h
    exact ⟨ws', by rw [tameP, at_tame]; exact h'⟩
  have hT : ∀ p t, TranscribeT sp.transcribe p t → TranscribeT sp.transcribe (tameP p) (t.map tameB) := by
    rintro p t (⟨h, rfl⟩ | ⟨h, ws, k⟩)
    · exact .inl ⟨h, by rw [tameP, at_tame]⟩
    · obtain ⟨⟨ws', h'⟩, _⟩ := applied_tame hg t2 k
      exact .inr ⟨h, ws', by rw [tameP, at_tame]; exact h'⟩
  have hfix : Fixed v1 := by
    refine through_fixed ?_ k2 ?_
    · rintro p t (⟨h, rfl⟩ | ⟨h, ws, k⟩) hp
      · rwa [← h]
      · exact (applied_tame hg t2 k).2 hp
    · rw [tagged_blocks]
      refine through_fixed ?_ k1 ?_
      · rintro p t ⟨ws, h⟩ hp
        exact (applied_tame hf r2 h).2 hp
      · rw [tagged_blocks]
        exact begin_fixed sp hv
  rw [begin_tame sp hv, blocks_tame] at k3
  have e1 := (through_tame hR k1).unique (fun p _ t t' ⟨_, h1⟩ ⟨_, h2⟩ => applied_unique h1 h2) k3
  subst e1
  rw [blocks_tame] at k4
  have e2 := (through_tame hT k2).unique (fun p _ => by
    rintro t t' (⟨h1, rfl⟩ | ⟨h1, _, h2⟩) (⟨h3, rfl⟩ | ⟨h3, _, h4⟩)
    · rfl
    · exact absurd h1 h3
    · exact absurd h3 h1
    · exact applied_unique h2 h4) k4
  subst e2
  rw [blocks_tame, cleaned_tame (by rwa [tagged_blocks])]

/-! ## Replacements of texts -/

theorem prefix_tame {k : Bytes} (hk : blankless k = true) (w : Bytes) : k.isPrefixOf (w.map tame) = k.isPrefixOf w := by
  induction k generalizing w with
  | nil => simp
  | cons b k ih =>
    cases w with
    | nil => rfl
    | cons c w =>
      simp only [blankless, List.all_cons, Bool.and_eq_true] at hk
      have hb := (tame_eq (v := [b]) (w := [c]) (by simpa [blankless] using hk.1))
      simp only [List.map_cons, List.map_nil, List.cons.injEq, and_true] at hb
      simp only [List.map_cons, List.isPrefixOf, ih (by simpa [blankless] using hk.2)]
      congr 1
      rw [Bool.eq_iff_iff, beq_iff_eq, beq_iff_eq]
      exact hb

/-- Pairs without white space. -/
def Plain (pairs : List (Bytes × Bytes)) : Prop := ∀ p ∈ pairs, blankless p.1 = true ∧ blankless p.2 = true

theorem lookup_tame {pairs : List (Bytes × Bytes)} (h : Plain pairs) (w : Bytes) (b : Bool) :
    lookupKey pairs (w.map tame) b = lookupKey pairs w b := by
  unfold lookupKey
  rw [List.find?_congr fun p hp => ?_]
  rw [hasPrefix, hasPrefix, prefix_tame (h p hp).1]

theorem lookup_blankless {pairs : List (Bytes × Bytes)} (h : Plain pairs) {w : Bytes} {b : Bool} {v : Bytes} {k : Nat}
    (hl : lookupKey pairs w b = some (v, k)) : v.map tame = v := by
  unfold lookupKey at hl
  rw [Option.map_eq_some_iff] at hl
  obtain ⟨p, hp, e⟩ := hl
  cases e
  exact blankless_tame (h p (List.mem_of_find?_eq_some hp)).2

/-- Replacements of texts without white space leave it alone. -/
theorem replace_tame {pairs : List (Bytes × Bytes)} (h : Plain pairs) (w : Bytes) :
    replacePairs pairs (w.map tame) = (replacePairs pairs w).map tame := by
  have key : ∀ (w : Bytes) (k : Nat), replaceFrom pairs k (w.map tame) = (replaceFrom pairs k w).map tame := by
    intro w
    induction w with
    | nil =>
      intro k
      cases hl : lookupKey pairs [] false with
      | none => simp [replaceFrom, hl]
      | some p => simp [replaceFrom, hl, lookup_blankless h hl]
    | cons c t ih =>
      intro k
      cases k with
      | succ k => simp only [List.map_cons, replaceFrom, ih]
      | zero =>
        have e1 := lookup_tame h (c :: t) false
        have e2 := lookup_tame h (c :: t) true
        rw [List.map_cons] at e1 e2
        simp only [List.map_cons, replaceFrom, e1, e2]
        cases hl : lookupKey pairs (c :: t) false with
        | none => simp [ih]
        | some p =>
          obtain ⟨v, k⟩ := p
          cases k with
          | succ k => simp [ih, lookup_blankless h hl]
          | zero =>
            cases hm : lookupKey pairs (c :: t) true with
            | none => simp [ih, lookup_blankless h hl]
            | some p => simp [ih, lookup_blankless h hl, lookup_blankless h hm]
  exact key w 0

end Verif.Blind
