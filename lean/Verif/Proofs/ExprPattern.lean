import Verif.Proofs.Expr

/-! Patterns of the expressions of `Spec/Expr.lean`. -/

namespace Verif.Spec.Expr

open Verif.Rx Verif.Spec Verif.Spec.Vars Verif.Hre

/-! ## Vars -/

def chars : List Rune → Expr
  | [] => .nothing
  | c :: cs => .seq (.char c) (chars cs)

def oneOfThese : List (List Rune) → Expr
  | [] => .nothing
  | [v] => chars v
  | v :: vs => .or (chars v) (oneOfThese vs)

/-- The expression with its vars expanded. -/
def core : Expr → Expr
  | .nothing => .nothing
  | .char c => .char c
  | .any => .any
  | .oneOf r => .oneOf r
  | .var _ vals => .group true (oneOfThese vals)
  | .seq a b => .seq (core a) (core b)
  | .or a b => .or (core a) (core b)
  | .group c a => .group c (core a)
  | .opt g a => .opt g (core a)
  | .many g a => .many g (core a)
  | .more g a => .more g (core a)

theorem isOr_core (e : Expr) : isOr (core e) = isOr e := by cases e <;> rfl
theorem isAtom_core (e : Expr) : isAtom (core e) = isAtom e := by cases e <;> rfl
theorem isOr_chars (v : List Rune) : isOr (chars v) = false := by cases v <;> rfl

theorem raw_chars {v : List Rune} (h : ∀ c ∈ v, Proper c) : Raw (chars v) := by
  induction v with
  | nil => exact trivial
  | cons c v ih => exact ⟨h c (by simp), ih fun x hx => h x (by simp [hx]), rfl, isOr_chars v⟩

theorem raw_these : ∀ {vs : List (List Rune)}, (∀ v ∈ vs, ∀ c ∈ v, Proper c) → Raw (oneOfThese vs)
  | [], _ => trivial
  | [v], h => raw_chars (h v (by simp))
  | v :: w :: vs, h => ⟨raw_chars (h v (by simp)), raw_these (vs := w :: vs) fun x hx => h x (by simp [hx])⟩

theorem raw_core {vars : List (Bytes × List Bytes)} : ∀ {e : Expr}, Fit vars e → Raw (core e)
  | .nothing, _ | .any, _ => trivial
  | .char _, h => h.1
  | .oneOf _, h => ⟨h.1, fun p hp => ⟨(h.2 p hp).1, (h.2 p hp).2.2.1, (h.2 p hp).2.2.2.2⟩⟩
  | .var _ v, h => raw_these (vs := v) h.2.2.2.1
  | .seq a b, h => ⟨raw_core h.1, raw_core h.2.1, (isOr_core a).trans h.2.2.1, (isOr_core b).trans h.2.2.2⟩
  | .or _ _, h => ⟨raw_core h.1, raw_core h.2⟩
  | .group _ a, h => raw_core (e := a) h
  | .opt _ a, h | .many _ a, h | .more _ a, h => ⟨raw_core h.1, (isAtom_core a).trans h.2⟩

theorem means_chars {v u : List Rune} : Means (chars v) u ↔ u = v := by
  induction v generalizing u with
  | nil => exact Iff.rfl
  | cons c v ih =>
    simp only [chars, Means, ih]
    exact ⟨fun ⟨_, _, h, h1, h2⟩ => by simp [h, h1, h2], fun h => ⟨[c], v, by simp [h], rfl, rfl⟩⟩

theorem means_these : ∀ {vs : List (List Rune)} {u : List Rune}, vs ≠ [] → (Means (oneOfThese vs) u ↔ u ∈ vs)
  | [], _, h => absurd rfl h
  | [v], u, _ => by simp [oneOfThese, means_chars]
  | v :: w :: vs, u, _ => by
    rw [oneOfThese, Means, means_chars, means_these (vs := w :: vs) (by simp)]
    · simp
    · simp

theorem means_core {vars : List (Bytes × List Bytes)} : ∀ {e : Expr} {u : List Rune}, Fit vars e → (Means (core e) u ↔ Means e u)
  | .nothing, _, _ | .any, _, _ | .char _, _, _ | .oneOf _, _, _ => Iff.rfl
  | .var n v, u, h => means_these h.2.2.1
  | .seq a b, u, h => by simp only [core, Means, means_core h.1, means_core h.2.1]
  | .or a b, u, h => by simp only [core, Means, means_core h.1, means_core h.2]
  | .group c a, u, h => by simp only [core, Means, means_core (e := a) h]
  | .opt g a, u, h => by simp only [core, Means, means_core h.1]
  | .many g a, u, h => by simp only [core, Means, means_core h.1]
  | .more g a, u, h => by simp only [core, Means, means_core h.1]

theorem rests_chars : ∀ (v : List Rune) (x : Chars), rests (chars v) x = litsR v x
  | [], _ => rfl
  | c :: v, x => by
    simp only [chars, rests, litsR]
    exact congrArg (List.flatMap · _) (funext fun y => rests_chars v y)

theorem rests_these : ∀ {vs : List (List Rune)}, vs ≠ [] → ∀ x, rests (oneOfThese vs) x = vs.flatMap fun v => litsR v x
  | [], h, _ => absurd rfl h
  | [v], _, x => by simp [oneOfThese, rests_chars]
  | v :: w :: vs, _, x => by
    rw [oneOfThese, rests, rests_chars, rests_these (vs := w :: vs) (by simp)]
    · simp
    · simp

theorem rests_core {vars : List (Bytes × List Bytes)} : ∀ {e : Expr}, Fit vars e → rests (core e) = rests e
  | .nothing, _ | .any, _ | .char _, _ | .oneOf _, _ => rfl
  | .var n v, h => funext fun x => rests_these h.2.2.1 x
  | .seq a b, h => by funext x; simp only [core, rests, rests_core h.1, rests_core h.2.1]
  | .or a b, h => by funext x; simp only [core, rests, rests_core h.1, rests_core h.2]
  | .group c a, h => by funext x; simp only [core, rests, rests_core (e := a) h]
  | .opt g a, h => by funext x; simp only [core, rests, rests_core h.1]
  | .many g a, h => by funext x; simp only [core, rests, rests_core h.1]
  | .more g a, h => by funext x; simp only [core, rests, rests_core h.1]

/-! ## How it is written -/

/-- Text and vars in the order in which they are written. -/
def pieces : Expr → List Item
  | .nothing => []
  | .char c => [.text (encode (charText c))]
  | .any => [.text [0x2E]]
  | .oneOf r => [.text (encode (0x5B :: (r.flatMap rangeText ++ [0x5D])))]
  | .var n v => [.var (encode n) (v.map encode)]
  | .seq a b => pieces a ++ pieces b
  | .or a b => pieces a ++ .text [0x7C] :: pieces b
  | .group c a => .text (if c then [0x28] else [0x28, 0x3F, 0x3A]) :: (pieces a ++ [.text [0x29]])
  | .opt g a => pieces a ++ [.text (encode (0x3F :: mark g))]
  | .many g a => pieces a ++ [.text (encode (0x2A :: mark g))]
  | .more g a => pieces a ++ [.text (encode (0x2B :: mark g))]

theorem written_append (a b : List Item) : written (a ++ b) = written a ++ written b := by
  induction a with
  | nil => rfl
  | cons x a ih => cases x <;> simp [written, ih]

theorem expanded_append (a b : List Item) : expanded (a ++ b) = expanded a ++ expanded b := by
  induction a with
  | nil => rfl
  | cons x a ih => cases x <;> simp [expanded, ih]

theorem enc1 (c : Rune) (h : c < 0x80) : encode [c] = [UInt8.ofNat c] := by
  simp [encode, Hre.encodeRune_ascii h]

theorem written_pieces : ∀ (e : Expr), written (pieces e) = encode (text e)
  | .nothing => rfl
  | .char c => by simp [pieces, written, text]
  | .any => rfl
  | .oneOf r => by simp [pieces, written, text]
  | .var n v => by
    simp only [pieces, written, text]
    rw [encode_cons, encode_append, Hre.encodeRune_ascii (by decide), enc1 _ (by decide)]
    rfl
  | .seq a b => by simp only [pieces, text, written_append, encode_append, written_pieces a, written_pieces b]
  | .or a b => by
    simp only [pieces, text, written_append, written, encode_append, written_pieces a, written_pieces b, encode_cons,
      Hre.encodeRune_ascii (show (0x7C : Nat) < 0x80 by decide)]
    rfl
  | .group c a => by
    have e1 : encode (if c then [0x28] else [0x28, 0x3F, 0x3A]) = if c then [0x28] else [0x28, 0x3F, 0x3A] := by
      cases c <;> rfl
    simp only [pieces, text, written_append, written, encode_append, written_pieces a, e1]
    rfl
  | .opt g a => by
    simp only [pieces, text, written_append, written, encode_append, written_pieces a, List.append_nil]
  | .many g a => by
    simp only [pieces, text, written_append, written, encode_append, written_pieces a, List.append_nil]
  | .more g a => by
    simp only [pieces, text, written_append, written, encode_append, written_pieces a, List.append_nil]

theorem special_meta (c : Rune) : special c = isMetaR c := by
  rw [Bool.eq_iff_iff, special_iff, isMetaR_iff]

theorem text_chars (v : List Rune) : text (chars v) = quoteR v := by
  induction v with
  | nil => rfl
  | cons c v ih => simp only [chars, text, charText, special_meta, ih, quoteR, List.flatMap_cons]

theorem text_these : ∀ (vs : List (List Rune)), encode (text (oneOfThese vs)) = join [0x7C] ((vs.map encode).map quoteMeta)
  | [] => rfl
  | [v] => by simp [oneOfThese, text_chars, join, quoteMeta_encode]
  | v :: w :: vs => by
    have ih := text_these (w :: vs)
    simp only [oneOfThese, text, encode_append, text_chars, encode_cons, ih, List.map_cons, join, quoteMeta_encode,
      Hre.encodeRune_ascii (show (0x7C : Nat) < 0x80 by decide)]
    simp

theorem expanded_pieces : ∀ (e : Expr), expanded (pieces e) = encode (text (core e))
  | .nothing => rfl
  | .char c => by simp [pieces, expanded, text, core]
  | .any => rfl
  | .oneOf r => by simp [pieces, expanded, text, core]
  | .var n v => by
    simp only [pieces, expanded, text, core, varGroup, encode_append, text_these, if_true, List.append_nil, List.append_assoc]
    rfl
  | .seq a b => by simp only [pieces, text, core, expanded_append, encode_append, expanded_pieces a, expanded_pieces b]
  | .or a b => by
    simp only [pieces, text, core, expanded_append, expanded, encode_append, expanded_pieces a, expanded_pieces b, encode_cons,
      Hre.encodeRune_ascii (show (0x7C : Nat) < 0x80 by decide)]
    rfl
  | .group c a => by
    have e1 : encode (if c then [0x28] else [0x28, 0x3F, 0x3A]) = if c then [0x28] else [0x28, 0x3F, 0x3A] := by
      cases c <;> rfl
    simp only [pieces, text, core, expanded_append, expanded, encode_append, expanded_pieces a, e1]
    rfl
  | .opt g a => by
    simp only [pieces, text, core, expanded_append, expanded, encode_append, expanded_pieces a, List.append_nil]
  | .many g a => by
    simp only [pieces, text, core, expanded_append, expanded, encode_append, expanded_pieces a, List.append_nil]
  | .more g a => by
    simp only [pieces, text, core, expanded_append, expanded, encode_append, expanded_pieces a, List.append_nil]

/-! ## The characters of the text -/

theorem ascii_mem {c : UInt8} {u : List Rune} (hv : ∀ r ∈ u, validRune r = true) (hc : c.toNat < 0x80) (h : c ∈ encode u) :
    c.toNat ∈ u := by
  have := runes_ascii_mem hc h
  rwa [runes_encode hv] at this

/-- Texts in which no `^`, `$` and `{` occur. -/
def Fine (u : List Rune) : Prop := ∀ c ∈ u, Proper c

theorem Fine.append {u v : List Rune} (h1 : Fine u) (h2 : Fine v) : Fine (u ++ v) := by
  intro c hc
  rcases List.mem_append.1 hc with h | h
  · exact h1 c h
  · exact h2 c h

theorem fine_ascii {c : Rune} (h : c < 0x80) (h1 : c ≠ 0x5E) (h2 : c ≠ 0x24) (h3 : c ≠ 0x7B) : Proper c :=
  ⟨(validRune_iff c).2 (by omega), h1, h2, h3⟩

theorem fine_cons {c : Rune} {u : List Rune} (h : Proper c) (hu : Fine u) : Fine (c :: u) := by
  intro d hd
  rcases List.mem_cons.1 hd with rfl | hd
  · exact h
  · exact hu d hd

theorem fine_nil : Fine [] := by intro c hc; simp at hc

theorem fine_char {c : Rune} (h : Proper c) : Fine (charText c) := by
  unfold charText
  split
  · exact fine_cons (fine_ascii (by decide) (by decide) (by decide) (by decide)) (fine_cons h fine_nil)
  · exact fine_cons h fine_nil

theorem fine_member {c : Rune} (h : Proper c) : Fine (memberText c) := by
  unfold memberText
  split
  · exact fine_cons (fine_ascii (by decide) (by decide) (by decide) (by decide)) (fine_cons h fine_nil)
  · exact fine_cons h fine_nil

theorem fine_range {p : Rune × Rune} (h1 : Proper p.1) (h2 : Proper p.2) : Fine (rangeText p) := by
  unfold rangeText
  split
  · exact fine_member h1
  · exact (fine_member h1).append (fine_cons (fine_ascii (by decide) (by decide) (by decide) (by decide)) (fine_member h2))

theorem fine_ranges {r : List (Rune × Rune)} (h : ∀ p ∈ r, Proper p.1 ∧ Proper p.2) :
    Fine (0x5B :: (r.flatMap rangeText ++ [0x5D])) := by
  refine fine_cons (fine_ascii (by decide) (by decide) (by decide) (by decide)) (Fine.append ?_ ?_)
  · intro c hc
    obtain ⟨p, hp, hc⟩ := List.mem_flatMap.1 hc
    exact fine_range (h p hp).1 (h p hp).2 c hc
  · exact fine_cons (fine_ascii (by decide) (by decide) (by decide) (by decide)) fine_nil

theorem fine_mark (g : Bool) : Fine (mark g) := by
  cases g
  · exact fine_cons (fine_ascii (by decide) (by decide) (by decide) (by decide)) fine_nil
  · exact fine_nil

theorem fine_text : ∀ {e : Expr}, Raw e → Fine (text e)
  | .nothing, _ => fine_nil
  | .char c, h => fine_char h
  | .any, _ => fine_cons (fine_ascii (by decide) (by decide) (by decide) (by decide)) fine_nil
  | .oneOf r, h => fine_ranges fun p hp => ⟨(h.2 p hp).1, (h.2 p hp).2.1⟩
  | .var n v, h => h.elim
  | .seq a b, h => (fine_text h.1).append (fine_text h.2.1)
  | .or a b, h => (fine_text h.1).append
      (fine_cons (fine_ascii (by decide) (by decide) (by decide) (by decide)) (fine_text h.2))
  | .group c a, h => by
    refine Fine.append ?_ ((fine_text (e := a) h).append
      (fine_cons (fine_ascii (by decide) (by decide) (by decide) (by decide)) fine_nil))
    have h1 := fine_ascii (c := 0x28) (by decide) (by decide) (by decide) (by decide)
    have h2 := fine_ascii (c := 0x3F) (by decide) (by decide) (by decide) (by decide)
    have h3 := fine_ascii (c := 0x3A) (by decide) (by decide) (by decide) (by decide)
    cases c
    · exact fine_cons h1 (fine_cons h2 (fine_cons h3 fine_nil))
    · exact fine_cons h1 fine_nil
  | .opt g a, h | .many g a, h | .more g a, h => (fine_text h.1).append
      (fine_cons (fine_ascii (by decide) (by decide) (by decide) (by decide)) (fine_mark g))

theorem noLess_range {p : Rune × Rune} (h1 : p.1 ≠ 0x3C) (h2 : p.2 ≠ 0x3C) : 0x3C ∉ rangeText p := by
  unfold rangeText memberText
  repeat' split
  all_goals simp <;> omega

theorem defined_text {vars : List (Bytes × List Bytes)} {u : List Rune} (h : Fine u) (hl : 0x3C ∉ u) :
    (Item.text (encode u)).Defined vars :=
  ⟨⟨u, fun r hr => (h r hr).1, rfl⟩, fun hm => hl (ascii_mem (c := 0x3C) (fun r hr => (h r hr).1) (by decide) hm)⟩

theorem defined_pieces {vars : List (Bytes × List Bytes)} : ∀ {e : Expr}, Fit vars e → ∀ it ∈ pieces e, it.Defined vars
  | .nothing, _, it, hi => by simp [pieces] at hi
  | .char c, h, it, hi => by
    simp only [pieces, List.mem_singleton] at hi
    subst hi
    refine defined_text (fine_char h.1) ?_
    have := h.2
    unfold charText
    split <;> simp <;> omega
  | .any, _, it, hi => by
    simp only [pieces, List.mem_singleton] at hi
    subst hi
    exact ⟨⟨[0x2E], by decide, by decide⟩, by decide⟩
  | .oneOf r, h, it, hi => by
    simp only [pieces, List.mem_singleton] at hi
    subst hi
    refine defined_text (fine_ranges fun p hp => ⟨(h.2 p hp).1, (h.2 p hp).2.2.1⟩) ?_
    simp only [List.mem_cons, List.mem_append, List.mem_flatMap, not_or]
    refine ⟨by decide, ?_, by decide, by simp⟩
    rintro ⟨p, hp, hc⟩
    exact noLess_range (h.2 p hp).2.1 (h.2 p hp).2.2.2.1 hc
  | .var n v, h, it, hi => by
    simp only [pieces, List.mem_singleton] at hi
    subst hi
    obtain ⟨h1, h2, h3, h4, h5⟩ := h
    have hv : ∀ r ∈ n, validRune r = true := fun r hr => (h2 r hr).1
    refine ⟨⟨n, hv, rfl⟩, ?_, ?_, ?_, ?_, h5, by simpa using h3⟩
    · intro h0
      have := runes_encode hv
      rw [h0] at this
      exact h1 (by rw [← this]; rfl)
    · exact fun hm => (h2 _ (ascii_mem (c := 0x3C) hv (by decide) hm)).2.1 rfl
    · exact fun hm => (h2 _ (ascii_mem (c := 0x3E) hv (by decide) hm)).2.2.1 rfl
    · exact fun hm => (h2 _ (ascii_mem (c := 0x0A) hv (by decide) hm)).2.2.2 rfl
  | .seq a b, h, it, hi => by
    rcases List.mem_append.1 hi with hi | hi
    · exact defined_pieces h.1 it hi
    · exact defined_pieces h.2.1 it hi
  | .or a b, h, it, hi => by
    rcases List.mem_append.1 hi with hi | hi
    · exact defined_pieces h.1 it hi
    · rcases List.mem_cons.1 hi with rfl | hi
      · exact ⟨⟨[0x7C], by decide, by decide⟩, by decide⟩
      · exact defined_pieces h.2 it hi
  | .group c a, h, it, hi => by
    rcases List.mem_cons.1 hi with rfl | hi
    · cases c
      · exact ⟨⟨[0x28, 0x3F, 0x3A], by decide, by decide⟩, by decide⟩
      · exact ⟨⟨[0x28], by decide, by decide⟩, by decide⟩
    · rcases List.mem_append.1 hi with hi | hi
      · exact defined_pieces (e := a) h it hi
      · simp only [List.mem_singleton] at hi
        subst hi
        exact ⟨⟨[0x29], by decide, by decide⟩, by decide⟩
  | .opt g a, h, it, hi | .many g a, h, it, hi | .more g a, h, it, hi => by
    rcases List.mem_append.1 hi with hi | hi
    · exact defined_pieces h.1 it hi
    · simp only [List.mem_singleton] at hi
      subst hi
      refine defined_text (fine_cons (fine_ascii (by decide) (by decide) (by decide) (by decide)) (fine_mark g)) ?_
      cases g <;> simp [mark]

/-! ## The pattern -/

mutual
theorem minW_shift {k : Nat} : ∀ (r : Re), minW (shiftCap k r) = minW r
  | .noMatch | .empty | .lit _ | .cls _ _ | .anyNotNL | .any | .beginLine | .endLine
  | .beginText | .endText | .wordB | .noWordB => rfl
  | .cap _ r => by simp only [shiftCap, minW, minW_shift r]
  | .star _ _ | .quest _ _ => by simp only [shiftCap, minW]
  | .plus _ r => by simp only [shiftCap, minW, minW_shift r]
  | .rep _ _ _ r => by simp only [shiftCap, minW, minW_shift r]
  | .cat rs => by simp only [shiftCap, minW, minWCat_shift rs]
  | .alt rs => by simp only [shiftCap, minW, minWAlt_shift rs]
theorem minWCat_shift {k : Nat} : ∀ (rs : List Re), minWCat (shiftCapList k rs) = minWCat rs
  | [] => rfl
  | r :: rs => by simp only [shiftCapList, minWCat, minW_shift r, minWCat_shift rs]
theorem minWAlt_shift {k : Nat} : ∀ (rs : List Re), minWAlt (shiftCapList k rs) = minWAlt rs
  | [] => rfl
  | [r] => by simp only [shiftCapList, minWAlt, minW_shift r]
  | r :: q :: rs => by
    have := minWAlt_shift (k := k) (q :: rs)
    simp only [shiftCapList] at this
    simp only [shiftCapList, minWAlt, minW_shift r, this]
end

/-- Items without the groups `a` and `b`. -/
theorem gapCat_core {a b : Nat} {rest : List Re} : ∀ {rs : List Re} {acc : Nat}, HasCapList a rs = false → HasCapList b rs = false →
    gapCat a b acc (rs ++ rest) = gapCat a b (acc + minWCat rs) rest
  | [], acc, _, _ => by simp [minWCat]
  | r :: rs, acc, h1, h2 => by
    simp only [HasCapList, Bool.or_eq_false_iff] at h1 h2
    have ih := gapCat_core (rest := rest) (rs := rs) (acc := acc + minW r) h1.2 h2.2
    have e : acc + minWCat (r :: rs) = acc + minW r + minWCat rs := by simp [minWCat]; omega
    rw [e, ← ih]
    cases r with
    | cap i q =>
      have k1 := h1.1
      have k2 := h2.1
      simp only [HasCap, Bool.or_eq_false_iff, beq_eq_false_iff_ne] at k1 k2
      simp only [List.cons_append, gapCat, k1.2, k2.2, Bool.not_false, Bool.true_and]
      rw [if_neg (by have := k1.1; omega), if_neg (by have := k2.1; omega)]
      simp [minW]
    | _ => simp only [List.cons_append, gapCat, h1.1, h2.1, Bool.not_false, Bool.true_and]

theorem firm_layout {p : Pattern} {rs : List Re} {k : Nat} {e1 lb la e2 : Re} (h : Layout p e1 lb rs k la e2)
    (hw : 1 ≤ minWCat rs) : firm p = true := by
  have h2 : HasCapList 2 rs = false := by
    rw [Bool.eq_false_iff]
    intro hh
    have := h.core _ hh
    omega
  have h3 : HasCapList (k + 3) rs = false := by
    rw [Bool.eq_false_iff]
    intro hh
    have := h.core _ hh
    omega
  simp only [firm, h.num, Bool.and_eq_true, decide_eq_true_eq]
  refine ⟨by omega, ?_⟩
  rw [h.re]
  simp only [gap, items, List.cons_append, List.nil_append, show k + 4 - 1 = k + 3 by omega]
  simp only [gapCat, h.e1, h.lb, Bool.not_false, Bool.true_and]
  rw [if_neg (by omega), if_neg (by omega), if_pos trivial, gapCat_core h2 h3]
  simp only [gapCat, h.la, h.e2, Bool.not_false, Bool.true_and, if_true, HasCapList, HasCap]
  rw [if_neg (by omega)]
  simp
  omega

/-- A macro whose key does not occur is not used. -/
theorem expandMacros_unused {macros : List (Bytes × Bytes)} {x : Bytes} (h : ∀ m ∈ macros, m.1 ≠ [] ∧ ¬ m.1 <:+: x) :
    expandMacros x macros = x := by
  unfold expandMacros replacePairs
  have none_ : ∀ y, y <:+ x → lookupKey macros y false = none := by
    intro y hy
    rw [lookupKey, Option.map_eq_none_iff, List.find?_eq_none]
    intro m hm hp
    simp only [Bool.false_and, Bool.not_false, Bool.and_true, hasPrefix, List.isPrefixOf_iff_prefix] at hp
    exact (h m hm).2 (hp.isInfix.trans hy.isInfix)
  suffices ∀ y, y <:+ x → replaceFrom macros 0 y = y from this x (List.suffix_refl x)
  intro y
  induction y with
  | nil => intro hy; simp [replaceFrom, none_ _ hy]
  | cons c y ih =>
    intro hy
    simp only [replaceFrom, none_ _ hy, ih ((List.suffix_cons c y).trans hy)]

theorem pattern {vars : List (Bytes × List Bytes)} {macros : List (Bytes × Bytes)} {e : Expr} (h : Fit vars e) (ho : isOr e = false)
    (hne : text e ≠ []) (hm : ∀ m ∈ macros, m.1 ≠ [] ∧ ¬ m.1 <:+: encode (text e)) :
    ∃ p rs k, newPattern (encode (text e)) macros vars = .ok p ∧ p.negA = none ∧ p.negB = none ∧
      Layout p .empty .empty rs k .empty .empty ∧ (∀ u, Lang (.cat rs) u ↔ Means e u) ∧ PlainList rs = true ∧
      (¬ Means e [] → firm p = true) := by
  have hr := raw_core h
  have hf := fine_text hr
  have hv : ∀ r ∈ text (core e), validRune r = true := fun r hr => (hf r hr).1
  have h0 : (encode (text e)).isEmpty = false := by
    cases ht : text e with
    | nil => exact absurd ht hne
    | cons c t =>
      have := encodeRune_ne_nil c
      rw [encode_cons, List.isEmpty_eq_false_iff]
      intro h
      exact this (List.append_eq_nil_iff.1 h).1
  have hx := expandVars_written (defined_pieces h)
  rw [written_pieces, expanded_pieces] at hx
  generalize hX : encode (text (core e)) = X at hx
  have ru : runes X = text (core e) := by rw [← hX, runes_encode hv]
  have hX' : ValidUtf8 X := ⟨_, hv, hX.symm⟩
  have c1 : 0x5E ∉ X := by rw [← hX]; exact fun hh => (hf _ (ascii_mem (c := 0x5E) hv (by decide) hh)).2.1 rfl
  have c2 : 0x24 ∉ X := by rw [← hX]; exact fun hh => (hf _ (ascii_mem (c := 0x24) hv (by decide) hh)).2.2.1 rfl
  have c3 : 0x7B ∉ X := by rw [← hX]; exact fun hh => (hf _ (ascii_mem (c := 0x7B) hv (by decide) hh)).2.2.2 rfl
  -- the parse
  obtain ⟨st, rs, hp, hi⟩ := (parse_toks (core e) hr).1 ((isOr_core e).trans ho) PSt.init
  have hlex : lexFrom 0 (text (core e)) = .ok (toks (core e)) := by
    have := lex_text (x := []) hr (.inr (by simp))
    simpa [lexFrom, Go.bind] using this
  have hpar : Parses (text (core e)) (toks (core e)) st.cur st.ncap st.lastRep := by
    refine ⟨hlex, ?_⟩
    rw [hp]
    have := hi.stack
    obtain ⟨cur, stack, n, l⟩ := st
    simp only [PSt.init] at this
    subst this
    rfl
  have halts : st.cur.alts = [] := hi.alts
  have hcat : st.cur.cat = rs.reverse := by rw [hi.cat]; simp [PSt.init]
  have hno : NoBar X := ⟨hX', _, _, _, _, by rw [ru]; exact hpar, halts⟩
  have hcore : compile X = .ok (mkCat rs.reverse) := by
    rw [compile, if_pos hX', ru]
    refine parseRunes_iff.2 ⟨_, _, _, _, hpar, ?_⟩
    rw [Frame.body, halts, hcat, mkAlt]
  have hnil : Parses [] [] ⟨none, [], []⟩ 0 false := ⟨rfl, rfl⟩
  obtain ⟨re, hre⟩ : ∃ re, compile ([0x28, 0x29, 0x28, 0x29] ++ (X ++ [0x28, 0x29, 0x28, 0x29])) = .ok re := by
    obtain ⟨ts, f, l, hq, _⟩ := parse_pieces hnil hnil hpar hnil hnil
    refine ⟨f.body, ?_⟩
    have v4 : ValidUtf8 [0x28, 0x29, 0x28, 0x29] := ⟨[0x28, 0x29, 0x28, 0x29], by decide, by decide⟩
    have r4 : runes [0x28, 0x29, 0x28, 0x29] = [0x28, 0x29, 0x28, 0x29] := by decide
    rw [compile, if_pos (v4.append (hX'.append v4)), runes_append v4, runes_append hX', ru, r4]
    exact parseRunes_iff.2 ⟨_, _, _, _, hq, rfl⟩
  -- the pattern
  have cm : ∀ c : UInt8, c ≠ 0x28 → c ≠ 0x29 → c ∉ X → c ∉ X ++ [0x28, 0x29, 0x28, 0x29] := by
    intro c d1 d2 d3
    simp [d1, d2, d3]
  have cn : ∀ c : UInt8, c ≠ 0x28 → c ≠ 0x29 → c ∉ X → c ∉ [0x28, 0x29, 0x28, 0x29] ++ (X ++ [0x28, 0x29, 0x28, 0x29]) := by
    intro c d1 d2 d3
    simp [d1, d2, d3]
  have el : expandLookaround X = .ok ⟨[0x28, 0x29, 0x28, 0x29] ++ (X ++ [0x28, 0x29, 0x28, 0x29]), [], [], 0, 0⟩ := by
    simp only [expandLookaround, expandLookahead_plain c2 c3, Go.bind_ok,
      expandLookbehind_plain (cm 0x5E (by decide) (by decide) c1) (cm 0x7B (by decide) (by decide) c3),
      no_zeroWidth (cn 0x7B (by decide) (by decide) c3)]
    rfl
  obtain ⟨letters, used, hnew⟩ : ∃ letters used, newPattern (encode (text e)) macros vars =
      .ok ⟨encode (text e), re, none, none, 0, 0, letters, used⟩ := by
    refine ⟨sortRunes (splitLetters (regexpLetters
      ([0x28, 0x29, 0x28, 0x29] ++ (X ++ [0x28, 0x29, 0x28, 0x29]) ++ [] ++ []))), valsOf (pieces e), ?_⟩
    simp only [newPattern, h0, expandMacros_unused hm, hx, el, Go.bind_ok,
      expandEdges_plain (cn 0x5E (by decide) (by decide) c1) (cn 0x24 (by decide) (by decide) c2), hre, compileOpt_nil]
    rfl
  have he : compile ([] : Bytes) = .ok .empty := by rfl
  obtain ⟨core', k, hL, hcl⟩ := layout_of_pieces (p := ⟨encode (text e), re, none, none, 0, 0, letters, used⟩)
    (a := []) (b := []) (m := X) (c := []) (d := []) hre he he hno he he rfl rfl rfl rfl
  obtain ⟨l, e1, e2⟩ := hcl _ hcore
  have hlang : ∀ u, Lang (.cat core') u ↔ Means e u := by
    intro u
    rw [e2, core_lang.1, ← e1, lang_mkCat, List.reverse_reverse, hi.same.lang, means_core h]
  have hplain : PlainList core' = true := by
    rw [e2]
    refine core_lang.2 ?_
    rw [← e1]
    exact plain_of_mkCat (by simpa [Plain] using hi.same.plain)
  refine ⟨_, core', k, hnew, rfl, rfl, hL, hlang, hplain, fun hn => firm_layout hL ?_⟩
  have w1 := hi.same.width (by rwa [means_core h])
  have w2 : minW (mkCat l) = minWCat core' := by
    rw [minW_mkCat, e2, ← List.map_reverse, ← shiftCapList_eq, minWCat_shift]
  rw [← w2, ← e1, minW_mkCat, List.reverse_reverse]
  simpa [minW] using w1

/-- Scans for the same occurrences. -/
theorem leftmost_occ {occ occ' : Nat → Nat → Nat → Prop} {v : Nat → Nat → Prop} {len lo : Nat} {ms : List (List Int)}
    (h : ∀ i j k, occ i j k ↔ occ' i j k) (hl : Leftmost occ v len lo ms) : Leftmost occ' v len lo ms := by
  have : occ = occ' := by
    funext i j k
    exact propext (h i j k)
  rwa [← this]

end Verif.Spec.Expr
