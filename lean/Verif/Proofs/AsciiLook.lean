import Verif.Proofs.Negative

/-! ASCII texts next to a match in an arbitrary word. -/

namespace Verif.Hre

open Verif.Rx Verif.Spec Verif.Spec.Hre

theorem runes_cons (b : UInt8) (t : Bytes) :
    runes (b :: t) = (decodeRune b t).1 :: runes (t.drop ((decodeRune b t).2 - 1)) := by
  simp [runes, decode_cons]

/-- ASCII characters at the beginning are bytes. -/
theorem runes_prefix_ascii : ∀ {u : List Rune} {w : Bytes}, u <+: runes w → (∀ c ∈ u, c < 0x80) →
    ∃ x y, w = x ++ y ∧ (∀ b ∈ x, b.toNat < 0x80) ∧ x.map UInt8.toNat = u
  | [], w, _, _ => ⟨[], w, rfl, by simp, rfl⟩
  | c :: u, [], h, _ => by simp [runes, decode_nil] at h
  | c :: u, b :: t, h, ha => by
    rw [runes_cons, List.cons_prefix_cons] at h
    obtain ⟨h1, h2⟩ := h
    have hd := decodeRune_lt (b := b) (t := t) (by rw [← h1]; exact ha c (by simp))
    rw [hd.1] at h1 h2
    obtain ⟨x, y, h3, h4, h5⟩ := runes_prefix_ascii h2 (fun c hc => ha c (by simp [hc]))
    simp only [Nat.sub_self, List.drop_zero] at h3
    refine ⟨b :: x, y, by rw [h3]; rfl, ?_, by simp [h5, h1]⟩
    intro d hd'
    rcases List.mem_cons.1 hd' with rfl | hd'
    · exact hd.2
    · exact h4 d hd'

theorem runes_append_ascii : ∀ (y x : Bytes), (∀ b ∈ y, b.toNat < 0x80) → runes (x ++ y) = runes x ++ y.map UInt8.toNat
  | [], x, _ => by simp
  | c :: y, x, h => by
    have hy := runes_ascii (w := y) (fun b hb => h b (by simp [hb]))
    unfold runes at hy ⊢
    rw [decode_split x (h c (by simp))]
    simp [hy]

theorem decode_last_ascii : ∀ (n : Nat) {x : Bytes} {v : List Rune} {c : Rune}, x.length ≤ n → c < 0x80 → runes x = v ++ [c] →
    ∃ x' b, x = x' ++ [b] ∧ b.toNat = c
  | n, [], v, c, _, _, h => by simp [runes, decode_nil] at h
  | 0, b :: t, v, c, hn, _, _ => by simp at hn
  | n + 1, b :: t, v, c, hn, hc, h => by
    rw [runes_cons] at h
    cases v with
    | nil =>
      simp only [List.nil_append, List.cons.injEq] at h
      have hd := decodeRune_lt (b := b) (t := t) (by rw [h.1]; exact hc)
      have h2 := h.2
      rw [hd.1] at h2
      simp only [Nat.sub_self, List.drop_zero] at h2
      cases t with
      | nil => exact ⟨[], b, rfl, by rw [← h.1, hd.1]⟩
      | cons a t => simp [runes_cons] at h2
    | cons d v =>
      simp only [List.cons_append, List.cons.injEq] at h
      obtain ⟨x', e, h1, h2⟩ := decode_last_ascii n (x := t.drop ((decodeRune b t).2 - 1)) (by simp at hn ⊢; omega) hc h.2
      refine ⟨b :: (t.take ((decodeRune b t).2 - 1) ++ x'), e, ?_, h2⟩
      rw [List.cons_append, List.append_assoc, ← h1, List.take_append_drop]

/-- ASCII characters at the end are bytes. -/
theorem runes_suffix_ascii : ∀ {u : List Rune} {w : Bytes}, u <:+ runes w → (∀ c ∈ u, c < 0x80) →
    ∃ x y, w = x ++ y ∧ (∀ b ∈ y, b.toNat < 0x80) ∧ y.map UInt8.toNat = u
  | [], w, _, _ => ⟨w, [], by simp, by simp, rfl⟩
  | c :: u, w, h, ha => by
    obtain ⟨x, y, rfl, h2, h3⟩ := runes_suffix_ascii (u := u) (w := w) ((List.suffix_cons c u).trans h)
      (fun c hc => ha c (by simp [hc]))
    rw [runes_append_ascii y x h2, h3] at h
    obtain ⟨v, hv⟩ := h
    have : runes x = v ++ [c] := by
      have : (v ++ [c]) ++ u = runes x ++ u := by simpa using hv
      exact (List.append_cancel_right this).symm
    obtain ⟨x', b, rfl, hb⟩ := decode_last_ascii _ (Nat.le_refl _) (ha c (by simp)) this
    refine ⟨x', b :: y, by simp, ?_, by simp [h3, hb]⟩
    intro d hd
    rcases List.mem_cons.1 hd with rfl | hd
    · rw [hb]; exact ha c (by simp)
    · exact h2 d hd

/-- The window of a negative lookahead is large enough for ASCII texts, in all words. -/
theorem ahead_ascii {p : Pattern} {re : Re} (hn : p.negA = some (.cat [.beginText, .cap 1 re]))
    (hw : p.negAWidth = maxWidth re) (hr : RepSafe re = true) {word : Bytes} {i : Nat}
    (h : hitsAhead p word i = false) {u : List Rune} (hu : u <+: runes (word.drop i)) (ha : ∀ c ∈ u, c < 0x80) :
    ¬ Lang re u := by
  intro hl
  unfold hitsAhead at h
  rw [hn] at h
  simp only [hw] at h
  by_cases hm : maxWidth re = -1
  · rw [if_pos hm, substr_nat, List.take_of_length_le (by simp)] at h
    rw [ahead_hits hu hl] at h
    simp at h
  · have hge := maxWidth_ge re hr
    have hlen := lang_length hr hm hl
    rw [if_neg hm, show (i : Int) + maxWidth re = ((i + (maxWidth re).toNat : Nat) : Int) by omega, substr_nat] at h
    obtain ⟨x, y, h1, h2, h3⟩ := runes_prefix_ascii hu ha
    have hx : x.length = u.length := by rw [← h3]; simp
    have : u <+: runes ((word.drop i).take (i + (maxWidth re).toNat - i)) := by
      rw [h1, List.take_append, List.take_of_length_le (by omega)]
      rw [← h3, ← runes_ascii h2]
      have : ∀ (x z : Bytes), (∀ b ∈ x, b.toNat < 0x80) → runes x <+: runes (x ++ z) := by
        intro x
        induction x with
        | nil => intro z _; simp [runes, decode_nil]
        | cons c x ih =>
          intro z hz
          have := ih z (fun b hb => hz b (by simp [hb]))
          unfold runes at this ⊢
          rw [List.cons_append, decode_cons_ascii (hz c (by simp)), decode_cons_ascii (hz c (by simp))]
          simpa using this
      exact this _ _ h2
    rw [ahead_hits this hl] at h
    simp at h

/-- The window of a negative lookbehind is large enough for ASCII texts, in all words, if the word does not begin
within it or the text fills it. -/
theorem behind_ascii {p : Pattern} {re : Re} (hn : p.negB = some (.cat [.cap 1 re, .endText]))
    (hw : p.negBWidth = maxWidth re) (hr : RepSafe re = true) {word : Bytes} {i : Nat} (hi : i ≤ word.length)
    (h : hitsBehind p word i = false) {u : List Rune} (hu : u <:+ runes (word.take i)) (ha : ∀ c ∈ u, c < 0x80)
    (hf : u = [] ∨ maxWidth re ≤ i ∨ maxWidth re ≤ u.length) :
    ¬ Lang re u := by
  intro hl
  unfold hitsBehind at h
  rw [hn] at h
  simp only [hw] at h
  by_cases h0 : u = []
  · subst h0
    rw [behind_hits List.nil_suffix hl] at h
    simp at h
  by_cases hm : maxWidth re = -1
  · rw [if_pos hm, show (0 : Int) = ((0 : Nat) : Int) from rfl, substr_nat] at h
    simp only [List.drop_zero, Nat.sub_zero] at h
    rw [behind_hits hu hl] at h
    simp at h
  · have hge := maxWidth_ge re hr
    have hlen := lang_length hr hm hl
    obtain ⟨x, y, h1, h2, h3⟩ := runes_suffix_ascii hu ha
    have hy : y.length = u.length := by rw [← h3]; simp
    have hi' : x.length + y.length = i := by
      rw [← List.length_append, ← h1, List.length_take]; omega
    have hwi : maxWidth re ≤ i := by
      rcases hf with hf | hf | hf
      · exact absurd hf h0
      · exact hf
      · omega
    rw [if_neg hm, show (i : Int) - maxWidth re = ((i - (maxWidth re).toNat : Nat) : Int) by omega, substr_nat] at h
    have : u <:+ runes ((word.drop (i - (maxWidth re).toNat)).take (i - (i - (maxWidth re).toNat))) := by
      rw [← List.drop_take, h1, List.drop_append, show i - (maxWidth re).toNat - x.length = 0 by omega, List.drop_zero,
        runes_append_ascii _ _ h2, h3]
      exact List.suffix_append _ _
    rw [behind_hits this hl] at h
    simp at h

end Verif.Hre
