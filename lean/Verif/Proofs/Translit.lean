import Verif.Model.Translit
import Verif.Proofs.Strings
import Verif.Proofs.Utf8
import Verif.Spec.Translit

/-! Proofs about `translit/pinyin` and `translit/cyrillic`. -/

namespace Verif

open Verif.Spec.Translit

namespace Pinyin

theorem flatMap_congr {α β : Type} {l : List α} {f g : α → List β} (h : ∀ a ∈ l, f a = g a) :
    l.flatMap f = l.flatMap g := by
  induction l with
  | nil => rfl
  | cons a l ih => rw [List.flatMap_cons, List.flatMap_cons, h a (by simp), ih fun b hb => h b (by simp [hb])]

theorem encode_single (c : Rune) : encode [c] = encodeRune c := by simp [encode]

theorem encode_eq_nil {l : List Rune} (h : encode l = []) : l = [] := by
  cases l with
  | nil => rfl
  | cons c l =>
    simp only [encode, List.flatMap_cons, List.append_eq_nil_iff] at h
    exact absurd h.1 (encodeRune_ne_nil c)

theorem unbroken_hanzi {c : Rune} {segs : List Segment} (h : Unbroken segs) : Unbroken (.hanzi c :: segs) := by
  intro pre post r r' he
  cases pre with
  | nil => simp at he
  | cons x pre =>
    simp only [List.cons_append, List.cons.injEq] at he
    exact h pre post r r' he.2

theorem unbroken_plain_hanzi {run : List Rune} {c : Rune} {segs : List Segment} (h : Unbroken segs) :
    Unbroken (.plain run :: .hanzi c :: segs) := by
  intro pre post r r' he
  cases pre with
  | nil => simp at he
  | cons x pre =>
    simp only [List.cons_append, List.cons.injEq] at he
    exact unbroken_hanzi h pre post r r' he.2

theorem chunksLoop_spec (dict : Rune → List Bytes) : ∀ (l run : List Rune), (∀ c ∈ run, dict c = []) →
    ∃ segs : List Segment, segs.flatMap Segment.letters = run ++ l ∧ (∀ s ∈ segs, s.Right dict) ∧ Unbroken segs ∧
      chunksLoop dict (encode run) l = segs.map (Segment.text dict) := by
  intro l
  induction l with
  | nil =>
    intro run hr
    rw [chunksLoop]
    by_cases he : run = []
    · subst he
      exact ⟨[], rfl, by simp, by intro pre post r r'; simp, by simp [encode]⟩
    · have hl : (encode run).length ≠ 0 := fun h => he (encode_eq_nil (List.eq_nil_of_length_eq_zero h))
      rw [if_pos hl]
      refine ⟨[.plain run], by simp [Segment.letters], ?_, ?_, rfl⟩
      · intro s hs; simp only [List.mem_singleton] at hs; subst hs; exact ⟨he, hr⟩
      · intro pre post r r' h
        have := congrArg List.length h
        simp at this; omega
  | cons c l ih =>
    intro run hr
    rw [chunksLoop]
    cases hd : dict c with
    | nil =>
      obtain ⟨segs, h1, h2, h3, h4⟩ := ih (run ++ [c]) (by
        intro x hx; rcases List.mem_append.1 hx with hx | hx
        · exact hr x hx
        · simp only [List.mem_singleton] at hx; subst hx; exact hd)
      refine ⟨segs, by rw [h1]; simp, h2, h3, ?_⟩
      rw [← h4, encode_append, encode_single]
    | cons pyn more =>
      obtain ⟨segs, h1, h2, h3, h4⟩ := ih [] (by simp)
      rw [show encode [] = ([] : Bytes) from rfl] at h4
      have hc : Segment.Right dict (.hanzi c) := by simp [Segment.Right, hd]
      have ht : Segment.text dict (.hanzi c) = pyn := by simp [Segment.text, hd]
      by_cases he : run = []
      · subst he
        refine ⟨.hanzi c :: segs, by simp [Segment.letters, h1], ?_, unbroken_hanzi h3, ?_⟩
        · intro s hs; rcases List.mem_cons.1 hs with rfl | hs
          · exact hc
          · exact h2 s hs
        · simp [encode, ht, h4]
      · have hl : (encode run).length ≠ 0 := fun h => he (encode_eq_nil (List.eq_nil_of_length_eq_zero h))
        refine ⟨.plain run :: .hanzi c :: segs, by simp [Segment.letters, h1], ?_, unbroken_plain_hanzi h3, ?_⟩
        · intro s hs
          rcases List.mem_cons.1 hs with rfl | hs
          · exact ⟨he, hr⟩
          · rcases List.mem_cons.1 hs with rfl | hs
            · exact hc
            · exact h2 s hs
        · dsimp only
          rw [if_pos hl]
          simp [hd, h4, Segment.text]

theorem separator_eq : separator = encodeRune 0x200B := by decide +kernel

theorem filter_join (xs : List Bytes) (hv : ∀ x ∈ xs, ValidUtf8 x) (hs : ∀ x ∈ xs, 0x200B ∉ runes x) :
    (runes (join separator xs)).filter (· ≠ 0x200B) = xs.flatMap runes := by
  have hsep : runes separator = [0x200B] := by decide +kernel
  have hsv : ValidUtf8 separator := by rw [separator_eq]; exact encodeRune_validUtf8 _
  have keep : ∀ x ∈ xs, (runes x).filter (· ≠ 0x200B) = runes x := by
    intro x hx
    rw [List.filter_eq_self]
    intro c hc
    simp only [decide_eq_true_eq]
    intro e; subst e; exact hs x hx hc
  induction xs with
  | nil => rfl
  | cons x xs ih =>
    have ih := ih (fun y hy => hv y (by simp [hy])) (fun y hy => hs y (by simp [hy])) (fun y hy => keep y (by simp [hy]))
    cases xs with
    | nil => simp only [join, List.flatMap_cons, List.flatMap_nil, List.append_nil]; exact keep x (by simp)
    | cons y ys =>
      rw [join, List.append_assoc, runes_append (hv x (by simp)), runes_append hsv, hsep, List.filter_append,
        List.filter_append, ih, keep x (by simp)]
      · simp
      · simp

end Pinyin

namespace Cyrillic

/-- At no place of the word two different keys match. -/
def Unambiguous (pairs : List (Bytes × Bytes)) (word : Bytes) : Prop :=
  ∀ t, t <:+ word → pairs.Pairwise fun a b => ¬ (a.1 <+: t ∧ b.1 <+: t)

theorem unambiguous_of_drop {pairs : List (Bytes × Bytes)} {word : Bytes}
    (h : ∀ n < word.length + 1, pairs.Pairwise fun a b => ¬ (a.1 <+: word.drop n ∧ b.1 <+: word.drop n)) :
    Unambiguous pairs word := by
  rintro t ⟨u, rfl⟩
  have := h u.length (by simp; omega)
  rwa [List.drop_left] at this

theorem lookupKey_perm' {pairs pairs' : List (Bytes × Bytes)} (h : pairs.Perm pairs') (s : Bytes)
    (hf : pairs.Pairwise fun a b => ¬ (a.1 <+: s ∧ b.1 <+: s)) (e : Bool) :
    lookupKey pairs s e = lookupKey pairs' s e := by
  unfold lookupKey
  rw [find_perm h]
  refine hf.imp fun {a b} hab hboth => ?_
  simp only [Bool.and_eq_true, hasPrefix_iff] at hboth
  exact hab ⟨hboth.1.1, hboth.2.1⟩

theorem replacePairs_perm' {pairs pairs' : List (Bytes × Bytes)} (h : pairs.Perm pairs') {s : Bytes}
    (hf : Unambiguous pairs s) : replacePairs pairs s = replacePairs pairs' s := by
  unfold replacePairs
  suffices ∀ (s : Bytes), Unambiguous pairs s → ∀ (k : Nat), replaceFrom pairs k s = replaceFrom pairs' k s
    from this s hf 0
  intro s
  induction s with
  | nil =>
    intro hf k
    have e := lookupKey_perm' h [] (hf [] (List.suffix_refl _))
    simp only [replaceFrom, e]
  | cons c t ih =>
    intro hf k
    have ih := ih (fun u hu => hf u (hu.trans (List.suffix_cons c t)))
    have e := lookupKey_perm' h (c :: t) (hf _ (List.suffix_refl _))
    cases k with
    | succ k => simp only [replaceFrom, ih]
    | zero =>
      simp only [replaceFrom, e]
      split
      · rw [ih]
      · rw [ih]
      · split <;> rw [ih]

end Cyrillic
end Verif
