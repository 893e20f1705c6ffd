import Verif.Proofs.Growth
import Verif.Props.Wasm
import Verif.Props.Words

/-! Property C89: results are at most proportional to words. -/

namespace Verif.Props

open Verif.Specs Verif.Spec.Bundle Verif.Spec.Reference Verif.Spec.Growth Verif.Spec.Translit Verif.Growth

/-- The rules of bundled specs have matches which are nonempty and follow one another. -/
theorem loaded_orderly {sp : Spec} (h : Loaded bundled sp) : ∀ r ∈ sp.rewrite ++ sp.transcribe, Orderly r := by
  obtain ⟨o, src, _, hp, h1, h2⟩ := loaded_checked h
  intro r hr word ms hf
  have hc : Hre.checked r = true := by
    rcases List.mem_append.1 hr with hr | hr
    · exact bundleCheck_checked (h1 r hr)
    · exact bundleCheck_checked (h2 r hr)
  simp only [Hre.checked, Bool.and_eq_true] at hc
  obtain ⟨ms', e1, e2⟩ := Hre.find_firm hc.1 word (-1)
  rw [e1, Go.ok.injEq] at hf
  exact hf ▸ e2

/-- C89 for any spec: the result is at most proportional to the word if those of its translits are, and if matches are nonempty and
follow one another, as they do for patterns which can be separated (C09). -/
theorem C89_spec {o : Ord} {src : Bytes} {sp : Spec} (h : parseSpec o src = .ok sp)
    (hr : ∀ r ∈ sp.rewrite ++ sp.transcribe, ∀ word ms, Hre.find r.pat word (-1) = .ok ms → Spec.Hre.ProperMatches word 0 ms)
    {translits : List (Bytes × Translit)} (ht : ∀ s ∈ sp.lang.translit, ∀ t, translits.lookup s = some t → Linear t.transliterate) :
    Linear (hangulize sp translits) := by
  obtain ⟨k, hk⟩ := hangulized_le hr ht
  refine ⟨k, fun w out ho => ?_⟩
  obtain ⟨evs, hh⟩ := (C59_reference h translits w out none).1 ho
  exact (hk _ _ _ hh).1

/-- C89: in all bundled languages the result is at most proportional to the word if those of the translits are. -/
theorem C89_linear {sp : Spec} (h : Loaded bundled sp) {translits : List (Bytes × Translit)}
    (ht : ∀ s ∈ sp.lang.translit, ∀ t, translits.lookup s = some t → Linear t.transliterate) : Linear (hangulize sp translits) := by
  obtain ⟨o, src, _, hp, _⟩ := loaded_checked h
  exact C89_spec hp (loaded_orderly h) ht

/-- C89 for traces: their number is bounded, whatever the word, and their texts are at most proportional to the word. -/
theorem C89_trace {sp : Spec} (h : Loaded bundled sp) {translits : List (Bytes × Translit)}
    (ht : ∀ s ∈ sp.lang.translit, ∀ t, translits.lookup s = some t → Linear t.transliterate) :
    ∃ k, ∀ word out, hangulize sp translits word = .ok out → ∃ evs last, (forward sp translits word fresh).2 = some ⟨evs, last⟩ ∧
      evs.length ≤ k ∧ ∀ e ∈ evs, e.word.length ≤ k * (word.length + 1) := by
  obtain ⟨o, src, _, hp, _⟩ := loaded_checked h
  obtain ⟨k, hk⟩ := hangulized_le (loaded_orderly h) ht
  refine ⟨k, fun w out ho => ?_⟩
  obtain ⟨evs, hh⟩ := (C59_reference hp translits w out none).1 ho
  obtain ⟨last, hl⟩ := C60_trace hp translits w out evs hh
  have sub : ∀ (evs : List Trace) (prev : Bytes), (changed prev evs).Sublist evs := by
    intro evs
    induction evs with
    | nil => simp [changed]
    | cons e evs ih =>
      intro prev
      rw [changed]
      split
      · exact (ih _).cons _
      · exact (ih _).cons_cons _
  obtain ⟨_, k2, k3⟩ := hk _ _ _ hh
  exact ⟨_, _, hl, Nat.le_trans (sub evs []).length_le k2, fun e he => k3 e ((sub evs []).mem he)⟩

/-! ## Translits -/

theorem C89_cyrillic (l : Libraries) (country : String) (mapping : List (String × String)) :
    Linear (cyrillic l country mapping).transliterate := by
  refine ⟨2 * longest ((l.visit (Cyrillic.pairs mapping)).map (·.2)) + 1, fun w out h => ?_⟩
  simp only [cyrillic, Go.ok.injEq] at h
  subst h
  exact replacePairs_le _ _

theorem join_le (sep : Bytes) : ∀ xs : List Bytes, (join sep xs).length ≤ (xs.map fun x => x.length + sep.length).sum
  | [] => by simp [join]
  | [x] => by simp [join]
  | x :: y :: xs => by
    have := join_le sep (y :: xs)
    simp only [join, List.length_append, List.map_cons, List.sum_cons] at this ⊢
    omega

theorem chunksLoop_le {dict : Rune → List Bytes} {n : Nat} (hn : ∀ c, ∀ p ∈ dict c, p.length ≤ n) :
    ∀ (cs : List Rune) (buf : Bytes), ((Pinyin.chunksLoop dict buf cs).map fun x => x.length + 3).sum ≤ buf.length + 3 + (n + 6) * cs.length
  | [], buf => by
    rw [Pinyin.chunksLoop]
    split <;> simp
  | c :: cs, buf => by
    rw [Pinyin.chunksLoop, List.length_cons, Nat.mul_add, Nat.mul_one]
    split
    · have := chunksLoop_le hn cs (buf ++ encodeRune c)
      have := encodeRune_le c
      simp only [List.length_append] at *
      omega
    · rename_i p ps hd
      have h1 := chunksLoop_le hn cs []
      have h2 := hn c p (by simp [hd])
      simp only [List.length_nil] at h1
      have h3 : ((if buf.length ≠ 0 then [buf] else []).map fun x : Bytes => x.length + 3).sum ≤ buf.length + 3 := by
        split <;> simp
      rw [List.map_append, List.sum_append, List.map_cons, List.sum_cons]
      omega

theorem pinyin_le {dict : Rune → List Bytes} {n : Nat} (hn : ∀ c, ∀ p ∈ dict c, p.length ≤ n) (w : Bytes) :
    (Pinyin.transliterate dict w).length ≤ (n + 6) * (w.length + 1) := by
  have h1 := join_le Pinyin.separator (Pinyin.chunksLoop dict [] (runes w))
  have h2 := chunksLoop_le hn (runes w) []
  have h3 := Nat.mul_le_mul_left (n + 6) (runes_le w)
  rw [show Pinyin.separator.length = 3 from rfl] at h1
  rw [List.length_nil] at h2
  rw [Nat.mul_add, Nat.mul_one]
  unfold Pinyin.transliterate
  exact Nat.le_trans h1 (by omega)

theorem C89_pinyin {l : Libraries} (h : Moderate l) : Linear (pinyin l).transliterate := by
  obtain ⟨n, h1, _, h3⟩ := h
  refine ⟨(n + 6) * (n + 1), fun w out h => ?_⟩
  simp only [pinyin, Go.ok.injEq] at h
  subst h
  exact linear_comp (h1 w) (pinyin_le h3 _) rfl

/-- What is said is at most four times as large as the pronunciations. -/
theorem said_le {prev : Option Furigana.Token} {ts : List Furigana.Token} {out : Bytes} (h : Said prev ts out) :
    out.length ≤ 4 * (ts.map fun t => (pronunciation t).length + 1).sum := by
  induction h with
  | nil => simp
  | @cons prev t aux rest text out _ _ hm _ ih =>
    obtain ⟨head, tail, rfl, _, _, mid, h1, rfl, h2⟩ := hm
    have e1 := encode_le (head ++ tail)
    have e2 := h1.1
    have e3 := h2.1
    have e4 := runes_le (pronunciation t)
    have e5 : ∀ aux : List Furigana.Token, (aux.flatMap fun a => runes (pronunciation a)).length ≤
        (aux.map fun t => (pronunciation t).length + 1).sum := by
      intro aux
      induction aux with
      | nil => simp
      | cons a aux ih =>
        have := runes_le (pronunciation a)
        simp only [List.flatMap_cons, List.length_append, List.map_cons, List.sum_cons]
        omega
    have e6 := e5 aux
    have e7 : ∀ b : Prop, [Decidable b] → (if b then [0x20] else ([] : Bytes)).length ≤ 1 := by
      intro b _
      split <;> simp
    simp only [List.length_append] at e1 e3 ⊢
    rw [List.cons_append, List.map_cons, List.map_append, List.sum_cons, List.sum_append]
    have e8 := e7 (Name t ∧ ∃ p ∈ prev, Name p)
    refine Nat.le_trans (Nat.add_le_add (Nat.add_le_add e8 e1) ih) ?_
    omega

theorem C89_furigana {l : Libraries} (hl : Reliable l) (h : Moderate l) : Linear (furigana l).transliterate := by
  obtain ⟨n, h1, h2, _⟩ := h
  refine ⟨4 * n * (4 * n + 1), fun w out ho => ?_⟩
  obtain ⟨out', tw, said, unsaid, e1, e2, e3, _⟩ := C49_typewriter _ (hl (Furigana.repeatKana (l.nfc w)))
  have : out' = out := by
    simpa [furigana, e1] using ho
  subst this
  have l1 : (Furigana.repeatKana (l.nfc w)).length ≤ 4 * n * (w.length + 1) := by
    have a1 := encode_le (Furigana.repeatLoop 0 (runes (l.nfc w)))
    have a2 : ∀ (cs : List Rune) (c : Rune), (Furigana.repeatLoop c cs).length = cs.length := by
      intro cs
      induction cs with
      | nil => intro c; rfl
      | cons d cs ih => intro c; simp [Furigana.repeatLoop, ih]
    rw [a2] at a1
    have a3 := runes_le (l.nfc w)
    have a4 := h1 w
    unfold Furigana.repeatKana
    rw [Nat.mul_assoc]
    omega
  refine linear_comp l1 ?_ rfl
  have a1 := said_le e3
  have a2 := h2 (Furigana.repeatKana (l.nfc w))
  have a3 : (said.map fun t => (pronunciation t).length + 1).sum ≤ spoken (l.tokenize (Furigana.repeatKana (l.nfc w))) := by
    rw [spoken, e2, List.map_append, List.sum_append]
    omega
  rw [Nat.mul_assoc]
  omega

/-- C89: with the standard translits, and libraries which write at most so much, the result of every bundled language is at most
proportional to the word. -/
theorem C89_standard {sp : Spec} (h : Loaded bundled sp) {l : Libraries} (hl : Reliable l) (hm : Moderate l) :
    Linear (hangulize sp (standardRegistry l)) := by
  refine C89_linear h fun s hs t ht => ?_
  have key : ∀ (ts : List Translit), (ts.map fun t => (t.scheme, t)).lookup s = some t → t ∈ ts := by
    intro ts
    induction ts with
    | nil => simp
    | cons u ts ih =>
      rw [List.map_cons, List.lookup_cons]
      split
      · intro e
        simp_all
      · intro e
        exact List.mem_cons_of_mem _ (ih e)
  have := key _ ht
  simp only [standard, cyrillics, List.mem_append, List.mem_cons, List.not_mem_nil, or_false] at this
  rcases this with (rfl | rfl) | rfl | rfl | rfl | rfl
  · exact C89_furigana hl hm
  · exact C89_pinyin hm
  all_goals exact C89_cyrillic _ _ _

/-- The hypotheses of C89 are met, for instance by the Japanese spec and libraries which leave text as it is. -/
example : ∃ sp, Loaded bundled sp ∧ sp.lang.id = str "jpn" ∧ Linear (hangulize sp (standardRegistry plain)) := by
  have ok : Ord.written.Ok := ⟨fun _ _ _ _ => .refl _, fun _ => .refl _⟩
  obtain ⟨src, hs⟩ := Option.isSome_iff_exists.1 (show (bundled (str "jpn")).isSome = true by decide +kernel)
  obtain ⟨la, hm, hsd⟩ := bundled_sound hs
  obtain ⟨sp, h1, h2, _⟩ := hsd .written ok
  have ht : ∀ x ∈ table, x.1 = str "jpn" → x.2.2.id = str "jpn" := by decide +kernel
  have hl : Loaded bundled sp := ⟨_, _, _, hs, ok, h1⟩
  refine ⟨sp, hl, by rw [h2]; exact ht _ hm rfl, C89_standard hl plain_reliable ⟨5, fun w => ?_, fun w => ?_, ?_⟩⟩
  · simp only [plain, id]
    omega
  · have h3 := encode_le (runes w)
    have h4 := runes_le w
    simp only [spoken, plain, real, pronunciation, List.filter_cons, List.filter_nil]
    simp
    omega
  · intro c p hp
    simp [plain] at hp

end Verif.Props
