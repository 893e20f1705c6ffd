import Verif.Model.Translit
import Verif.Proofs.Utf8
import Verif.Spec.Chinese

/-! The chunks of the pinyin translit. -/

namespace Verif

open Verif.Spec.Chinese

/-! ## Around a letter without an entry -/

theorem chunks_after (dict : Rune → List Bytes) : ∀ bs : List Rune, ∃ B, ∀ buf : Bytes, buf ≠ [] →
    join Pinyin.separator (Pinyin.chunksLoop dict buf bs) = buf ++ B
  | [] => ⟨[], fun buf hb => by simp [Pinyin.chunksLoop, hb, join]⟩
  | d :: bs => by
    obtain ⟨B, hB⟩ := chunks_after dict bs
    cases hd : dict d with
    | nil => exact ⟨encodeRune d ++ B, fun buf hb => by simp [Pinyin.chunksLoop, hd, hB, hb]⟩
    | cons pyn more =>
      refine ⟨Pinyin.separator ++ join Pinyin.separator (pyn :: Pinyin.chunksLoop dict [] bs), fun buf hb => ?_⟩
      simp [Pinyin.chunksLoop, hd, hb, join]

theorem chunks_around (dict : Rune → List Bytes) (bs : List Rune) : ∀ (as : List Rune) (buf : Bytes), ∃ A B, ∀ c, dict c = [] →
    join Pinyin.separator (Pinyin.chunksLoop dict buf (as ++ c :: bs)) = A ++ encodeRune c ++ B
  | [], buf => by
    obtain ⟨B, hB⟩ := chunks_after dict bs
    exact ⟨buf, B, fun c hc => by
      rw [List.nil_append, Pinyin.chunksLoop, hc]
      exact hB _ (by simp [encodeRune_ne_nil])⟩
  | d :: as, buf => by
    cases hd : dict d with
    | nil =>
      obtain ⟨A, B, h⟩ := chunks_around dict bs as (buf ++ encodeRune d)
      exact ⟨A, B, fun c hc => by simp [Pinyin.chunksLoop, hd, h c hc]⟩
    | cons pyn more =>
      obtain ⟨A, B, h⟩ := chunks_around dict bs as []
      refine ⟨(if buf ≠ [] then buf ++ Pinyin.separator else []) ++ pyn ++ Pinyin.separator ++ A, B, fun c hc => ?_⟩
      have h1 := h c hc
      cases hL : Pinyin.chunksLoop dict [] (as ++ c :: bs) with
      | nil =>
        rw [hL] at h1
        have := congrArg List.length h1
        have h2 := List.length_pos_iff.2 (encodeRune_ne_nil c)
        simp [join] at this
        omega
      | cons x xs =>
        rw [hL] at h1
        by_cases hb : buf = [] <;> simp [Pinyin.chunksLoop, hd, hL, hb, join] at h1 ⊢ <;> simp [h1]

/-! ## Between two pieces -/

theorem chunks_beside {dict : Rune → List Bytes} {bs : List Rune} : ∀ {as : List Rune} {buf : Bytes},
    Beside dict as bs → Pinyin.chunksLoop dict buf (as ++ bs) = Pinyin.chunksLoop dict buf as ++ Pinyin.chunksLoop dict [] bs
  | [], buf, h => by
    rcases h with ⟨c, hc, _⟩ | ⟨c, hc, hd⟩
    · simp at hc
    · cases bs with
      | nil => simp at hc
      | cons b bs =>
        simp only [List.head?_cons, Option.mem_def, Option.some.injEq] at hc
        subst hc
        cases hb : dict b with
        | nil => contradiction
        | cons pyn more => simp [Pinyin.chunksLoop, hb]
  | [a], buf, h => by
    cases ha : dict a with
    | cons pyn more => simp [Pinyin.chunksLoop, ha]
    | nil =>
      have h' : Beside dict [] bs := by
        rcases h with ⟨c, hc, hd⟩ | h
        · simp only [List.getLast?_singleton, Option.mem_def, Option.some.injEq] at hc
          subst hc
          contradiction
        · exact .inr h
      have := chunks_beside (buf := buf ++ encodeRune a) h'
      simp only [List.nil_append] at this
      simp [Pinyin.chunksLoop, ha, this]
  | a :: a' :: as, buf, h => by
    have h' : Beside dict (a' :: as) bs := by simpa [Beside] using h
    cases ha : dict a with
    | cons pyn more =>
      have := chunks_beside (buf := []) h'
      simp only [List.cons_append] at this
      simp [Pinyin.chunksLoop, ha] at this ⊢
      rw [this]
    | nil =>
      have := chunks_beside (buf := buf ++ encodeRune a) h'
      have step : ∀ ds, Pinyin.chunksLoop dict buf (a :: ds) = Pinyin.chunksLoop dict (buf ++ encodeRune a) ds := by
        intro ds
        rw [Pinyin.chunksLoop, ha]
      rw [List.cons_append, step, step, this]

theorem join_append (sep : Bytes) {ys : List Bytes} (hy : ys ≠ []) : ∀ {xs : List Bytes}, xs ≠ [] →
    join sep (xs ++ ys) = join sep xs ++ sep ++ join sep ys
  | [], h => absurd rfl h
  | [x], _ => by
    cases ys with
    | nil => contradiction
    | cons y ys => simp [join]
  | x :: x' :: xs, _ => by
    have := join_append sep hy (xs := x' :: xs) (by simp)
    simp only [List.cons_append, join] at this ⊢
    rw [this]
    simp

theorem chunks_ne {dict : Rune → List Bytes} : ∀ {cs : List Rune} {buf : Bytes}, (buf ≠ [] ∨ cs ≠ []) →
    Pinyin.chunksLoop dict buf cs ≠ []
  | [], buf, h => by simpa [Pinyin.chunksLoop] using h
  | c :: cs, buf, _ => by
    cases hc : dict c with
    | cons pyn more => simp [Pinyin.chunksLoop, hc]
    | nil =>
      rw [Pinyin.chunksLoop, hc]
      exact chunks_ne (.inl (by simp [encodeRune_ne_nil]))

end Verif
