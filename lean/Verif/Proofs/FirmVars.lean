import Verif.Proofs.Firm
import Verif.Proofs.Lang
import Verif.Proofs.Utf8Ascii

/-! Expressions in which the groups of vars always hold values, and rules which can always be applied. -/

namespace Verif

theorem decodeRune_bytes (b : UInt8) (t : Bytes) (h : (decodeRune b t).1 ≠ runeError) :
    (b :: t).take (decodeRune b t).2 = encodeRune (decodeRune b t).1 := by
  rw [encodeRune_valid (decodeRune_valid b t)]
  have e : ∀ (x : UInt8) (n : Nat), x.toNat = n → x = UInt8.ofNat n := by
    intro x n h; rw [← h]; simp
  have hb := b.toNat_lt
  unfold decodeRune at h ⊢
  simp only at h ⊢
  split at h
  · rename_i h1
    rw [if_pos h1]
    simp [encodeValid, h1]
  · rename_i h1
    rw [if_neg h1]
    split at h
    · simp at h
    · rename_i h2
      rw [if_neg h2]
      split at h
      · rename_i h3
        rw [if_pos h3]
        cases t with
        | nil => simp at h
        | cons c t =>
          simp only at h ⊢
          split at h
          · rename_i hc
            rw [if_pos hc]
            rw [isCont_iff] at hc
            simp only [encodeValid]
            rw [if_neg (by omega), if_pos (by omega)]
            simp only [List.take_succ_cons, List.take_zero, List.cons.injEq, and_true]
            exact ⟨e _ _ (by omega), e _ _ (by omega)⟩
          · simp at h
      · rename_i h3
        rw [if_neg h3]
        split at h
        · rename_i h4
          rw [if_pos h4]
          match t with
          | [] => simp at h
          | [_] => simp at h
          | c :: d :: t =>
            simp only at h ⊢
            split at h
            · rename_i hc
              rw [if_pos hc]
              simp only [Bool.and_eq_true, isCont_iff, decide_eq_true_eq] at hc
              simp only [encodeValid]
              rw [if_neg (by omega), if_neg (by omega), if_pos (by omega)]
              simp only [List.take_succ_cons, List.take_zero, List.cons.injEq, and_true]
              exact ⟨e _ _ (by omega), e _ _ (by omega), e _ _ (by omega)⟩
            · simp at h
        · rename_i h4
          rw [if_neg h4]
          split at h
          · rename_i h5
            rw [if_pos h5]
            match t with
            | [] => simp at h
            | [_] => simp at h
            | [_, _] => simp at h
            | c :: d :: f :: t =>
              simp only at h ⊢
              split at h
              · rename_i hc
                rw [if_pos hc]
                simp only [Bool.and_eq_true, isCont_iff, decide_eq_true_eq] at hc
                simp only [encodeValid]
                rw [if_neg (by omega), if_neg (by omega), if_neg (by omega)]
                simp only [List.take_succ_cons, List.take_zero, List.cons.injEq, and_true]
                exact ⟨e _ _ (by omega), e _ _ (by omega), e _ _ (by omega), e _ _ (by omega)⟩
              · simp at h
          · simp at h

namespace Hre

open Verif.Rx Verif.Spec

/-- Characters other than U+FFFD stand for their encoding, also in words that are not valid. -/
theorem decode_bytes {l c : List (Rune × Nat)} : ∀ {w : Bytes}, decode w = l ++ c → (∀ x ∈ l, x.1 ≠ runeError) →
    w.take (width l) = encode (l.map Prod.fst) := by
  induction l with
  | nil => intro w _ _; simp
  | cons a l ih =>
    intro w h hl
    cases w with
    | nil => simp [decode_nil] at h
    | cons b t =>
      have h0 := h
      rw [decode_cons] at h
      simp only [List.cons_append, List.cons.injEq] at h
      obtain ⟨rfl, h⟩ := h
      have h1 := decodeRune_bytes b t (hl _ (by simp))
      have h2 := ih h fun x hx => hl x (by simp [hx])
      have hp := decodeRune_width_pos b t
      rw [List.map_cons, encode_cons, ← h2, ← h1, width_cons, List.take_add]
      congr 1
      rw [show (decodeRune b t).2 = ((decodeRune b t).2 - 1) + 1 by omega, List.drop_succ_cons]
      rfl

/-- The bytes of a stretch of characters. -/
theorem decode_between {w : Bytes} {a l c : List (Rune × Nat)} (h : decode w = a ++ (l ++ c))
    (hl : ∀ x ∈ l, x.1 ≠ runeError) : (w.drop (width a)).take (width l) = encode (l.map Prod.fst) :=
  decode_bytes (decode_drop h) hl

end Hre

namespace Rx

open Verif.Hre

/-! ## Groups which hold values -/

mutual
theorem run_texts : ∀ (r : Re) {ts : List (List Rune)}, texts r = some ts → ∀ {s s' : St}, s' ∈ run r s →
    ∃ u ∈ ts, Reads u s s'
  | .empty, ts, h, s, s', hs => by
    simp only [texts, Option.some.injEq] at h; subst h
    simp only [run, List.mem_singleton] at hs; subst hs
    exact ⟨[], by simp, Reads.refl _⟩
  | .lit rs, ts, h, s, s', hs => by
    simp only [texts, Option.some.injEq] at h; subst h
    simp only [run] at hs
    exact ⟨rs, by simp, lits_reads hs⟩
  | .cat rs, ts, h, s, s', hs => by
    simp only [texts] at h; simp only [run] at hs
    exact runCat_texts rs h hs
  | .alt rs, ts, h, s, s', hs => by
    simp only [texts] at h; simp only [run] at hs
    exact runAlt_texts rs h hs
  | .cap i r, ts, h, s, s', hs => by
    simp only [texts] at h
    simp only [run, List.mem_map] at hs
    obtain ⟨t, ht, rfl⟩ := hs
    obtain ⟨u, hu, l, e1, e2⟩ := run_texts r h ht
    exact ⟨u, hu, l, by simpa [setCap] using e1, e2⟩
  | .noMatch, _, h, _, _, _ | .cls .., _, h, _, _, _ | .anyNotNL, _, h, _, _, _ | .any, _, h, _, _, _
  | .beginLine, _, h, _, _, _ | .endLine, _, h, _, _, _ | .beginText, _, h, _, _, _ | .endText, _, h, _, _, _
  | .wordB, _, h, _, _, _ | .noWordB, _, h, _, _, _ | .star .., _, h, _, _, _
  | .plus .., _, h, _, _, _ | .quest .., _, h, _, _, _ | .rep .., _, h, _, _, _ => by simp [texts] at h
theorem runCat_texts : ∀ (rs : List Re) {ts : List (List Rune)}, textsCat rs = some ts → ∀ {s s' : St},
    s' ∈ runCat rs s → ∃ u ∈ ts, Reads u s s'
  | [], ts, h, s, s', hs => by
    simp only [textsCat, Option.some.injEq] at h; subst h
    simp only [runCat, List.mem_singleton] at hs; subst hs
    exact ⟨[], by simp, Reads.refl _⟩
  | r :: rs, ts, h, s, s', hs => by
    simp only [textsCat] at h
    split at h
    · rename_i a b h1 h2
      simp only [Option.some.injEq] at h; subst h
      simp only [runCat, List.mem_flatMap] at hs
      obtain ⟨t, k1, k2⟩ := hs
      obtain ⟨u, hu, e1⟩ := run_texts r h1 k1
      obtain ⟨v, hv, e2⟩ := runCat_texts rs h2 k2
      exact ⟨u ++ v, List.mem_flatMap.2 ⟨u, hu, List.mem_map.2 ⟨v, hv, rfl⟩⟩, e1.trans e2⟩
    · simp at h
theorem runAlt_texts : ∀ (rs : List Re) {ts : List (List Rune)}, textsAlt rs = some ts → ∀ {s s' : St},
    s' ∈ runAlt rs s → ∃ u ∈ ts, Reads u s s'
  | [], ts, h, s, s', hs => by simp [runAlt] at hs
  | r :: rs, ts, h, s, s', hs => by
    simp only [textsAlt] at h
    split at h
    · rename_i a b h1 h2
      simp only [Option.some.injEq] at h; subst h
      simp only [runAlt, List.mem_append] at hs
      rcases hs with hs | hs
      · obtain ⟨u, hu, e1⟩ := run_texts r h1 hs
        exact ⟨u, by simp [hu], e1⟩
      · obtain ⟨u, hu, e1⟩ := runAlt_texts rs h2 hs
        exact ⟨u, by simp [hu], e1⟩
    · simp at h
end

theorem holds_sound {vals : List Bytes} {r : Re} (h : holds vals r = true) {s s' : St} (hs : s' ∈ run r s) :
    ∃ l, s.rest = l ++ s'.rest ∧ (∀ x ∈ l, x.1 ≠ runeError) ∧ encode (l.map Prod.fst) ∈ vals := by
  unfold holds at h
  split at h
  · rename_i ts ht
    obtain ⟨u, hu, l, e1, e2⟩ := run_texts r ht hs
    rw [List.all_eq_true] at h
    have := h u hu
    simp only [Bool.and_eq_true, Bool.not_eq_true', List.contains_iff_mem] at this
    refine ⟨l, e1, ?_, by rw [e2]; exact this.2⟩
    intro x hx hc
    have hm : x.1 ∈ u := by rw [← e2]; exact List.mem_map.2 ⟨x, hx, rfl⟩
    rw [hc, ← List.contains_iff_mem, this.1] at hm
    simp at hm
  · simp at h

theorem sureCat_sound {i : Nat} {vals : List Bytes} : ∀ (rs : List Re), sureCat i vals rs = true → ∀ {s s' : St},
    s' ∈ runCat rs s → 2 * i + 1 < s.caps.length → ∃ a l c, s.rest = a ++ (l ++ c) ∧
      s'.caps[2 * i]? = some (some (s.pos + width a)) ∧
      s'.caps[2 * i + 1]? = some (some (s.pos + width a + width l)) ∧
      (∀ x ∈ l, x.1 ≠ runeError) ∧ encode (l.map Prod.fst) ∈ vals := by
  intro rs
  induction rs with
  | nil => intro h; simp [sureCat] at h
  | cons r rs ih =>
    intro h s s' hs hl
    rw [runCat, List.mem_flatMap] at hs
    obtain ⟨t, h1, h2⟩ := hs
    obtain ⟨lt, w, w1, w2, _⟩ := run_adv h1
    rw [sureCat, Bool.or_eq_true] at h
    rcases h with h | h
    · rw [Bool.and_eq_true] at h
      obtain ⟨h, n2⟩ := h
      unfold sureCap at h
      split at h
      · rename_i j q
        simp only [Bool.and_eq_true, beq_iff_eq, Bool.not_eq_true'] at h n2
        obtain ⟨⟨rfl, n1⟩, hh⟩ := h
        simp only [run, List.mem_map] at h1
        obtain ⟨t0, h1, rfl⟩ := h1
        obtain ⟨l, e1, e2, e3⟩ := holds_sound hh h1
        have l0 : t0.caps.length = s.caps.length := by simpa [setCap] using lt
        have kq := run_keeps n1 h1
        have kr := runCat_keeps n2 h2
        obtain ⟨_, v, v1, v2, _⟩ := run_adv h1
        have hlv : l = v := by
          have : l ++ t0.rest = v ++ t0.rest := by rw [← e1, ← v1]
          exact List.append_cancel_right this
        subst hlv
        refine ⟨[], l, t0.rest, by simpa [setCap] using e1, ?_, ?_, e2, e3⟩
        · have a1 := kr.1
          have a2 := keeps_setCap (i := 2 * j) (j := 2 * j + 1) (by omega) t0
          have a3 := kq.1
          unfold Keeps at a1 a2 a3
          rw [a1, a2, a3]
          have : 2 * j < s.caps.length := by omega
          simp [setCap, this]
        · have a1 := kr.2
          unfold Keeps at a1
          rw [a1]
          simp [setCap, l0, hl]
          simpa [setCap] using v2
      · simp at h
    · obtain ⟨a, l, c, e1, e2, e3, e4⟩ := ih h h2 (by omega)
      refine ⟨w ++ a, l, c, by rw [w1, e1]; simp, ?_, ?_, e4⟩
      · rw [e2, w2]; simp; omega
      · rw [e3, w2]; simp; omega

/-! ## Expressions which match no NUL character -/

/-- No NUL character was read. -/
def Clear (s s' : St) : Prop := ∃ u, s.rest = u ++ s'.rest ∧ ∀ x ∈ u, x.1 ≠ 0

theorem Clear.refl (s : St) : Clear s s := ⟨[], rfl, by simp⟩

theorem Clear.trans {s t u : St} (h : Clear s t) (k : Clear t u) : Clear s u := by
  obtain ⟨a, h1, h2⟩ := h
  obtain ⟨b, k1, k2⟩ := k
  refine ⟨a ++ b, by rw [h1, k1]; simp, fun x hx => ?_⟩
  rw [List.mem_append] at hx
  exact hx.elim (h2 x) (k2 x)

theorem one_clear {p : Rune → Bool} (hp : p 0 = false) {s s' : St} (h : s' ∈ one p s) : Clear s s' := by
  obtain ⟨r, n, t, h1, h2, rfl⟩ := one_mem h
  refine ⟨[(r, n)], by simp [h1], ?_⟩
  rintro x hx rfl'
  simp at hx; subst hx
  simp only at rfl'
  subst rfl'
  rw [hp] at h2; simp at h2

theorem lits_clear {rs : List Rune} (h0 : rs.contains 0 = false) {s s' : St} (h : s' ∈ lits rs s) : Clear s s' := by
  obtain ⟨l, h1, h2⟩ := lits_reads h
  refine ⟨l, h1, fun x hx hc => ?_⟩
  have : (0 : Rune) ∈ rs := by rw [← h2, ← hc]; exact List.mem_map.2 ⟨x, hx, rfl⟩
  rw [← List.contains_iff_mem, h0] at this
  simp at this

variable {f : St → List St}

theorem plusLoop_clear (hf : ∀ s s', s' ∈ f s → Clear s s') {g : Bool} : ∀ {fuel : Nat} {s s' : St},
    s' ∈ plusLoop g f fuel s → Clear s s' := by
  intro fuel
  induction fuel with
  | zero => intro s s' h; exact hf _ _ h
  | succ n ih =>
    intro s s' h
    simp only [plusLoop, List.mem_flatMap] at h
    obtain ⟨t, h1, h2⟩ := h
    split at h2
    · have : s' ∈ plusLoop g f n t ∨ s' = t := by
        split at h2
        · simpa using h2
        · rw [List.mem_cons] at h2; exact h2.symm
      rcases this with h | rfl
      · exact (hf _ _ h1).trans (ih h)
      · exact hf _ _ h1
    · simp at h2; subst h2; exact hf _ _ h1

theorem times_clear (hf : ∀ s s', s' ∈ f s → Clear s s') : ∀ {n : Nat} {s s' : St}, s' ∈ times f n s → Clear s s' := by
  intro n
  induction n with
  | zero => intro s s' h; simp [times] at h; subst h; exact .refl _
  | succ n ih =>
    intro s s' h
    simp only [times, List.mem_flatMap] at h
    obtain ⟨t, h1, h2⟩ := h
    exact (hf _ _ h1).trans (ih h2)

theorem upTo_clear (hf : ∀ s s', s' ∈ f s → Clear s s') {g : Bool} : ∀ {n : Nat} {s s' : St}, s' ∈ upTo g f n s →
    Clear s s' := by
  intro n
  induction n with
  | zero => intro s s' h; simp [upTo] at h; subst h; exact .refl _
  | succ n ih =>
    intro s s' h
    have : s' = s ∨ s' ∈ (f s).flatMap (upTo g f n) := by
      simp only [upTo] at h
      split at h
      · rw [List.mem_append, List.mem_singleton] at h; exact h.symm
      · rw [List.mem_cons] at h; exact h
    rcases this with rfl | h
    · exact .refl _
    · obtain ⟨t, h1, h2⟩ := List.mem_flatMap.1 h
      exact (hf _ _ h1).trans (ih h2)

theorem starLoop_clear (hf : ∀ s s', s' ∈ f s → Clear s s') {g : Bool} {s s' : St} (h : s' ∈ starLoop g f s) :
    Clear s s' := by
  rcases starLoop_mem h with rfl | h
  · exact .refl _
  · exact plusLoop_clear hf h

mutual
theorem run_clear : ∀ (r : Re), avoids r = true → ∀ {s s' : St}, s' ∈ run r s → Clear s s'
  | .lit rs, h, s, s', hs => by
    simp only [avoids, Bool.not_eq_true'] at h; simp only [run] at hs
    exact lits_clear h hs
  | .cls neg rg, h, s, s', hs => by
    simp only [avoids, beq_iff_eq] at h; simp only [run] at hs
    exact one_clear (by simp [h]) hs
  | .anyNotNL, h, s, s', hs => by simp [avoids] at h
  | .any, h, s, s', hs => by simp [avoids] at h
  | .cap i r, h, s, s', hs => by
    simp only [avoids] at h
    simp only [run, List.mem_map] at hs
    obtain ⟨t, h1, rfl⟩ := hs
    obtain ⟨u, k1, k2⟩ := run_clear r h h1
    exact ⟨u, k1, k2⟩
  | .star g r, h, s, s', hs => by
    simp only [avoids] at h; simp only [run] at hs
    exact starLoop_clear (fun _ _ k => run_clear r h k) hs
  | .plus g r, h, s, s', hs => by
    simp only [avoids] at h; simp only [run] at hs
    exact plusLoop_clear (fun _ _ k => run_clear r h k) hs
  | .quest g r, h, s, s', hs => by
    simp only [avoids] at h
    have : s' = s ∨ s' ∈ run r s := by
      simp only [run] at hs
      split at hs
      · rw [List.mem_append, List.mem_singleton] at hs; exact hs.symm
      · rw [List.mem_cons] at hs; exact hs
    rcases this with rfl | hs
    · exact .refl _
    · exact run_clear r h hs
  | .rep mn mx g r, h, s, s', hs => by
    simp only [avoids] at h; simp only [run] at hs
    unfold repLoop at hs
    split at hs
    · rw [List.mem_flatMap] at hs
      obtain ⟨t, h1, h2⟩ := hs
      exact (times_clear (fun _ _ k => run_clear r h k) h1).trans (upTo_clear (fun _ _ k => run_clear r h k) h2)
    · split at hs
      · exact starLoop_clear (fun _ _ k => run_clear r h k) hs
      · rw [List.mem_flatMap] at hs
        obtain ⟨t, h1, h2⟩ := hs
        exact (times_clear (fun _ _ k => run_clear r h k) h1).trans (plusLoop_clear (fun _ _ k => run_clear r h k) h2)
  | .cat rs, h, s, s', hs => by
    simp only [avoids] at h; simp only [run] at hs
    exact runCat_clear rs h hs
  | .alt rs, h, s, s', hs => by
    simp only [avoids] at h; simp only [run] at hs
    exact runAlt_clear rs h hs
  | .noMatch, _, s, s', hs => by simp [run] at hs
  | .empty, _, s, s', hs => by simp [run] at hs; subst hs; exact .refl _
  | .beginLine, _, s, s', hs | .endLine, _, s, s', hs | .beginText, _, s, s', hs | .endText, _, s, s', hs
  | .wordB, _, s, s', hs | .noWordB, _, s, s', hs => by
    simp only [run] at hs
    rw [(check_mem hs).1]
    exact .refl _
theorem runCat_clear : ∀ (rs : List Re), avoidsList rs = true → ∀ {s s' : St}, s' ∈ runCat rs s → Clear s s'
  | [], _, s, s', hs => by simp [runCat] at hs; subst hs; exact .refl _
  | r :: rs, h, s, s', hs => by
    simp only [avoidsList, Bool.and_eq_true] at h
    simp only [runCat, List.mem_flatMap] at hs
    obtain ⟨t, h1, h2⟩ := hs
    exact (run_clear r h.1 h1).trans (runCat_clear rs h.2 h2)
theorem runAlt_clear : ∀ (rs : List Re), avoidsList rs = true → ∀ {s s' : St}, s' ∈ runAlt rs s → Clear s s'
  | [], _, s, s', hs => by simp [runAlt] at hs
  | r :: rs, h, s, s', hs => by
    simp only [avoidsList, Bool.and_eq_true] at h
    simp only [runAlt, List.mem_append] at hs
    rcases hs with hs | hs
    · exact run_clear r h.1 hs
    · exact runAlt_clear rs h.2 hs
end

end Rx
end Verif
