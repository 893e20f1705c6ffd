import Verif.Proofs.LaidParse
import Verif.Proofs.VarParse

/-! The lookarounds and the core of a pattern that passes the quick check. -/

namespace Verif.Hre.Laid

open Verif.Rx Verif.Spec Verif.Spec.Hre

/-- More can follow the second. -/
def Le (l l' : Last) : Prop := l = l' ∨ l = .nothing ∧ (l' = .item ∨ l' = .opened)

theorem step_mono {strict bars : Bool} {d d1 : Nat} {l l' l1 : Last} {c : Nat} (h : step strict bars d l c = some (d1, l1))
    (hl : Le l l') : ∃ l2, step false bars d l' c = some (d1, l2) ∧ Le l1 l2 := by
  have key : ∀ m m' : Last, Le m m' → Ready m → fresh strict bars d m c = some (d1, l1) →
      ∃ l2, fresh false bars d m' c = some (d1, l2) ∧ Le l1 l2 := by
    intro m m' hm hr
    unfold fresh Le Ready at *
    grind
  rcases hl with rfl | ⟨rfl, rfl | rfl⟩
  · cases l with
    | nothing => exact key _ _ (.inl rfl) (.inl rfl) h
    | item => exact key _ _ (.inl rfl) (.inr (.inl rfl)) h
    | opened => exact key _ _ (.inl rfl) (.inr (.inr rfl)) h
    | quest => exact ⟨l1, h, .inl rfl⟩
    | esc => exact ⟨l1, h, .inl rfl⟩
    | brace => exact ⟨l1, h, .inl rfl⟩
  · exact key _ _ (.inr ⟨rfl, .inl rfl⟩) (.inl rfl) h
  · exact key _ _ (.inr ⟨rfl, .inr rfl⟩) (.inl rfl) h

theorem walk_mono {strict bars : Bool} : ∀ {t : List Nat} {d d1 : Nat} {l l' l1 : Last},
    walk strict bars d l t = some (d1, l1) → Le l l' → ∃ l2, walk false bars d l' t = some (d1, l2) ∧ Le l1 l2
  | [], d, d1, l, l', l1, h, hl => by
    simp only [walk, Option.some.injEq, Prod.mk.injEq] at h ⊢
    obtain ⟨rfl, rfl⟩ := h
    exact ⟨l', ⟨rfl, rfl⟩, hl⟩
  | c :: t, d, d1, l, l', l1, h, hl => by
    obtain ⟨d2, l2, hs, hw⟩ := walk_cons h
    obtain ⟨l3, hs3, hl3⟩ := step_mono hs hl
    rw [walk_step hs3]
    exact walk_mono hw hl3

/-- The bytes of a text as numbers. -/
def nums (x : Bytes) : List Nat := x.map UInt8.toNat

theorem nums_append (x y : Bytes) : nums (x ++ y) = nums x ++ nums y := List.map_append ..

theorem fresh_high {strict bars : Bool} {d : Nat} {l : Last} {c : Nat} (hc : 0x80 ≤ c) :
    fresh strict bars d l c = some (d, .item) := by
  unfold fresh
  rw [if_neg (by omega), if_neg (by omega), if_neg (by omega), if_neg (by omega), if_neg (by simp; omega),
    if_neg (by omega), if_neg (by omega), if_neg (by simp; omega), if_neg (by simp; omega)]

theorem step_high {strict bars : Bool} {d : Nat} {l : Last} {c : Nat} {x : Nat × Last} (hc : 0x80 ≤ c)
    (h : step strict bars d l c = some x) : Ready l ∧ x = (d, .item) := by
  have : ∀ m, Ready m → fresh strict bars d m c = some x → Ready m ∧ x = (d, .item) := by
    intro m hm h
    rw [fresh_high hc, Option.some.injEq] at h
    exact ⟨hm, h.symm⟩
  cases l with
  | nothing => exact this _ (.inl rfl) h
  | item => exact this _ (.inr (.inl rfl)) h
  | opened => exact this _ (.inr (.inr rfl)) h
  | quest => simp only [step] at h; split at h <;> simp at h; omega
  | esc => simp only [step] at h; split at h <;> simp at h; omega
  | brace => simp only [step] at h; split at h <;> simp at h; omega

theorem walk_high {strict bars : Bool} : ∀ {x : Bytes} {d : Nat} {l : Last} {y : Nat × Last}, x ≠ [] →
    (∀ c ∈ x, 0x80 ≤ c.toNat) → walk strict bars d l (nums x) = some y → Ready l ∧ y = (d, .item)
  | [], _, _, _, h, _, _ => absurd rfl h
  | [c], d, l, y, _, hx, h => by
    obtain ⟨d1, l1, hs, hw⟩ := walk_cons (show walk strict bars d l (c.toNat :: []) = some y from h)
    obtain ⟨k1, k2⟩ := step_high (hx c (by simp)) hs
    simp only [Prod.mk.injEq] at k2
    simp only [walk, Option.some.injEq] at hw
    exact ⟨k1, by rw [← hw, k2.1, k2.2]⟩
  | c :: e :: x, d, l, y, _, hx, h => by
    obtain ⟨d1, l1, hs, hw⟩ := walk_cons (show walk strict bars d l (c.toNat :: nums (e :: x)) = some y from h)
    obtain ⟨k1, k2⟩ := step_high (hx c (by simp)) hs
    simp only [Prod.mk.injEq] at k2
    obtain ⟨rfl, rfl⟩ := k2
    exact ⟨k1, (walk_high (by simp) (fun b hb => hx b (List.mem_cons_of_mem _ hb)) hw).2⟩

theorem walk_encode {strict bars : Bool} : ∀ {rs : List Rune} {d : Nat} {l : Last} {y : Nat × Last},
    walk strict bars d l (nums (encode rs)) = some y → walk strict bars d l rs = some y
  | [], _, _, _, h => h
  | r :: rs, d, l, y, h => by
    rw [encode_cons, nums_append, walk_append] at h
    obtain ⟨d1, l1, h1, h2⟩ := h
    by_cases hr : r < 0x80
    · rw [encodeRune_ascii hr] at h1
      have e : nums [UInt8.ofNat r] = [r] := by
        simp only [nums, List.map_cons, List.map_nil, List.cons.injEq, and_true]
        simp; omega
      rw [e] at h1
      obtain ⟨d2, l2, hs, hw⟩ := walk_cons h1
      simp only [walk, Option.some.injEq, Prod.mk.injEq] at hw
      obtain ⟨rfl, rfl⟩ := hw
      rw [walk_step hs]
      exact walk_encode h2
    · obtain ⟨k1, k2⟩ := walk_high (encodeRune_ne_nil r) (encodeRune_high (by omega)) h1
      simp only [Prod.mk.injEq] at k2
      obtain ⟨rfl, rfl⟩ := k2
      have := (step_ready (strict := strict) (bars := bars) (d := d1) k1 r).trans (fresh_high (by omega))
      rw [walk_step this]
      exact walk_encode h2

/-- A complete text is a regular expression. -/
theorem compiles {bars : Bool} {x : Bytes} (hv : ValidUtf8 x) {l' : Last} (h : walk false bars 0 .nothing (nums x) = some (0, l'))
    (hr : Ready l') : (∃ re, compile x = .ok re) ∧ (bars = false → NoBar x) := by
  rw [← encode_runes hv] at h
  obtain ⟨ts, f, k, lr, h1, h2⟩ := parses (walk_encode h) hr
  refine ⟨⟨f.body, ?_⟩, fun hb => ⟨hv, ts, f, k, lr, h1, h2 hb⟩⟩
  rw [compile, if_pos hv]
  exact parseRunes_iff.2 ⟨ts, f, k, lr, h1, rfl⟩

theorem walk_noCapture {bars : Bool} : ∀ {x : Bytes} {d d1 : Nat} {l l' l1 : Last},
    walk true bars d l (nums x) = some (d1, l1) → Le l l' →
      ∃ l2, walk false bars d l' (nums (noCapture x)) = some (d1, l2) ∧ Le l1 l2
  | [], d, d1, l, l', l1, h, hl => by
    rw [noCapture_nil]
    exact walk_mono h hl
  | c :: x, d, d1, l, l', l1, h, hl => by
    obtain ⟨d2, l2, hs, hw⟩ := walk_cons (show walk true bars d l (c.toNat :: nums x) = some (d1, l1) from h)
    obtain ⟨l3, hs3, hl3⟩ := step_mono hs hl
    by_cases hc : c = 0x28
    · subst hc
      have e : noCapture (0x28 :: x) = 0x28 :: 0x3F :: 0x3A :: noCapture x := by simp [noCapture_eq]
      rw [e]
      have h0 : d2 = d + 1 ∧ l2 = .nothing ∧ l3 = .opened := by
        have a : (0x28 : UInt8).toNat = 0x28 := rfl
        rw [a] at hs hs3
        have : Ready l' := by
          cases l' <;> simp [step, Ready] at hs3 ⊢
        have hb : Ready l := by
          cases l <;> simp [step, Ready] at hs ⊢
        rw [step_ready this] at hs3
        rw [step_ready hb] at hs
        simp only [fresh, if_true, Option.some.injEq, Prod.mk.injEq, Bool.false_eq_true, if_false] at hs hs3
        exact ⟨hs.1.symm, hs.2.symm, hs3.2.symm⟩
      obtain ⟨rfl, rfl, rfl⟩ := h0
      obtain ⟨l4, h4, hl4⟩ := walk_noCapture hw (.inl rfl)
      refine ⟨l4, ?_, hl4⟩
      show walk false bars d l' ((0x28 : UInt8).toNat :: 0x3F :: 0x3A :: nums (noCapture x)) = _
      rw [walk_step hs3, walk_step (d' := d + 1) (l' := .quest) rfl, walk_step (d' := d + 1) (l' := .nothing) rfl]
      exact h4
    · have e : noCapture (c :: x) = c :: noCapture x := noCapture_cons c x hc
      rw [e]
      show ∃ l2, walk false bars d l' (c.toNat :: nums (noCapture x)) = _ ∧ _
      rw [walk_step hs3]
      exact walk_noCapture hw hl3

/-- Runs of carets or dollars become an item again. -/
theorem walk_mapRuns {bars : Bool} {k : UInt8} (hk : k = 0x5E ∨ k = 0x24) {f : Nat → Bytes}
    (hf : ∀ n d l, n ≠ 0 → Ready l → walk false bars d l (nums (f n)) = some (d, .item)) :
    ∀ {x : Bytes} {n d : Nat} {l : Last} {y : Nat × Last},
      walk false bars d l (nums (List.replicate n k ++ x)) = some y → walk false bars d l (nums (mapRuns k f n x)) = some y := by
  have one : ∀ d l y, step false bars d l k.toNat = some y → Ready l ∧ y = (d, .item) := by
    intro d l y h
    rcases hk with rfl | rfl <;> cases l <;> simp [step, fresh, Ready] at h ⊢ <;> exact h.symm
  have many : ∀ n d l y, n ≠ 0 → walk false bars d l (nums (List.replicate n k)) = some y → Ready l ∧ y = (d, .item) := by
    intro n
    induction n with
    | zero => intro d l y h; exact absurd rfl h
    | succ n ih =>
      intro d l y _ h
      obtain ⟨d1, l1, hs, hw⟩ := walk_cons (show walk false bars d l (k.toNat :: nums (List.replicate n k)) = some y from h)
      obtain ⟨h1, h2⟩ := one _ _ _ hs
      simp only [Prod.mk.injEq] at h2
      obtain ⟨rfl, rfl⟩ := h2
      refine ⟨h1, ?_⟩
      cases n with
      | zero => simp only [List.replicate_zero, nums, List.map_nil, walk, Option.some.injEq] at hw; exact hw.symm
      | succ n => exact (ih _ _ _ (by simp) hw).2
  intro x
  induction x with
  | nil =>
    intro n d l y h
    rw [List.append_nil] at h
    by_cases hn : n = 0
    · subst hn; exact h
    · obtain ⟨h1, rfl⟩ := many n d l y hn h
      rw [mapRuns, if_neg hn]
      exact hf n d l hn h1
  | cons c x ih =>
    intro n d l y h
    rw [mapRuns]
    by_cases hc : c = k
    · subst hc
      rw [if_pos rfl]
      apply ih
      rw [List.replicate_succ']
      simpa using h
    · rw [if_neg hc]
      rw [nums_append, walk_append] at h ⊢
      obtain ⟨d1, l1, h1, h2⟩ := h
      obtain ⟨d2, l2, hs, hw⟩ := walk_cons (show walk false bars d1 l1 (c.toNat :: nums x) = some y from h2)
      refine ⟨d1, l1, ?_, ?_⟩
      · by_cases hn : n = 0
        · subst hn; exact h1
        · obtain ⟨h3, h4⟩ := many n d l _ hn h1
          rw [if_neg hn, h4]
          exact hf n d l hn h3
      · show walk false bars d1 l1 (c.toNat :: nums (mapRuns k f 0 x)) = some y
        rw [walk_step hs]
        exact ih (by simpa using hw)

theorem walk_expandEdges {bars : Bool} {x : Bytes} {d : Nat} {l : Last} {y : Nat × Last}
    (h : walk false bars d l (nums x) = some y) : walk false bars d l (nums (expandEdges x)) = some y := by
  have key : ∀ (k : UInt8), k = 0x5E ∨ k = 0x24 → ∀ d l, Ready l →
      walk false bars d l (nums ([0x28, 0x3F, 0x3A, k, 0x7C, 0x5C, 0x73, 0x2B, 0x7C, 0x7B, 0x7D, 0x29])) = some (d, .item) ∧
      walk false bars d l (nums [k]) = some (d, .item) := by
    intro k hk d l hl
    rcases hk with rfl | rfl <;> rcases hl with rfl | rfl | rfl <;> cases bars <;>
      simp [nums, walk, step, fresh]
  have e1 : leftEdgeExpr = [0x28, 0x3F, 0x3A, 0x5E, 0x7C, 0x5C, 0x73, 0x2B, 0x7C, 0x7B, 0x7D, 0x29] := by decide +kernel
  have e2 : rightEdgeExpr = [0x28, 0x3F, 0x3A, 0x24, 0x7C, 0x5C, 0x73, 0x2B, 0x7C, 0x7B, 0x7D, 0x29] := by decide +kernel
  rw [expandEdges_eq]
  refine walk_mapRuns (.inr rfl) ?_ (walk_mapRuns (n := 0) (.inl rfl) ?_ h)
  · intro n d l _ hl
    split
    · rw [e2]; exact (key _ (.inr rfl) d l hl).1
    · exact (key _ (.inr rfl) d l hl).2
  · intro n d l _ hl
    split
    · rw [e1]; exact (key _ (.inl rfl) d l hl).1
    · exact (key _ (.inl rfl) d l hl).2

theorem valid_split {c : UInt8} (hc : c.toNat < 0x80) : ∀ {rs : List Rune}, (∀ r ∈ rs, validRune r = true) → ∀ {a b : Bytes},
    encode rs = a ++ c :: b → ValidUtf8 a ∧ ValidUtf8 b
  | [], _, a, b, h => by simp at h
  | r :: rs, hr, a, b, h => by
    have hrs : ∀ r ∈ rs, validRune r = true := fun x hx => hr x (by simp [hx])
    rw [encode_cons] at h
    rcases List.append_eq_append_iff.1 h with ⟨a', rfl, h2⟩ | ⟨a', h1, h2⟩
    · obtain ⟨k1, k2⟩ := valid_split hc hrs h2
      exact ⟨(encodeRune_validUtf8 r).append k1, k2⟩
    · cases a' with
      | nil =>
        simp only [List.append_nil] at h1
        obtain ⟨_, k2⟩ := valid_split hc hrs (a := []) (b := b) (by simpa using h2.symm)
        exact ⟨h1 ▸ encodeRune_validUtf8 r, k2⟩
      | cons e a' =>
        simp only [List.cons_append, List.cons.injEq] at h2
        obtain ⟨rfl, h2⟩ := h2
        have hlt : r < 0x80 := by
          rcases Nat.lt_or_ge r 0x80 with h | h
          · exact h
          · have := encodeRune_high h c (by rw [h1]; simp)
            omega
        rw [encodeRune_ascii hlt] at h1
        have : a = [] ∧ a' = [] := by
          cases a with
          | nil => simp at h1; exact ⟨rfl, h1.2⟩
          | cons x a => simp at h1
        rw [this.2] at h2
        simp only [List.nil_append] at h2
        exact ⟨this.1 ▸ ValidUtf8.nil, h2 ▸ encode_valid hrs⟩

/-- Valid texts can be split at ASCII bytes. -/
theorem valid_ascii {c : UInt8} (hc : c.toNat < 0x80) {a b : Bytes} (h : ValidUtf8 (a ++ c :: b)) : ValidUtf8 a ∧ ValidUtf8 b := by
  obtain ⟨rs, h1, h2⟩ := h
  exact valid_split hc h1 h2.symm

theorem rune_byte {w : Bytes} {r : Nat} (h : r ∈ runes w) (hr : r < 0x80) : ∃ c ∈ w, c.toNat = r := by
  suffices ∀ k (w : Bytes), w.length ≤ k → r ∈ runes w → ∃ c ∈ w, c.toNat = r from this _ w (Nat.le_refl _) h
  intro k
  induction k with
  | zero =>
    intro w hw hm
    have : w = [] := List.eq_nil_of_length_eq_zero (by omega)
    simp [this, runes_nil] at hm
  | succ k ih =>
    intro w hw hm
    cases w with
    | nil => simp [runes_nil] at hm
    | cons b t =>
      rw [runes_cons] at hm
      rcases List.mem_cons.1 hm with hm | hm
      · have := decodeRune_lt (b := b) (t := t) (by rw [← hm]; exact hr)
        rw [this.1] at hm
        exact ⟨b, by simp, hm.symm⟩
      · obtain ⟨c, h1, h2⟩ := ih _ (by simp at hw ⊢; omega) hm
        exact ⟨c, List.mem_cons_of_mem _ (List.mem_of_mem_drop h1), h2⟩

/-- A text in braces is found. -/
theorem zeroWidth_found {pre look post : Bytes} (h0 : look ≠ []) (h1 : 0x7D ∉ look) :
    matchString reZeroWidth (pre ++ 0x7B :: (look ++ 0x7D :: post)) = true := by
  rw [matchString_iff (by decide)]
  refine ⟨runes pre, 0x7B :: (runes look ++ [0x7D]), runes post, ?_, ?_⟩
  · simp only [runes, decode_split pre (c := 0x7B) (by decide), decode_split look (c := 0x7D) (by decide)]
    simp
  · have hm : Match (.plus true (.cls true [(0x7D, 0x7D)])) (runes pre ++ [0x7B]) (runes look) ([0x7D] ++ [] ++ runes post) := by
      rw [match_plus_iff]
      refine ⟨(runes look).map fun c => [c], ?_, (flatten_map_single _).symm, ?_⟩
      · simpa using fun h => h0 ((runes_eq_nil_iff look).1 h)
      · intro xs u ys e
        have : u ∈ (runes look).map fun c => [c] := by rw [e]; simp
        obtain ⟨c, hc, rfl⟩ := List.mem_map.1 this
        refine .cls ?_
        simp only [List.mem_cons, List.not_mem_nil, or_false, exists_eq_left, Bool.true_eq_false, iff_false]
        intro h
        obtain ⟨b, hb, hbc⟩ := rune_byte hc (by omega)
        have : b = 0x7D := UInt8.toNat_inj.1 (by rw [hbc]; show c = 0x7D; omega)
        exact h1 (this ▸ hb)
    exact .cons (u := [0x7B]) (.lit _) (.cons (.cap hm) (.cons (u := [0x7D]) (v := []) (.lit _) .nil))

/-- No text in braces. -/
def Clean (x : Bytes) : Prop :=
  ∀ pre look post : Bytes, look ≠ [] → 0x7D ∉ look → x ≠ pre ++ 0x7B :: (look ++ 0x7D :: post)

theorem clean_of {a x b : Bytes} (h : matchString reZeroWidth (a ++ (x ++ b)) = false) : Clean x := by
  rintro pre look post h0 h1 rfl
  have := zeroWidth_found (pre := a ++ pre) (post := post ++ b) h0 h1
  simp only [List.append_assoc, List.cons_append] at this h
  rw [this] at h
  simp at h

theorem Clean.tail {c : UInt8} {x : Bytes} (h : Clean (c :: x)) : Clean x := by
  rintro pre look post h0 h1 rfl
  exact h (c :: pre) look post h0 h1 rfl

end Verif.Hre.Laid
