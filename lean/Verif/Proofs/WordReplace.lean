import Verif.Proofs.CaseText
import Verif.Proofs.VarFind

/-! Replacing strings on both sides of a space. -/

namespace Verif.Words

open Verif.Case

/-- Keys and values are texts, the keys not empty and without spaces. -/
def Texts (ps : List (Bytes × Bytes)) : Prop := ∀ p ∈ ps, p.1 ≠ [] ∧ 0x20 ∉ p.1 ∧ ValidUtf8 p.1 ∧ ValidUtf8 p.2

theorem Texts.perm {ps qs : List (Bytes × Bytes)} (h : Texts ps) (hp : qs.Perm ps) : Texts qs :=
  fun p hm => h p (hp.mem_iff.1 hm)

theorem prefix_gap {key : Bytes} (h : 0x20 ∉ key) (x y : Bytes) : hasPrefix (x ++ 0x20 :: y) key = hasPrefix x key := by
  rw [Bool.eq_iff_iff, hasPrefix_iff, hasPrefix_iff]
  constructor
  · rintro ⟨z, hz⟩
    rcases List.append_eq_append_iff.1 hz with ⟨a, h1, h2⟩ | ⟨a, h1, h2⟩
    · exact ⟨a, h1.symm⟩
    · cases a with
      | nil => exact ⟨[], by simpa using h1⟩
      | cons b a =>
        rw [List.cons_append, List.cons.injEq] at h2
        rw [h1, ← h2.1] at h
        simp at h
  · intro h
    exact h.trans (List.prefix_append _ _)

/-- Replacement on both sides of a space. -/
theorem replace_gap {ps : List (Bytes × Bytes)} (hk : Texts ps) (y : Bytes) : ∀ (x : Bytes) (k : Nat), k ≤ x.length →
    replaceFrom ps k (x ++ 0x20 :: y) = replaceFrom ps k x ++ 0x20 :: replaceFrom ps 0 y
  | [], 0, _ => by
    have h1 : lookupKey ps (0x20 :: y) false = none := by
      cases hl : lookupKey ps (0x20 :: y) false with
      | none => rfl
      | some vn =>
        obtain ⟨v, n⟩ := vn
        obtain ⟨p, hp, _, _, hx⟩ := lookup_len hl
        obtain ⟨e1, e2, _⟩ := hk p hp
        obtain ⟨z, hz⟩ := hx
        cases hq : p.1 with
        | nil => exact absurd hq e1
        | cons b q =>
          rw [hq, List.cons_append, List.cons.injEq] at hz
          rw [hq, hz.1] at e2
          simp at e2
    have h2 : replaceFrom ps 0 [] = [] := replacePairs_nil fun p hp => (hk p hp).1
    rw [h2, List.nil_append, replaceFrom, h1]
    rfl
  | a :: x, k + 1, h => by
    have := replace_gap hk y x k (by simpa using h)
    simpa [replaceFrom] using this
  | a :: x, 0, _ => by
    have e : ∀ b, lookupKey ps (a :: (x ++ 0x20 :: y)) b = lookupKey ps (a :: x) b := fun b =>
      lookup_congr fun p hp => prefix_gap (hk p hp).2.1 (a :: x) y
    rw [List.cons_append, replaceFrom, replaceFrom, e]
    cases hl : lookupKey ps (a :: x) false with
    | none => simp only [List.cons_append, replace_gap hk y x 0 (by omega)]
    | some vn =>
      obtain ⟨v, n⟩ := vn
      obtain ⟨p, hp, rfl, rfl, hx⟩ := lookup_len hl
      have h0 := List.length_pos_iff.2 (hk p hp).1
      have hlen := hx.length_le
      cases hn : p.1.length with
      | zero => omega
      | succ m =>
        rw [hn] at hlen
        simp only [replace_gap hk y x m (by simpa using hlen), List.append_assoc]

theorem no_key {ps : List (Bytes × Bytes)} (hk : Texts ps) {a : UInt8} (ha : isCont a = true) (t : Bytes) :
    lookupKey ps (a :: t) false = none := by
  cases hl : lookupKey ps (a :: t) false with
  | none => rfl
  | some vn =>
    obtain ⟨v, n⟩ := vn
    obtain ⟨p, hp, _, _, hx⟩ := lookup_len hl
    obtain ⟨h1, _, h2, _⟩ := hk p hp
    obtain ⟨b, u, e, hb⟩ := valid_lead h2 h1
    rw [e, List.cons_prefix_cons] at hx
    rw [hx.1, ha] at hb
    contradiction

theorem replace_follow {ps : List (Bytes × Bytes)} (hk : Texts ps) (y : Bytes) : ∀ t : Bytes, (∀ c ∈ t, isCont c = true) →
    replaceFrom ps 0 (t ++ y) = t ++ replaceFrom ps 0 y
  | [], _ => rfl
  | a :: t, h => by
    rw [List.cons_append, replaceFrom, no_key hk (h a (by simp))]
    simp only [replace_follow hk y t fun c hc => h c (by simp [hc]), List.cons_append]

/-- The letters after replacement. -/
theorem replace_letters {ps : List (Bytes × Bytes)} (hk : Texts ps) : ∀ (n : Nat) (cs : List Rune), cs.length ≤ n →
    (∀ c ∈ cs, validRune c = true) → ∃ ds, (∀ d ∈ ds, validRune d = true) ∧ replaceFrom ps 0 (encode cs) = encode ds ∧
      ∀ d ∈ ds, d ∈ cs ∨ ∃ p ∈ ps, d ∈ runes p.2 := by
  intro n
  induction n with
  | zero =>
    intro cs hn _
    have : cs = [] := by simpa using hn
    subst this
    exact ⟨[], by simp, replacePairs_nil fun p hp => (hk p hp).1, by simp⟩
  | succ n ih =>
    intro cs hn hv
    cases cs with
    | nil => exact ⟨[], by simp, replacePairs_nil fun p hp => (hk p hp).1, by simp⟩
    | cons c cs =>
      obtain ⟨b, t, e, hb, ht⟩ := shape c
      rw [encode_cons, e, List.cons_append, replaceFrom]
      cases hl : lookupKey ps (b :: (t ++ encode cs)) false with
      | none =>
        obtain ⟨ds, h1, h2, h3⟩ := ih cs (by simpa using hn) fun d hd => hv d (by simp [hd])
        refine ⟨c :: ds, ?_, ?_, ?_⟩
        · intro d hd
          rcases List.mem_cons.1 hd with rfl | hd
          · exact hv d (by simp)
          · exact h1 d hd
        · simp only [replace_follow hk (encode cs) t ht, h2, encode_cons, e, List.cons_append]
        · intro d hd
          rcases List.mem_cons.1 hd with rfl | hd
          · exact .inl (by simp)
          · rcases h3 d hd with h | h
            · exact .inl (by simp [h])
            · exact .inr h
      | some vn =>
        obtain ⟨v, m⟩ := vn
        obtain ⟨p, hp, rfl, rfl, hx⟩ := lookup_len hl
        obtain ⟨k1, _, k2, k3⟩ := hk p hp
        rw [← List.cons_append, ← e, ← encode_cons] at hx
        have hd := Verif.Hre.valid_drop (encode_validUtf8 _) k2 hx
        obtain ⟨z, hz⟩ := hx
        rw [← hz, List.drop_left] at hd
        have hr := congrArg runes hz
        rw [runes_append k2, runes_encode hv] at hr
        have hne : runes p.1 ≠ [] := fun h => k1 ((runes_eq_nil_iff _).1 h)
        have hlen : (runes z).length ≤ n := by
          have := congrArg List.length hr
          have := List.length_pos_iff.2 hne
          simp only [List.length_append, List.length_cons] at *
          omega
        obtain ⟨ds, h1, h2, h3⟩ := ih (runes z) hlen (runes_valid z)
        rw [encode_runes hd] at h2
        obtain ⟨q, t', hq⟩ : ∃ q t', p.1 = q :: t' := by
          cases hq : p.1 with
          | nil => exact absurd hq k1
          | cons q t' => exact ⟨q, t', rfl⟩
        refine ⟨runes p.2 ++ ds, ?_, ?_, ?_⟩
        · intro d hd
          rcases List.mem_append.1 hd with hd | hd
          · exact runes_valid _ d hd
          · exact h1 d hd
        · have hs : t ++ encode cs = t' ++ z := by
            rw [encode_cons, e, hq] at hz
            simp only [List.cons_append, List.cons.injEq] at hz
            exact hz.2.symm
          simp only [hq, List.length_cons]
          rw [hs, replace_skip, h2, encode_append, encode_runes k3]
        · intro d hd
          rcases List.mem_append.1 hd with hd | hd
          · exact .inr ⟨p, hp, hd⟩
          · rcases h3 d hd with h | h
            · exact .inl (by rw [← hr]; exact List.mem_append_right _ h)
            · exact .inr h

/-! ## Letters of no key -/

/-- Letters which occur in no key. -/
def Apart (ps : List (Bytes × Bytes)) (xs : List Rune) : Prop := ∀ p ∈ ps, ∀ c ∈ xs, c ∉ runes p.1

theorem encode_ne_nil {xs : List Rune} (h : xs ≠ []) : encode xs ≠ [] := by
  cases xs with
  | nil => exact absurd rfl h
  | cons c xs =>
    rw [encode_cons]
    intro e
    exact encodeRune_ne_nil c (List.append_eq_nil_iff.1 e).1

/-- No key reaches beyond what is before them. -/
theorem prefix_apart {ps : List (Bytes × Bytes)} (hk : Texts ps) {xs : List Rune} (hx : Apart ps xs) (hn : xs ≠ [])
    (hv : ∀ c ∈ xs, validRune c = true) {as : List Rune} (ha : ∀ c ∈ as, validRune c = true) (b : Bytes) {p : Bytes × Bytes}
    (hp : p ∈ ps) : hasPrefix (encode as ++ encode xs ++ b) p.1 = hasPrefix (encode as) p.1 := by
  rw [Bool.eq_iff_iff, hasPrefix_iff, hasPrefix_iff]
  constructor
  · rintro ⟨z, hz⟩
    have h2 := (hk p hp).2.2.1
    have := congrArg runes hz
    rw [runes_append h2, runes_append ((encode_validUtf8 _).append (encode_validUtf8 _)), runes_append (encode_validUtf8 _),
      runes_encode ha, runes_encode hv, List.append_assoc] at this
    rcases List.append_eq_append_iff.1 this with ⟨u, e1, e2⟩ | ⟨u, e1, e2⟩
    · rw [e1, encode_append, encode_runes h2]
      exact List.prefix_append _ _
    · cases u with
      | nil =>
        rw [List.append_nil] at e1
        rw [← e1, encode_runes h2]
        exact List.prefix_refl _
      | cons c u =>
        exfalso
        cases xs with
        | nil => exact hn rfl
        | cons d xs =>
          simp only [List.cons_append, List.cons.injEq] at e2
          refine hx p hp d (by simp) ?_
          rw [e1, e2.1]
          simp
  · intro h
    rw [List.append_assoc]
    exact h.trans (List.prefix_append _ _)

theorem replace_over {ps : List (Bytes × Bytes)} (hk : Texts ps) (b : Bytes) : ∀ {xs : List Rune}, Apart ps xs →
    (∀ c ∈ xs, validRune c = true) → replaceFrom ps 0 (encode xs ++ b) = encode xs ++ replaceFrom ps 0 b
  | [], _, _ => rfl
  | c :: xs, hx, hv => by
    have ih := replace_over hk b (xs := xs) (fun p hp d hd => hx p hp d (by simp [hd])) fun d hd => hv d (by simp [hd])
    obtain ⟨q, t, e, _, ht⟩ := shape c
    have hl : lookupKey ps (q :: (t ++ (encode xs ++ b))) false = none := by
      cases hl : lookupKey ps (q :: (t ++ (encode xs ++ b))) false with
      | none => rfl
      | some vn =>
        obtain ⟨v, m⟩ := vn
        obtain ⟨p, hp, _, _, z, hz⟩ := lookup_len hl
        obtain ⟨k1, _, k2, _⟩ := hk p hp
        have := congrArg runes hz
        rw [← List.cons_append, ← e, ← List.append_assoc, ← encode_cons, runes_append k2, runes_append (encode_validUtf8 _),
          runes_encode hv] at this
        cases hr : runes p.1 with
        | nil => exact absurd ((runes_eq_nil_iff _).1 hr) k1
        | cons d u =>
          rw [hr] at this
          simp only [List.cons_append, List.cons.injEq] at this
          exact absurd (by rw [hr, this.1]; simp) (hx p hp c (by simp))
    rw [encode_cons, e, List.append_assoc, List.cons_append, replaceFrom, hl]
    simp only [replace_follow hk _ t ht, ih, List.cons_append, List.append_assoc]

/-- Replacement on both sides of letters of no key. -/
theorem replace_apart {ps : List (Bytes × Bytes)} (hk : Texts ps) {xs : List Rune} (hx : Apart ps xs) (hn : xs ≠ [])
    (hv : ∀ c ∈ xs, validRune c = true) (b : Bytes) : ∀ (n : Nat) (as : List Rune), as.length ≤ n → (∀ c ∈ as, validRune c = true) →
    replaceFrom ps 0 (encode as ++ encode xs ++ b) = replaceFrom ps 0 (encode as) ++ encode xs ++ replaceFrom ps 0 b := by
  have base : replaceFrom ps 0 (encode [] ++ encode xs ++ b) = replaceFrom ps 0 (encode []) ++ encode xs ++ replaceFrom ps 0 b := by
    have : replaceFrom ps 0 (encode []) = [] := replacePairs_nil fun p hp => (hk p hp).1
    rw [this]
    exact replace_over hk b hx hv
  intro n
  induction n with
  | zero =>
    intro as ha _
    have : as = [] := by simpa using ha
    subst this
    exact base
  | succ n ih =>
    intro as hn' hva
    cases as with
    | nil => exact base
    | cons c cs =>
      obtain ⟨q, t, e, _, ht⟩ := shape c
      have hc : lookupKey ps (encode (c :: cs) ++ encode xs ++ b) false = lookupKey ps (encode (c :: cs)) false :=
        lookup_congr fun p hp => prefix_apart hk hx hn hv hva b hp
      have e1 : encode (c :: cs) ++ encode xs ++ b = q :: (t ++ (encode cs ++ encode xs ++ b)) := by
        rw [encode_cons, e]
        simp
      have e2 : encode (c :: cs) = q :: (t ++ encode cs) := by rw [encode_cons, e, List.cons_append]
      rw [e1, replaceFrom, ← e1, hc, e2, replaceFrom]
      cases hl : lookupKey ps (q :: (t ++ encode cs)) false with
      | none =>
        simp only [replace_follow hk _ t ht]
        rw [ih cs (by simpa using hn') fun d hd => hva d (by simp [hd])]
        simp only [List.cons_append, List.append_assoc]
      | some vn =>
        obtain ⟨v, m⟩ := vn
        obtain ⟨p, hp, rfl, rfl, hpre⟩ := lookup_len hl
        obtain ⟨k1, _, k2, k3⟩ := hk p hp
        rw [← e2] at hpre
        have hd := Verif.Hre.valid_drop (encode_validUtf8 _) k2 hpre
        obtain ⟨z, hz⟩ := hpre
        rw [← hz, List.drop_left] at hd
        have hr := congrArg runes hz
        rw [runes_append k2, runes_encode hva] at hr
        have hne : runes p.1 ≠ [] := fun h => k1 ((runes_eq_nil_iff _).1 h)
        have hlen : (runes z).length ≤ n := by
          have := congrArg List.length hr
          have := List.length_pos_iff.2 hne
          simp only [List.length_append, List.length_cons] at *
          omega
        have := ih (runes z) hlen (runes_valid z)
        rw [encode_runes hd] at this
        obtain ⟨q', t', hq⟩ : ∃ q t', p.1 = q :: t' := by
          cases hq : p.1 with
          | nil => exact absurd hq k1
          | cons q t' => exact ⟨q, t', rfl⟩
        have hs : t ++ encode cs = t' ++ z := by
          rw [e2, hq] at hz
          simp only [List.cons_append, List.cons.injEq] at hz
          exact hz.2.symm
        have hs' : t ++ (encode cs ++ encode xs ++ b) = t' ++ (z ++ encode xs ++ b) := by
          rw [← List.append_assoc, ← List.append_assoc, hs]
          simp
        simp only [hq, List.length_cons]
        rw [hs, hs', replace_skip, replace_skip, this]
        simp

end Verif.Words
