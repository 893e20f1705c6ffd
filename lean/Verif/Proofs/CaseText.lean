import Verif.Proofs.CaseCheck
import Verif.Proofs.Strings
import Verif.Proofs.Utf8Ascii

/-! Normalization of a text, character by character. -/

namespace Verif.Case

/-! ## The bytes of a character -/

/-- A first byte and continuation bytes. -/
def Shape (k : Bytes) : Prop := ∃ b t, k = b :: t ∧ isCont b = false ∧ ∀ c ∈ t, isCont c = true

theorem cont_ofNat {n : Nat} (h1 : 0x80 ≤ n) (h2 : n ≤ 0xBF) : isCont (UInt8.ofNat n) = true := by
  rw [isCont_iff]
  have : (UInt8.ofNat n).toNat = n := by simp; omega
  omega

theorem lead_ofNat {n : Nat} (h1 : n < 0x80 ∨ 0xBF < n) (h2 : n < 256) : isCont (UInt8.ofNat n) = false := by
  have : (UInt8.ofNat n).toNat = n := by simp; omega
  rw [Bool.eq_false_iff, ne_eq, isCont_iff]
  omega

theorem shape_valid {r : Rune} (h : validRune r = true) : Shape (encodeValid r) := by
  rw [validRune_iff] at h
  unfold encodeValid
  split
  · exact ⟨_, _, rfl, lead_ofNat (by omega) (by omega), by simp⟩
  · split
    · refine ⟨_, _, rfl, lead_ofNat (by omega) (by omega), ?_⟩
      simp only [List.mem_singleton, forall_eq]
      exact cont_ofNat (by omega) (by omega)
    · split
      · refine ⟨_, _, rfl, lead_ofNat (by omega) (by omega), ?_⟩
        simp only [List.mem_cons, List.not_mem_nil, or_false, forall_eq_or_imp, forall_eq]
        exact ⟨cont_ofNat (by omega) (by omega), cont_ofNat (by omega) (by omega)⟩
      · refine ⟨_, _, rfl, lead_ofNat (by omega) (by omega), ?_⟩
        simp only [List.mem_cons, List.not_mem_nil, or_false, forall_eq_or_imp, forall_eq]
        exact ⟨cont_ofNat (by omega) (by omega), cont_ofNat (by omega) (by omega), cont_ofNat (by omega) (by omega)⟩

theorem shape (r : Rune) : Shape (encodeRune r) := by
  unfold encodeRune
  split
  · exact shape_valid ‹_›
  · exact shape_valid validRune_runeError

/-- A text which is valid and not empty begins with a first byte. -/
theorem valid_lead {v : Bytes} (h : ValidUtf8 v) (hne : v ≠ []) : ∃ b t, v = b :: t ∧ isCont b = false := by
  obtain ⟨rs, _, rfl⟩ := h
  cases rs with
  | nil => simp at hne
  | cons r rs =>
    obtain ⟨b, t, e, hb, _⟩ := shape r
    exact ⟨b, t ++ encode rs, by rw [encode_cons, e]; rfl, hb⟩

/-- A first byte does not belong to the character before it. -/
theorem decodeRune_stop (b : UInt8) (t : Bytes) {c : UInt8} (hc : isCont c = false) (y : Bytes) :
    decodeRune b (t ++ c :: y) = decodeRune b t := by
  unfold decodeRune
  match t with
  | [] => cases y with
    | nil => simp [hc]
    | cons y0 y => cases y <;> simp [hc]
  | [b1] => cases y <;> simp [hc]
  | [b1, b2] => simp [hc]
  | b1 :: b2 :: b3 :: t => simp

/-- Decoding splits at a first byte. -/
theorem runes_split (x : Bytes) {c : UInt8} (h : isCont c = false) (y : Bytes) :
    runes (x ++ c :: y) = runes x ++ runes (c :: y) := by
  suffices ∀ n (x : Bytes), x.length ≤ n → runes (x ++ c :: y) = runes x ++ runes (c :: y) from this _ x (Nat.le_refl _)
  intro n
  induction n with
  | zero =>
    intro x hx
    have : x = [] := List.eq_nil_of_length_eq_zero (by omega)
    simp [this, runes_nil]
  | succ n ih =>
    intro x hx
    cases x with
    | nil => simp [runes_nil]
    | cons b t =>
      have hw := decodeRune_width_le b t
      rw [List.cons_append, runes_cons, runes_cons, decodeRune_stop b t h y,
        List.drop_append_of_le_length (by omega), ih _ (by simp at hx ⊢; omega)]
      simp

/-! ## Replacements of characters -/

/-- All keys are characters. -/
def Keys (ps : List (Bytes × Bytes)) : Prop := ∀ p ∈ ps, ∃ k, validRune k = true ∧ p.1 = encodeRune k

theorem keys_of {ps : List (Bytes × Bytes)} {ks : List (Rune × List Rune)} (h : ps.mapM keyOf = some ks) : Keys ps := by
  induction ps generalizing ks with
  | nil => intro p hp; simp at hp
  | cons a as ih =>
    rw [List.mapM_cons] at h
    cases ha : keyOf a with
    | none => simp [ha] at h
    | some a' =>
      cases has : as.mapM keyOf with
      | none => simp [ha, has] at h
      | some as' =>
        intro p hp
        rcases List.mem_cons.1 hp with rfl | hp
        · obtain ⟨h1, h2, _⟩ := keyOf_some ha
          exact ⟨a'.1, runes_valid p.1 _ (by rw [h1]; simp), h2.symm⟩
        · exact ih has p hp

theorem lookup_congr {ps : List (Bytes × Bytes)} {s s' : Bytes} {b : Bool}
    (h : ∀ p ∈ ps, hasPrefix s p.1 = hasPrefix s' p.1) : lookupKey ps s b = lookupKey ps s' b := by
  unfold lookupKey
  congr 1
  induction ps with
  | nil => rfl
  | cons p ps ih =>
    simp only [List.find?_cons, h p (by simp)]
    rw [ih fun q hq => h q (by simp [hq])]

/-- A key does not reach over a first byte. -/
theorem prefix_stop {k : Bytes} (hk : Shape k) (a : UInt8) (x : Bytes) {c : UInt8} (hc : isCont c = false) (y : Bytes) :
    hasPrefix (a :: x ++ c :: y) k = hasPrefix (a :: x) k := by
  obtain ⟨b, t, rfl, _, ht⟩ := hk
  rw [Bool.eq_iff_iff, hasPrefix_iff, hasPrefix_iff, List.cons_append, List.cons_prefix_cons, List.cons_prefix_cons]
  refine and_congr_right fun _ => ⟨fun h => ?_, fun h => h.trans (List.prefix_append _ _)⟩
  by_cases hl : t.length ≤ x.length
  · exact List.prefix_of_prefix_length_le h (List.prefix_append _ _) hl
  · exfalso
    obtain ⟨z, hz⟩ := h
    have e1 : t[x.length]'(by omega) = c := by
      have : (t ++ z)[x.length]? = some c := by rw [hz]; simp
      rw [List.getElem?_append_left (by omega)] at this
      rw [List.getElem?_eq_some_iff] at this
      exact this.2
    have := ht _ (List.getElem_mem (l := t) (n := x.length) (by omega))
    rw [e1, hc] at this
    contradiction

theorem lookup_len {ps : List (Bytes × Bytes)} {s v : Bytes} {n : Nat} {b : Bool} (h : lookupKey ps s b = some (v, n)) :
    ∃ p ∈ ps, v = p.2 ∧ n = p.1.length ∧ p.1 <+: s := by
  unfold lookupKey at h
  rw [Option.map_eq_some_iff] at h
  obtain ⟨p, hp, e⟩ := h
  have := List.find?_some hp
  simp only [Bool.and_eq_true, hasPrefix_iff] at this
  cases e
  exact ⟨p, List.mem_of_find?_eq_some hp, rfl, rfl, this.1⟩

theorem replace_nil {ps : List (Bytes × Bytes)} (hk : Keys ps) (k : Nat) : replaceFrom ps k [] = [] := by
  have : replaceFrom ps k [] = replacePairs ps [] := by cases k <;> rfl
  rw [this]
  exact replacePairs_nil fun p hp => by
    obtain ⟨r, _, e⟩ := hk p hp
    rw [e]; exact encodeRune_ne_nil r

/-- Replacement splits at a first byte. -/
theorem replace_split {ps : List (Bytes × Bytes)} (hk : Keys ps) {c : UInt8} (hc : isCont c = false) (y : Bytes) :
    ∀ (x : Bytes) (k : Nat), k ≤ x.length → replaceFrom ps k (x ++ c :: y) = replaceFrom ps k x ++ replaceFrom ps 0 (c :: y)
  | [], 0, _ => by rw [replace_nil hk]; rfl
  | a :: x, k + 1, h => by
    have := replace_split hk hc y x k (by simpa using h)
    simpa [replaceFrom] using this
  | a :: x, 0, _ => by
    have e : ∀ b, lookupKey ps (a :: (x ++ c :: y)) b = lookupKey ps (a :: x) b := fun b => by
      refine lookup_congr fun p hp => ?_
      obtain ⟨r, _, e⟩ := hk p hp
      rw [e]
      exact prefix_stop (shape r) a x hc y
    rw [List.cons_append, replaceFrom, replaceFrom, e]
    cases hl : lookupKey ps (a :: x) false with
    | none => simp only [List.cons_append, replace_split hk hc y x 0 (by omega)]
    | some vn =>
      obtain ⟨v, n⟩ := vn
      obtain ⟨p, hp, rfl, rfl, hx⟩ := lookup_len hl
      obtain ⟨r, _, e⟩ := hk p hp
      have h0 := encodeRune_length_pos r
      have hlen := hx.length_le
      rw [← e] at h0
      cases hn : p.1.length with
      | zero => omega
      | succ m =>
        rw [hn] at hlen
        simp only [replace_split hk hc y x m (by simpa using hlen), List.append_assoc]

/-- Continuation bytes without a first byte stay. -/
theorem replace_cont {ps : List (Bytes × Bytes)} (hk : Keys ps) (y : Bytes) : ∀ t : Bytes, (∀ c ∈ t, isCont c = true) →
    replaceFrom ps 0 (t ++ y) = t ++ replaceFrom ps 0 y
  | [], _ => rfl
  | a :: t, h => by
    have e : lookupKey ps (a :: (t ++ y)) false = none := by
      cases hl : lookupKey ps (a :: (t ++ y)) false with
      | none => rfl
      | some vn =>
        obtain ⟨v, n⟩ := vn
        obtain ⟨p, hp, _, _, hx⟩ := lookup_len hl
        obtain ⟨r, _, e⟩ := hk p hp
        obtain ⟨b, u, e', hb, _⟩ := shape r
        rw [e, e', List.cons_prefix_cons] at hx
        rw [hx.1, h a (by simp)] at hb
        contradiction
    rw [List.cons_append, replaceFrom, e]
    simp only [replace_cont hk y t fun c hc => h c (by simp [hc]), List.cons_append]

theorem replace_skip (ps : List (Bytes × Bytes)) (y : Bytes) : ∀ t : Bytes,
    replaceFrom ps t.length (t ++ y) = replaceFrom ps 0 y
  | [] => rfl
  | _ :: t => by simpa [replaceFrom] using replace_skip ps y t

/-- What one character is replaced by. -/
def image (ps : List (Bytes × Bytes)) (c : Rune) : Bytes :=
  ((ps.find? fun p => p.1 == encodeRune c).map (·.2)).getD (encodeRune c)

theorem replace_rune {ps : List (Bytes × Bytes)} (hk : Keys ps) {c : Rune} (hc : validRune c = true) (y : Bytes) :
    replaceFrom ps 0 (encodeRune c ++ y) = image ps c ++ replaceFrom ps 0 y := by
  obtain ⟨b, t, e, hb, ht⟩ := shape c
  have hp : ∀ p ∈ ps, hasPrefix (encodeRune c ++ y) p.1 = (p.1 == encodeRune c) := by
    intro p hp
    obtain ⟨r, hr, er⟩ := hk p hp
    rw [Bool.eq_iff_iff, hasPrefix_iff, beq_iff_eq]
    constructor
    · rintro ⟨z, hz⟩
      rw [er] at hz ⊢
      have := congrArg runes hz
      have h1 := runes_encode_append (rs := [r]) (by simpa using hr) z
      have h2 := runes_encode_append (rs := [c]) (by simpa using hc) y
      simp only [encode_cons, encode_nil, List.append_nil] at h1 h2
      rw [h1, h2] at this
      simp at this
      rw [this.1]
    · intro h
      rw [h]
      exact List.prefix_append _ _
  have hf : lookupKey ps (encodeRune c ++ y) false =
      (ps.find? fun p => p.1 == encodeRune c).map fun p => (p.2, p.1.length) := by
    unfold lookupKey
    congr 1
    clear hk
    induction ps with
    | nil => rfl
    | cons p ps ih =>
      simp only [List.find?_cons, hp p (by simp), Bool.false_and, Bool.not_false, Bool.and_true]
      have := ih fun q hq => hp q (by simp [hq])
      simp only [Bool.false_and, Bool.not_false, Bool.and_true] at this
      rw [this]
  unfold image
  rw [e] at hf ⊢
  rw [List.cons_append] at hf ⊢
  rw [replaceFrom, hf]
  cases hx : ps.find? fun p => p.1 == b :: t with
  | none => simp [replace_cont hk y t ht]
  | some p =>
    have := List.find?_some hx
    simp only [beq_iff_eq] at this
    simp [this, replace_skip]

theorem replace_around {ps : List (Bytes × Bytes)} (hk : Keys ps) {c : Rune} (hc : validRune c = true) (x y : Bytes) :
    replacePairs ps (x ++ (encodeRune c ++ y)) = replacePairs ps x ++ (image ps c ++ replacePairs ps y) := by
  obtain ⟨b, t, e, hb, ht⟩ := shape c
  unfold replacePairs
  rw [← replace_rune hk hc, e, List.cons_append]
  exact replace_split hk hb _ x 0 (Nat.zero_le _)

/-- The image in runes. -/
theorem image_keys {ps : List (Bytes × Bytes)} {ks : List (Rune × List Rune)} (h : ps.mapM keyOf = some ks) {c : Rune}
    (hc : validRune c = true) : ValidUtf8 (image ps c) ∧ image ps c ≠ [] ∧
      runes (image ps c) = ks.foldr (fun p r => cond (Nat.beq p.1 c) p.2 r) [c] := by
  have h1 := runes_encode (rs := [c]) (by simpa using hc)
  simp only [encode_cons, encode_nil, List.append_nil] at h1
  induction ps generalizing ks with
  | nil =>
    simp at h
    subst h
    exact ⟨encodeRune_validUtf8 c, encodeRune_ne_nil c, h1⟩
  | cons a as ih =>
    rw [List.mapM_cons] at h
    cases ha : keyOf a with
    | none => simp [ha] at h
    | some a' =>
      cases has : as.mapM keyOf with
      | none => simp [ha, has] at h
      | some as' =>
        simp [ha, has] at h
        subst h
        obtain ⟨g1, g2, g3, g4, g5⟩ := keyOf_some ha
        by_cases hx : a.1 = encodeRune c
        · have : a'.1 = c := by rw [hx, h1] at g1; simpa using g1.symm
          simp [image, hx, this, g3, g4, g5]
        · have hn : Nat.beq a'.1 c = false := by
            rw [Bool.eq_false_iff]
            intro hb
            rw [Nat.beq_eq] at hb
            exact hx (by rw [← g2, hb])
          have : image (a :: as) c = image as c := by simp [image, hx]
          rw [this]
          simp only [List.foldr_cons, hn, cond_false]
          exact ih has

end Verif.Case
