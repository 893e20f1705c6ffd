import Verif.Go.Json
import Verif.Spec.Json
import Verif.Proofs.JsText

/-! Proofs about `manifest.json` (C74). -/

namespace Verif.Json

open Verif.Js hiding chars
open Verif.Spec.Json

/-! ## Strings -/

theorem skip_cons {c : Rune} {s : List Rune} (h : white c = false) : skip (c :: s) = c :: s := by
  simp [skip, h]

theorem chars_quote (s : List Rune) : chars (0x22 :: s) = some ([], s) := by
  unfold chars; rfl

theorem chars_escape {c : Rune} {u : Nat} (hc : c ≠ 0x75) (he : escape c = some u) (s : List Rune) :
    chars (0x5C :: c :: s) = (chars s).map fun x => (u :: x.1, x.2) := by
  rw [Spec.Json.chars.eq_4 _ _ (by intro a b c d rest h; exact absurd h hc)]
  rw [he]
  cases chars s <;> rfl

theorem chars_hex {a b c d : Rune} {i j k l : Nat} (ha : digit a = some i) (hb : digit b = some j) (hc : digit c = some k)
    (hd : digit d = some l) (s : List Rune) :
    chars (0x5C :: 0x75 :: a :: b :: c :: d :: s) =
      (chars s).map fun x => ((i * 0x1000 + j * 0x100 + k * 0x10 + l) :: x.1, x.2) := by
  rw [Spec.Json.chars.eq_3, ha, hb, hc, hd]
  cases chars s <;> rfl

theorem chars_plain {c : Rune} (h1 : c ≠ 0x22) (h2 : c ≠ 0x5C) (h3 : ¬ c < 0x20) (s : List Rune) :
    chars (c :: s) = (chars s).map fun x => (unitsOf c ++ x.1, x.2) := by
  rw [Spec.Json.chars.eq_5 _ _ (by simpa using h1) (by intro _ _ _ _ _ h; exact absurd h h2) (by intro _ _ h; exact absurd h h2)]
  simp only [h2, h3, or_self, if_false]
  cases chars s <;> rfl

theorem digit_hex {n : Nat} (h : n < 16) : digit (hex n) = some n := by
  unfold hex digit
  split
  · rw [if_pos (by omega)]; congr 1; omega
  · rw [if_neg (by omega), if_pos (by omega)]; congr 1; omega

theorem units_small {r : Rune} (h : r < 0x10000) : unitsOf r = [r] := by simp [unitsOf, h]

theorem chars_quoteRune (short : Bool) (x : Rune × Nat) (s : List Rune) :
    chars (quoteRune short x ++ s) = (chars s).map fun y => (unitsOf x.1 ++ y.1, y.2) := by
  obtain ⟨r, n⟩ := x
  unfold quoteRune
  simp only
  have esc : ∀ c : Rune, c ≠ 0x75 → escape c = some r → r < 0x10000 → chars ([0x5C, c] ++ s) =
      (chars s).map fun y => (unitsOf r ++ y.1, y.2) := by
    intro c h1 h2 h3
    rw [units_small h3]
    exact chars_escape h1 h2 s
  split
  · rename_i h
    rcases h with h | h <;> subst h <;> exact esc _ (by decide) (by decide) (by decide)
  split
  · rename_i h; subst h; exact esc _ (by decide) (by decide) (by decide)
  split
  · rename_i h; subst h; exact esc _ (by decide) (by decide) (by decide)
  split
  · rename_i h; subst h; exact esc _ (by decide) (by decide) (by decide)
  split
  · rename_i h; obtain ⟨h, _⟩ := h; subst h; exact esc _ (by decide) (by decide) (by decide)
  split
  · rename_i h; obtain ⟨h, _⟩ := h; subst h; exact esc _ (by decide) (by decide) (by decide)
  rename_i g1 _ _ _ _ _
  split
  · rename_i h
    have hr : r < 0x80 := by omega
    have := chars_hex (a := 0x30) (b := 0x30) (i := 0) (j := 0) (by decide) (by decide) (digit_hex (n := r / 16) (by omega))
      (digit_hex (n := r % 16) (by omega)) s
    rw [units_small (by omega)]
    simp only [List.cons_append, List.nil_append]
    rw [this, show 0 * 0x1000 + 0 * 0x100 + r / 16 * 0x10 + r % 16 = r by omega]
  rename_i g2
  split
  · rename_i h
    obtain ⟨h, _⟩ := h
    subst h
    exact chars_hex (a := 0x66) (b := 0x66) (c := 0x66) (d := 0x64) (i := 15) (j := 15) (k := 15) (l := 13) (by decide) (by decide) (by decide) (by decide) s
  split
  · rename_i h
    have := chars_hex (a := 0x32) (b := 0x30) (c := 0x32) (i := 2) (j := 0) (k := 2) (by decide) (by decide) (by decide)
      (digit_hex (n := r % 16) (by omega)) s
    rw [units_small (by omega)]
    simp only [List.cons_append, List.nil_append]
    rw [this, show 2 * 0x1000 + 0 * 0x100 + 2 * 0x10 + r % 16 = r by omega]
  · exact chars_plain (by omega) (by omega) (by omega) s

theorem chars_quoted (short : Bool) : ∀ (ds : List (Rune × Nat)) (s : List Rune),
    chars (ds.flatMap (quoteRune short) ++ 0x22 :: s) = some (units (ds.map (·.1)), s)
  | [], s => chars_quote s
  | d :: ds, s => by
    rw [List.flatMap_cons, List.append_assoc, chars_quoteRune, chars_quoted short ds s]
    rfl

theorem chars_string (short : Bool) (s : Bytes) (rest : List Rune) :
    chars ((decode s).flatMap (quoteRune short) ++ 0x22 :: rest) = some (units (runes s), rest) := chars_quoted short _ rest

/-- The value which a string of Go is in JSON. -/
def text (s : Bytes) : Value := .string (units (runes s))

/-! ## Values -/

/-- A text which is read as a value, whatever comes after it. -/
def Reads (t : List Rune) (v : Value) : Prop :=
  ((∃ c t', t = c :: t' ∧ white c = false ∧ c ≠ 0x5D) ∧ ∀ r ∈ t, validRune r = true) ∧ ∀ n rest, t.length ≤ n → value n (t ++ rest) = some (v, rest)

theorem hex_small {n : Nat} (h : n < 16) : hex n < 0x67 := by
  unfold hex; split <;> omega

theorem validRune_small {r : Rune} (h : r < 0xD800) : validRune r = true := by simp [validRune, h]

theorem quoteRune_valid (short : Bool) {r : Rune} {n : Nat} (h : validRune r = true) : ∀ c ∈ quoteRune short (r, n), validRune c = true := by
  have h1 := hex_small (n := r % 16) (by omega)
  unfold quoteRune
  intro c hc
  simp only at hc
  split at hc
  · simp only [List.mem_cons, List.not_mem_nil, or_false] at hc
    rcases hc with rfl | rfl
    · decide
    · exact h
  iterate 5
    split at hc
    · simp only [List.mem_cons, List.not_mem_nil, or_false] at hc
      rcases hc with rfl | rfl <;> decide
  split at hc
  · have h2 := hex_small (n := r / 16) (by omega)
    simp only [List.mem_cons, List.not_mem_nil, or_false] at hc
    apply validRune_small
    omega
  split at hc
  · simp only [List.mem_cons, List.not_mem_nil, or_false] at hc
    apply validRune_small
    omega
  split at hc
  · simp only [List.mem_cons, List.not_mem_nil, or_false] at hc
    apply validRune_small
    omega
  · simp only [List.mem_cons, List.not_mem_nil, or_false] at hc
    rw [hc]; exact h

theorem string_valid (short : Bool) (s : Bytes) : ∀ c ∈ string short s, validRune c = true := by
  intro c hc
  simp only [string, List.mem_append, List.mem_singleton, List.mem_flatMap] at hc
  rcases hc with (rfl | ⟨⟨r, n⟩, h1, h2⟩) | rfl
  · decide
  · exact quoteRune_valid short (runes_valid s r (List.mem_map.2 ⟨_, h1, rfl⟩)) c h2
  · decide

theorem commas_valid : ∀ {ts : List (List Rune)}, (∀ t ∈ ts, ∀ c ∈ t, validRune c = true) → ∀ c ∈ commas ts, validRune c = true
  | [], _, c, hc => by simp [commas] at hc
  | [t], h, c, hc => h t (by simp) c hc
  | t :: u :: ts, h, c, hc => by
    simp only [commas, List.mem_append, List.mem_cons] at hc
    rcases hc with hc | rfl | hc
    · exact h t (by simp) c hc
    · decide
    · exact commas_valid (ts := u :: ts) (fun t ht => h t (by simp only [List.mem_cons] at ht ⊢; exact .inr ht)) c hc

theorem reads_string (short : Bool) (s : Bytes) : Reads (string short s) (text s) := by
  refine ⟨⟨⟨0x22, _, rfl, by decide, by decide⟩, string_valid short s⟩, ?_⟩
  intro n rest h
  cases n with
  | zero => simp [string] at h
  | succ n =>
    have e : string short s ++ rest = 0x22 :: ((decode s).flatMap (quoteRune short) ++ 0x22 :: rest) := by
      simp [string]
    rw [e, value, skip_cons (by decide)]
    simp only [chars_string]
    rfl

theorem reads_null : Reads null .null := by
  refine ⟨⟨⟨0x6E, _, rfl, by decide, by decide⟩, by decide⟩, ?_⟩
  intro n rest h
  cases n with
  | zero => simp [null] at h
  | succ n =>
    rw [null, List.cons_append, value, skip_cons (by decide)]
    rfl

theorem skip_reads {t : List Rune} {v : Value} (h : Reads t v) (s : List Rune) : skip (t ++ s) = t ++ s := by
  obtain ⟨⟨⟨c, t', rfl, hc, _⟩, _⟩, _⟩ := h
  exact skip_cons hc

/-- Texts which are read as some values. -/
inductive All : List (List Rune) → List Value → Prop
  | nil : All [] []
  | cons {t : List Rune} {v : Value} {ts : List (List Rune)} {vs : List Value} (h : Reads t v) (rest : All ts vs) :
      All (t :: ts) (v :: vs)

theorem commas_cons (t u : List Rune) (ts : List (List Rune)) : commas (t :: u :: ts) = t ++ 0x2C :: commas (u :: ts) := rfl

theorem reads_items {ts : List (List Rune)} {vs : List Value} (h : All ts vs) : ts ≠ [] → ∀ n rest, (commas ts).length + 1 ≤ n →
    items n (commas ts ++ 0x5D :: rest) = some (vs, rest) := by
  induction h with
  | nil => intro h; exact absurd rfl h
  | @cons t v ts vs ht hts ih =>
    intro _ n rest hn
    obtain ⟨n, rfl⟩ : ∃ m, n = m + 1 := ⟨n - 1, by omega⟩
    cases hts with
    | nil =>
      simp only [commas] at hn ⊢
      rw [items, ht.2 n _ (by omega)]
      simp [skip_cons (c := 0x5D) (by decide)]
    | cons hu hus =>
      rw [commas_cons] at hn ⊢
      simp only [List.length_append, List.length_cons] at hn
      rw [List.append_assoc, items, ht.2 n _ (by omega)]
      have := ih (by simp) n rest (by omega)
      simp only [Option.bind_eq_bind, Option.bind_some, List.cons_append, skip_cons (c := 0x2C) (by decide), this]
      rfl

theorem All.valid {ts : List (List Rune)} {vs : List Value} (h : All ts vs) : ∀ t ∈ ts, ∀ c ∈ t, validRune c = true := by
  induction h with
  | nil => simp
  | cons h _ ih =>
    intro t ht
    rcases List.mem_cons.1 ht with rfl | ht
    · exact h.1.2
    · exact ih t ht

theorem reads_array {ts : List (List Rune)} {vs : List Value} (h : All ts vs) : Reads (array ts) (.array vs) := by
  refine ⟨⟨⟨0x5B, _, rfl, by decide, by decide⟩, ?_⟩, ?_⟩
  · intro c hc
    simp only [array, List.mem_cons, List.mem_append, List.not_mem_nil, or_false] at hc
    rcases hc with rfl | hc | rfl
    · decide
    · exact commas_valid h.valid c hc
    · decide
  intro n rest hn
  simp only [array, List.length_cons, List.length_append, List.length_nil] at hn
  obtain ⟨n, rfl⟩ : ∃ m, n = m + 1 := ⟨n - 1, by omega⟩
  have e : array ts ++ rest = 0x5B :: (commas ts ++ 0x5D :: rest) := by simp [array]
  rw [e, value, skip_cons (by decide)]
  cases h with
  | nil => simp [commas, skip_cons (c := 0x5D) (by decide)]
  | @cons t v ts vs ht hts =>
    have hs : skip (commas (t :: ts) ++ 0x5D :: rest) = commas (t :: ts) ++ 0x5D :: rest := by
      cases ts with
      | nil => exact skip_reads ht _
      | cons u us => rw [commas_cons, List.append_assoc]; exact skip_reads ht _
    have hr := reads_items (All.cons ht hts) (by simp) n rest (by omega)
    obtain ⟨⟨⟨c, t', rfl, _, hc⟩, _⟩, _⟩ := ht
    obtain ⟨w, hw⟩ : ∃ w, commas ((c :: t') :: ts) ++ 0x5D :: rest = c :: w := by
      cases ts with
      | nil => exact ⟨_, rfl⟩
      | cons u us => exact ⟨_, rfl⟩
    simp only
    rw [hs, hr, hw]
    split
    · rename_i h; simp only [List.cons.injEq] at h; exact absurd h.1 hc
    · rfl

/-- The values of fields are read as some values. -/
inductive AllFields : List (Bytes × List Rune) → List (Str × Value) → Prop
  | nil : AllFields [] []
  | cons {k : Bytes} {t : List Rune} {v : Value} {ts : List (Bytes × List Rune)} {vs : List (Str × Value)} (h : Reads t v)
      (new : vs.lookup (units (runes k)) = none) (rest : AllFields ts vs) : AllFields ((k, t) :: ts) ((units (runes k), v) :: vs)

theorem reads_fields (short : Bool) {ts : List (Bytes × List Rune)} {vs : List (Str × Value)} (h : AllFields ts vs) : ts ≠ [] →
    ∀ n rest, (commas (ts.map fun f => string short f.1 ++ 0x3A :: f.2)).length + 1 ≤ n →
    fields n (commas (ts.map fun f => string short f.1 ++ 0x3A :: f.2) ++ 0x7D :: rest) = some (vs, rest) := by
  induction h with
  | nil => intro h; exact absurd rfl h
  | @cons k t v ts vs ht hnew hts ih =>
    intro _ n rest hn
    obtain ⟨n, rfl⟩ : ∃ m, n = m + 1 := ⟨n - 1, by omega⟩
    have key : ∀ s : List Rune, string short k ++ 0x3A :: t ++ s =
        0x22 :: ((decode k).flatMap (quoteRune short) ++ 0x22 :: 0x3A :: (t ++ s)) := by intro s; simp [string]
    cases hts with
    | nil =>
      simp only [List.map_cons, List.map_nil, commas] at hn ⊢
      simp only [List.length_append, List.length_cons] at hn
      rw [key, fields, skip_cons (by decide)]
      simp only [chars_string, Option.bind_eq_bind, Option.bind_some, skip_cons (c := 0x3A) (by decide), ht.2 n _ (by omega),
        skip_cons (c := 0x7D) (by decide)]
      rfl
    | @cons k' t' v' ts vs ht' hnew' hts =>
      simp only [List.map_cons] at hn ⊢
      rw [commas_cons] at hn ⊢
      simp only [List.length_append, List.length_cons] at hn
      rw [List.append_assoc, key, fields, skip_cons (by decide)]
      have := ih (by simp) n rest (by simp only [List.map_cons]; omega)
      simp only [List.map_cons] at this
      simp only [chars_string, Option.bind_eq_bind, Option.bind_some, skip_cons (c := 0x3A) (by decide), ht.2 n _ (by omega),
        List.cons_append, skip_cons (c := 0x2C) (by decide), this, hnew, Option.isSome_none, Bool.false_eq_true, if_false]
      rfl

theorem AllFields.valid (short : Bool) {ts : List (Bytes × List Rune)} {vs : List (Str × Value)} (h : AllFields ts vs) :
    ∀ t ∈ ts.map (fun f => string short f.1 ++ 0x3A :: f.2), ∀ c ∈ t, validRune c = true := by
  induction h with
  | nil => simp
  | @cons k t v ts vs h _ _ ih =>
    intro t' ht
    rcases List.mem_cons.1 ht with rfl | ht
    · intro c hc
      simp only [List.mem_append, List.mem_cons] at hc
      rcases hc with hc | rfl | hc
      · exact string_valid short _ c hc
      · decide
      · exact h.1.2 c hc
    · exact ih t' ht

theorem reads_object (short : Bool) {ts : List (Bytes × List Rune)} {vs : List (Str × Value)} (h : AllFields ts vs) :
    Reads (object short ts) (.object vs) := by
  refine ⟨⟨⟨0x7B, _, rfl, by decide, by decide⟩, ?_⟩, ?_⟩
  · intro c hc
    simp only [object, List.mem_cons, List.mem_append, List.not_mem_nil, or_false] at hc
    rcases hc with rfl | hc | rfl
    · decide
    · exact commas_valid (h.valid short) c hc
    · decide
  intro n rest hn
  simp only [object, List.length_cons, List.length_append, List.length_nil] at hn
  obtain ⟨n, rfl⟩ : ∃ m, n = m + 1 := ⟨n - 1, by omega⟩
  have e : object short ts ++ rest = 0x7B :: (commas (ts.map fun f => string short f.1 ++ 0x3A :: f.2) ++ 0x7D :: rest) := by
    simp [object]
  rw [e, value, skip_cons (by decide)]
  cases h with
  | nil => simp [commas, skip_cons (c := 0x7D) (by decide)]
  | @cons k t v ts vs ht hnew hts =>
    have hr := reads_fields short (AllFields.cons ht hnew hts) (by simp) n rest (by omega)
    obtain ⟨w, hw⟩ : ∃ w, commas (((k, t) :: ts).map fun f => string short f.1 ++ 0x3A :: f.2) ++ 0x7D :: rest = 0x22 :: w := by
      cases ts with
      | nil => exact ⟨_, rfl⟩
      | cons u us => exact ⟨_, rfl⟩
    simp only
    rw [hw] at hr ⊢
    rw [skip_cons (by decide), hr]
    rfl

/-- A text with a newline after it is the value. -/
theorem parse_reads {t : List Rune} {v : Value} (h : Reads t v) : parse (runes (encode (t ++ [0x0A]))) = some v := by
  rw [runes_encode (by
    intro r hr
    rcases List.mem_append.1 hr with hr | hr
    · exact h.1.2 r hr
    · rw [List.mem_singleton.1 hr]; decide)]
  unfold parse
  rw [h.2 _ _ (by simp; omega)]
  rfl

end Verif.Json
