import Verif.Model.Address
import Verif.Spec.Wasm
import Verif.Proofs.JsBroken
import Verif.Proofs.JsText

/-! # The address of the page -/

namespace Verif.Address

open Verif.Js Verif.Spec.Wasm Verif.Wasm

theorem spells_iff (s : Str) : (∃ rs, Spells s rs) ↔ Spells s (chars s) := by
  constructor
  · rintro ⟨rs, h⟩
    rw [chars_spells h]
    exact h
  · exact fun h => ⟨_, h⟩

theorem usv_spells {s : Str} {rs : List Rune} (h : Spells s rs) : usv s = s := by
  unfold usv
  rw [chars_spells h]
  induction h with
  | nil => rfl
  | basic h rest ih =>
    simp only [units, List.flatMap_cons] at ih ⊢
    rw [ih]
    simp only [unitsOf]
    rw [if_pos (by omega)]
    rfl
  | @pair u v s rs hu hv rest ih =>
    simp only [units, List.flatMap_cons] at ih ⊢
    rw [ih]
    simp only [unitsOf]
    rw [if_neg (by omega)]
    simp only [List.cons_append, List.nil_append, List.cons.injEq, and_true]
    omega

theorem decodeBytes_valid (s : Bytes) : ∀ r ∈ decodeBytes none s, validRune r = true := by
  intro r hr
  by_cases he : r = runeError
  · subst he; decide
  · have h1 : r ∈ intact (decodeBytes none s) := by simp [intact, hr, he]
    rw [intact_decode s.length s (Nat.le_refl _)] at h1
    simp only [intact, List.mem_filter] at h1
    exact runes_valid s r h1.1

theorem formValue_spells (s : Bytes) : ∃ rs, Spells (formValue s) rs := ⟨_, spells_units (decodeBytes_valid _)⟩

theorem hexValue_hexDigit : ∀ n : Fin 16, hexValue (hexDigit n.1) = some n.1 := by decide

theorem plain_ne {b : UInt8} (h : plainByte b = true) : b ≠ 0x25 ∧ b ≠ 0x2B ∧ b ≠ 0x26 ∧ b ≠ 0x3D ∧ b ≠ 0x20 := by
  refine ⟨?_, ?_, ?_, ?_, ?_⟩ <;> rintro rfl <;> revert h <;> decide

theorem hexDigit_plain : ∀ n : Fin 16, plainByte (hexDigit n.1) = true := by decide

/-- The bytes of a serialized text. -/
def formSafe (b : UInt8) : Bool := plainByte b || b == 0x25 || b == 0x2B

theorem formByte_safe (b : UInt8) : ∀ c ∈ formByte b, formSafe c = true := by
  intro c hc
  unfold formByte at hc
  split at hc
  · simp at hc; subst hc; decide
  · split at hc
    · rename_i h; simp at hc; subst hc; simp [formSafe, h]
    · have h1 := hexDigit_plain ⟨b.toNat / 16, by have := b.toNat_lt; omega⟩
      have h2 := hexDigit_plain ⟨b.toNat % 16, by omega⟩
      simp only [percent, List.mem_cons, List.not_mem_nil, or_false] at hc
      rcases hc with rfl | rfl | rfl
      · decide
      · simp [formSafe, h1]
      · simp [formSafe, h2]

theorem formText_safe (s : Str) : ∀ c ∈ formText s, formSafe c = true := by
  intro c hc
  simp only [formText, List.mem_flatMap] at hc
  obtain ⟨b, _, h⟩ := hc
  exact formByte_safe b c h

theorem percentDecode_cons {b : UInt8} (h : b ≠ 0x25) (s : Bytes) : percentDecode (b :: s) = b :: percentDecode s := by
  match s with
  | [] => simp [percentDecode]
  | [x] => simp [percentDecode]
  | x :: y :: rest => simp [percentDecode, h]

theorem percentDecode_percent (b : UInt8) (s : Bytes) : percentDecode (percent b ++ s) = b :: percentDecode s := by
  have h1 := hexValue_hexDigit ⟨b.toNat / 16, by have := b.toNat_lt; omega⟩
  have h2 := hexValue_hexDigit ⟨b.toNat % 16, by omega⟩
  simp only at h1 h2
  simp only [percent, List.cons_append, List.nil_append, percentDecode, if_pos, h1, h2]
  rw [show b.toNat / 16 * 16 + b.toNat % 16 = b.toNat by omega]
  simp

/-- A plus sign stands for a blank. -/
def blank (b : UInt8) : UInt8 := if b = 0x2B then 0x20 else b

theorem blank_plain {b : UInt8} (h : plainByte b = true) : blank b = b := by
  simp [blank, (plain_ne h).2.1]

theorem decode_formByte (b : UInt8) (s : Bytes) : percentDecode ((formByte b).map blank ++ s) = b :: percentDecode s := by
  unfold formByte
  split
  · rename_i h
    subst h
    exact percentDecode_cons (by decide) s
  · split
    · rename_i h
      simp only [List.map_cons, List.map_nil, blank_plain h, List.cons_append, List.nil_append]
      exact percentDecode_cons (plain_ne h).1 s
    · have h1 := hexDigit_plain ⟨b.toNat / 16, by have := b.toNat_lt; omega⟩
      have h2 := hexDigit_plain ⟨b.toNat % 16, by omega⟩
      have : (percent b).map blank = percent b := by
        simp only [percent, List.map_cons, List.map_nil, blank_plain h1, blank_plain h2]
        rfl
      rw [this]
      exact percentDecode_percent b s

theorem decode_form (s : Bytes) : percentDecode ((s.flatMap formByte).map blank) = s := by
  induction s with
  | nil => rfl
  | cons b s ih => rw [List.flatMap_cons, List.map_append, decode_formByte, ih]

theorem formValue_formText {s : Str} (h : ∃ rs, Spells s rs) : formValue (formText s) = s := by
  rw [spells_iff] at h
  unfold formValue formText
  have : ((encodeText s).flatMap formByte).map (fun b => if b = 0x2B then 0x20 else b) =
      ((encodeText s).flatMap formByte).map blank := rfl
  rw [this, decode_form, encodeText, decodeBytes_encode (spells_valid h)]
  exact usv_spells h

theorem cut_append {c : UInt8} {a b : Bytes} (h : c ∉ a) : cut c (a ++ c :: b) = (a, b) := by
  induction a with
  | nil => simp [cut]
  | cons x a ih =>
    simp only [List.mem_cons, not_or] at h
    simp [cut, Ne.symm h.1, ih h.2]

theorem splitOn_none {c : UInt8} {a : Bytes} (h : c ∉ a) : splitOn c a = [a] := by
  induction a with
  | nil => rfl
  | cons x a ih =>
    simp only [List.mem_cons, not_or] at h
    simp [splitOn, Ne.symm h.1, ih h.2]

theorem splitOn_append {c : UInt8} {a b : Bytes} (h : c ∉ a) : splitOn c (a ++ c :: b) = a :: splitOn c b := by
  induction a with
  | nil => simp [splitOn]
  | cons x a ih =>
    simp only [List.mem_cons, not_or] at h
    simp [splitOn, Ne.symm h.1, ih h.2]

theorem safe_not_mem {s : Bytes} (h : ∀ c ∈ s, formSafe c = true) : 0x26 ∉ s ∧ 0x3D ∉ s := by
  constructor <;> intro hm <;> have := h _ hm <;> revert this <;> decide

/-- Parameters of whole characters. -/
def Params.Whole (ps : Params) : Prop := ∀ p ∈ ps, (∃ rs, Spells p.1 rs) ∧ ∃ rs, Spells p.2 rs

theorem pair_no_amp (n v : Str) : 0x26 ∉ formText n ++ 0x3D :: formText v := by
  simp only [List.mem_append, List.mem_cons, not_or]
  exact ⟨(safe_not_mem (formText_safe n)).1, by decide, (safe_not_mem (formText_safe v)).1⟩

theorem parse_pair {n v : Str} (hn : ∃ rs, Spells n rs) (hv : ∃ rs, Spells v rs) :
    (formValue (cut 0x3D (formText n ++ 0x3D :: formText v)).1, formValue (cut 0x3D (formText n ++ 0x3D :: formText v)).2) = (n, v) := by
  rw [cut_append (safe_not_mem (formText_safe n)).2, formValue_formText hn, formValue_formText hv]

/-- The list comes back from the address. -/
theorem parse_serialize : ∀ (ps : Params), ps.Whole → parse (serialize ps) = ps
  | [], _ => by decide
  | [(n, v)], h => by
    have := h (n, v) (by simp)
    unfold parse serialize
    rw [splitOn_none (pair_no_amp n v)]
    simp [parse_pair this.1 this.2]
  | (n, v) :: p :: rest, h => by
    have h1 := h (n, v) (by simp)
    have ih := parse_serialize (p :: rest) (fun q hq => h q (by simp [hq]))
    have e : serialize ((n, v) :: p :: rest) = (formText n ++ 0x3D :: formText v) ++ 0x26 :: serialize (p :: rest) := by
      simp [serialize]
    rw [e]
    unfold parse at ih ⊢
    rw [splitOn_append (pair_no_amp n v), List.filter_cons, if_pos (by simp), List.map_cons, ih, parse_pair h1.1 h1.2]

/-! ## What a browser makes of an address -/

theorem spells_ascii_mem {s : Str} {rs : List Rune} (h : Spells s rs) {c : Nat} (hc : c < 0x80) (hm : c ∈ rs) : c ∈ s := by
  induction h with
  | nil => simp at hm
  | basic _ _ ih =>
    rcases List.mem_cons.1 hm with rfl | hm
    · simp
    · simp [ih hm]
  | pair hu hv _ ih =>
    rcases List.mem_cons.1 hm with h0 | hm
    · omega
    · simp [ih hm]

theorem encodeText_ascii_mem {s : Str} (h : ∃ rs, Spells s rs) {b : UInt8} (hb : b.toNat < 0x80) (hm : b ∈ encodeText s) :
    b.toNat ∈ s := by
  rw [spells_iff] at h
  have := runes_ascii_mem hb hm
  rw [encodeText, runes_encode (spells_valid h)] at this
  exact spells_ascii_mem h hb this

theorem encodeText_append {a : Str} (h : ∃ rs, Spells a rs) (b : Str) : encodeText (a ++ b) = encodeText a ++ encodeText b := by
  rw [spells_iff] at h
  unfold encodeText
  rw [chars_spells_append h, encode_append]

theorem encodeText_ascii : ∀ (s : Bytes), (∀ b ∈ s, b.toNat < 0x80) → encodeText (s.map UInt8.toNat) = s
  | [], _ => rfl
  | b :: s, h => by
    have hb := h b (by simp)
    have e : encodeText ((b :: s).map UInt8.toNat) = encodeText [b.toNat] ++ encodeText (s.map UInt8.toNat) :=
      encodeText_append (a := [b.toNat]) ⟨[b.toNat], .basic (by omega) .nil⟩ _
    rw [e, encodeText_ascii s fun c hc => h c (by simp [hc])]
    have hx : encodeText [b.toNat] = [b] := by
      unfold encodeText
      rw [chars_spells (.basic (by omega) .nil), encode_cons, encode_nil, List.append_nil,
        encodeRune_valid (by rw [validRune_iff]; omega)]
      simp [encodeValid, hb]
    rw [hx]
    rfl

/-- The bytes which a browser leaves alone in a query. -/
def querySafe (b : UInt8) : Bool := 0x20 < b.toNat && b.toNat < 0x7F && !([0x22, 0x23, 0x27, 0x3C, 0x3E].contains b)

theorem queryByte_safe {b : UInt8} (h : querySafe b = true) : queryByte b = [b] := by
  simp only [querySafe, Bool.and_eq_true, decide_eq_true_eq, Bool.not_eq_true', List.contains_eq_mem,
    decide_eq_false_iff_not] at h
  unfold queryByte
  rw [if_neg]
  rintro (h' | h' | h')
  · omega
  · omega
  · exact h.2 h'

theorem trimEnd_eq {s : Str} (h : ∀ u, s.getLast? = some u → 0x20 < u) : trimEnd s = s := by
  unfold trimEnd
  rw [← List.head?_reverse] at h
  rw [← List.reverse_reverse s]
  generalize s.reverse = t at *
  rw [List.reverse_reverse]
  cases t with
  | nil => rfl
  | cons u t =>
    have := h u rfl
    rw [List.dropWhile_cons_of_neg (by simp; omega)]

theorem takeWhile_not_mem {c : Nat} : ∀ {s : Str}, c ∉ s → s.takeWhile (· ≠ c) = s
  | [], _ => rfl
  | u :: s, h => by
    simp only [List.mem_cons, not_or] at h
    rw [List.takeWhile_cons_of_pos (by simpa using Ne.symm h.1), takeWhile_not_mem h.2]

theorem browse_safe {s : Bytes} (h : ∀ b ∈ s, querySafe b = true) : browse (s.map UInt8.toNat) = s := by
  have hs : ∀ b ∈ s, 0x20 < b.toNat ∧ b.toNat < 0x7F ∧ b ≠ 0x23 := by
    intro b hb
    have := h b hb
    refine ⟨?_, ?_, ?_⟩
    · simp [querySafe] at this; omega
    · simp [querySafe] at this; omega
    · rintro rfl; revert this; decide
  have h23 : 0x23 ∉ s.map UInt8.toNat := by
    simp only [List.mem_map, not_exists, not_and]
    intro b hb e
    exact (hs b hb).2.2 (UInt8.toNat_inj.1 e)
  have e1 : (s.map UInt8.toNat).takeWhile (· ≠ 0x23) = s.map UInt8.toNat := by
    exact takeWhile_not_mem h23
  have e2 : trimEnd (s.map UInt8.toNat) = s.map UInt8.toNat := by
    apply trimEnd_eq
    intro u hu
    have := List.mem_of_getLast? hu
    simp only [List.mem_map] at this
    obtain ⟨b, hb, rfl⟩ := this
    exact (hs b hb).1
  have e3 : (s.map UInt8.toNat).filter (· ∉ [0x09, 0x0A, 0x0D]) = s.map UInt8.toNat := by
    rw [List.filter_eq_self]
    intro u hu
    simp only [List.mem_map] at hu
    obtain ⟨b, hb, rfl⟩ := hu
    have := (hs b hb).1
    simp only [List.mem_cons, List.not_mem_nil, or_false, not_or, decide_eq_true_eq]
    omega
  unfold browse
  simp only [e1, if_neg h23, e2, e3]
  rw [encodeText_ascii s fun b hb => by have := (hs b hb).2.1; omega]
  clear h23 e1 e2 e3 hs
  induction s with
  | nil => rfl
  | cons b s ih =>
    rw [List.flatMap_cons, queryByte_safe (h b (by simp)), ih fun c hc => h c (by simp [hc])]
    rfl

theorem formSafe_querySafe (b : UInt8) (h : formSafe b = true) : querySafe b = true := by
  have key : ∀ n : Fin 256, formSafe (UInt8.ofNat n.1) = true → querySafe (UInt8.ofNat n.1) = true := by decide +kernel
  have := key ⟨b.toNat, b.toNat_lt⟩
  simp only [UInt8.ofNat_toNat] at this
  exact this h

theorem serialize_safe : ∀ (ps : Params), ∀ b ∈ serialize ps, querySafe b = true
  | [], b, h => by simp [serialize] at h
  | [(n, v)], b, h => by
    simp only [serialize, List.mem_append, List.mem_cons] at h
    rcases h with h | rfl | h
    · exact formSafe_querySafe b (formText_safe n b h)
    · decide
    · exact formSafe_querySafe b (formText_safe v b h)
  | (n, v) :: p :: rest, b, h => by
    simp only [serialize, List.mem_append, List.mem_cons, List.append_assoc] at h
    rcases h with h | (rfl | h) | rfl | h
    · exact formSafe_querySafe b (formText_safe n b h)
    · decide
    · exact formSafe_querySafe b (formText_safe v b h)
    · decide
    · exact serialize_safe (p :: rest) b h

theorem navigate_eq (ps : Params) : navigate ps = 0x3F :: serialize ps := by
  apply browse_safe
  intro b hb
  rcases List.mem_cons.1 hb with rfl | hb
  · decide
  · exact serialize_safe ps b hb

theorem params_navigate {ps : Params} (h : ps.Whole) : params (navigate ps) = ps := by
  rw [navigate_eq]
  exact parse_serialize ps h

/-! ## The list -/

theorem get_put_self (n v : Str) : ∀ (ps : Params), (Params.put n v ps).get n = some v
  | [] => by simp [Params.put, Params.get]
  | (n', v') :: rest => by
    unfold Params.put
    split
    · rename_i h; subst h; simp [Params.get]
    · rename_i h
      have ih := get_put_self n v rest
      simp only [Params.get] at ih ⊢
      rw [List.lookup_cons, show (n == n') = false by simpa using Ne.symm h]
      exact ih

theorem lookup_filter_ne {n m : Str} (h : m ≠ n) : ∀ (ps : Params), (ps.filter (·.1 ≠ n)).lookup m = ps.lookup m
  | [] => rfl
  | (n', v') :: rest => by
    rw [List.filter_cons]
    by_cases h1 : n' = n
    · subst h1
      simp only [ne_eq, not_true, decide_false, Bool.false_eq_true, if_false, List.lookup_cons]
      rw [show (m == n') = false by simpa using h]
      exact lookup_filter_ne h rest
    · simp only [ne_eq, h1, not_false_iff, decide_true, if_true, List.lookup_cons]
      rw [← lookup_filter_ne h rest]

theorem get_put_ne {n m : Str} (h : m ≠ n) (v : Str) : ∀ (ps : Params), (Params.put n v ps).get m = ps.get m
  | [] => by simp [Params.put, Params.get, List.lookup_cons, show (m == n) = false by simpa using h]
  | (n', v') :: rest => by
    unfold Params.put
    split
    · rename_i h1
      subst h1
      simp only [Params.get, List.lookup_cons, show (m == n') = false by simpa using h]
      exact lookup_filter_ne h rest
    · have ih := get_put_ne h v rest
      simp only [Params.get] at ih
      simp only [Params.get, List.lookup_cons, ih]

theorem whole_put {n v : Str} (hn : ∃ rs, Spells n rs) (hv : ∃ rs, Spells v rs) : ∀ {ps : Params}, ps.Whole → (Params.put n v ps).Whole
  | [], _ => by
    intro p hp
    simp only [Params.put, List.mem_singleton] at hp
    subst hp
    exact ⟨hn, hv⟩
  | (n', v') :: rest, h => by
    intro p hp
    unfold Params.put at hp
    split at hp
    · rcases List.mem_cons.1 hp with rfl | hp
      · exact ⟨(h (n', v') (by simp)).1, hv⟩
      · exact h p (by simp [(List.mem_filter.1 hp).1])
    · rcases List.mem_cons.1 hp with rfl | hp
      · exact h _ (by simp)
      · exact whole_put hn hv (fun q hq => h q (by simp [hq])) p hp

theorem whole_parse (s : Bytes) : (parse s).Whole := by
  intro p hp
  simp only [parse, List.mem_map] at hp
  obtain ⟨x, _, rfl⟩ := hp
  exact ⟨formValue_spells _, formValue_spells _⟩

theorem whole_params (s : Bytes) : (params s).Whole := by
  unfold params
  split <;> exact whole_parse _

/-! ## The page -/

theorem lit_spells (s : String) : Spells (lit s) (lit s) ↔ ∀ u ∈ lit s, u < 0xD800 ∨ 0xE000 ≤ u ∧ u < 0x10000 := by
  generalize lit s = l
  constructor
  · intro h
    generalize hr : l = rs at h
    have h' : Spells l rs := by rw [hr]; exact h
    clear h
    induction h' with
    | nil => simp
    | basic h _ ih =>
      intro u hu
      rw [List.cons.injEq] at hr
      rw [← hr.2] at hu
      rcases List.mem_cons.1 hu with rfl | hu
      · exact h
      · rw [hr.2] at hu; exact ih hr.2 u hu
    | pair hu hv _ _ =>
      rw [List.cons.injEq] at hr
      omega
  · intro h
    induction l with
    | nil => exact .nil
    | cons u l ih => exact .basic (h u (by simp)) (ih fun v hv => h v (by simp [hv]))

theorem lang_spells : Spells (lit "lang") (lit "lang") := (lit_spells _).2 (by decide)
theorem word_spells : Spells (lit "word") (lit "word") := (lit_spells _).2 (by decide)

theorem set_eq {name value : Str} (hn : ∃ rs, Spells name rs) (hv : ∃ rs, Spells value rs) (ps : Params) :
    ps.set name value = Params.put name value ps := by
  obtain ⟨_, hn⟩ := hn
  obtain ⟨_, hv⟩ := hv
  unfold Params.set
  rw [usv_spells hn, usv_spells hv]

theorem whole_set {ps : Params} (h : ps.Whole) {name value : Str} (hn : ∀ u ∈ name, u < 0x10000) (hv : ∀ u ∈ value, u < 0x10000) :
    (ps.set name value).Whole :=
  whole_put ⟨_, spells_units (chars_valid name hn)⟩ ⟨_, spells_units (chars_valid value hv)⟩ h

/-- What holds between the events. -/
structure Inv (p : Page) : Prop where
  whole : p.captured.Whole
  first : p.first = true → p.captured = params p.search

theorem Inv.params {p : Page} (h : Inv p) : p.params = Address.params p.search := by
  unfold Page.params
  split
  · rename_i hf; exact h.first hf
  · rfl

/-- The strings of an event are strings. -/
def Event.Strings : Event → Prop
  | .effect lang word => (∀ u ∈ lang, u < 0x10000) ∧ ∀ w, word = some w → ∀ u ∈ w, u < 0x10000
  | .change lang word | .click lang word => (∀ u ∈ lang, u < 0x10000) ∧ ∀ u ∈ word, u < 0x10000
  | .goto _ => True

theorem Inv.go {p : Page} (h : Inv p) (search : Bytes) : Inv (p.go search) := by
  refine ⟨h.whole, ?_⟩
  intro hf
  simp only [Page.go, Bool.and_eq_true, decide_eq_true_eq] at hf ⊢
  rw [hf.2]
  exact h.first hf.1

theorem Inv.moved {p : Page} {ps : Params} (h : ps.Whole) : Inv ({ p with captured := ps }.go (navigate ps)) := by
  refine ⟨h, ?_⟩
  intro _
  simp only [Page.go]
  exact (params_navigate h).symm

theorem spells_units_lt {s : Str} {rs : List Rune} (h : Spells s rs) : ∀ u ∈ s, u < 0x10000 := by
  induction h with
  | nil => simp
  | basic h _ ih =>
    intro u hu
    rcases List.mem_cons.1 hu with rfl | hu
    · omega
    · exact ih u hu
  | pair hu hv _ ih =>
    intro u hu
    rcases List.mem_cons.1 hu with rfl | hu
    · omega
    · rcases List.mem_cons.1 hu with rfl | hu
      · omega
      · exact ih u hu

theorem whole_get {ps : Params} (h : ps.Whole) {n v : Str} (hg : ps.get n = some v) : ∃ rs, Spells v rs := by
  induction ps with
  | nil => simp [Params.get] at hg
  | cons q ps ih =>
    obtain ⟨n', v'⟩ := q
    simp only [Params.get, List.lookup_cons] at hg
    split at hg
    · cases hg; exact (h (n', v) (by simp)).2
    · exact ih (fun q hq => h q (by simp [hq])) hg

theorem Inv.lang_spells {p : Page} (h : Inv p) {l : Str} (hl : p.lang = some l) : ∃ rs, Spells l rs := by
  unfold Page.lang at hl
  rw [h.params, Option.filter_eq_some_iff] at hl
  exact whole_get (whole_params _) hl.1

theorem lit_lt {s : String} {rs : List Rune} (h : Spells (lit s) rs) : ∀ u ∈ lit s, u < 0x10000 := spells_units_lt h

theorem Inv.lang_lt {p : Page} (h : Inv p) {lang : Str} (hl : ∀ u ∈ lang, u < 0x10000) : ∀ u ∈ p.lang.getD lang, u < 0x10000 := by
  cases hx : p.lang with
  | none => exact hl
  | some l =>
    obtain ⟨rs, hr⟩ := h.lang_spells hx
    exact spells_units_lt hr

theorem Inv.step {p : Page} (h : Inv p) {e : Event} (he : e.Strings) : Inv (p.step e) := by
  have hw : p.params.Whole := by rw [h.params]; exact whole_params _
  cases e with
  | effect lang word =>
    simp only [Page.step]
    generalize hps1 : (if p.params.has (lit "lang") then p.params else p.params.set (lit "lang") (p.lang.getD lang)) = ps1
    have hw1 : ps1.Whole := by
      rw [← hps1]
      split
      · exact hw
      · exact whole_set hw (lit_lt Address.lang_spells) (h.lang_lt he.1)
    generalize hps2 : (if ps1.has (lit "word") then ps1 else match (generalizing := false) word with | some w => ps1.set (lit "word") w | none => ps1) = ps2
    have hw2 : ps2.Whole := by
      rw [← hps2]
      split
      · exact hw1
      · split
        · exact whole_set hw1 (lit_lt word_spells) (he.2 _ rfl)
        · exact hw1
    split
    · rename_i hc
      simp only [Bool.and_eq_true, Bool.or_eq_true] at hc
      have e1 : ps1 = p.params := by rw [← hps1, if_pos hc.1]
      have e2 : ps2 = ps1 := by
        rw [← hps2]
        rcases hc.2 with hc | hc
        · rw [if_pos hc]
        · split
          · rfl
          · cases word with
            | none => rfl
            | some w => simp at hc
      split
      · rename_i hf
        exact ⟨hw2, fun _ => by rw [e2, e1, h.params]⟩
      · exact h
    · split
      · exact Inv.moved hw2
      · exact h.go _
  | change lang word =>
    exact Inv.moved (whole_set (whole_set h.whole (lit_lt Address.lang_spells) he.1) (lit_lt word_spells) he.2)
  | click lang word => exact h.go _
  | goto search => exact h.go _

theorem Inv.openPage (s : Bytes) : Inv (openPage s) := ⟨whole_params s, fun _ => rfl⟩

theorem Inv.steps : ∀ (es : List Event) {p : Page}, Inv p → (∀ e ∈ es, e.Strings) → Inv (p.steps es)
  | [], _, h, _ => h
  | e :: es, p, h, he => by
    have : p.steps (e :: es) = (p.step e).steps es := rfl
    rw [this]
    exact Inv.steps es (h.step (he e (by simp))) fun e hx => he e (by simp [hx])

/-- Nothing to do for the effect. -/
theorem effect_idle {p : Page} (h1 : p.params.has (lit "lang") = true) (h2 : p.params.has (lit "word") = true) (l : Str) (w : Option Str) :
    p.step (.effect l w) = p := by
  simp only [Page.step, h1, if_true, h2, Bool.true_or, Bool.and_self]
  split
  · rename_i hf
    have : p.params = p.captured := by simp [Page.params, hf]
    rw [this]
  · rfl

theorem go_params {p : Page} (h : Inv p) (search : Bytes) : (p.go search).params = params search := (h.go search).params

/-- A page whose address names a language and a word. -/
theorem named {p : Page} (h : Inv p) {lang word : Str} (hl : lang ≠ []) (h1 : (params p.search).get (lit "lang") = some lang)
    (h2 : (params p.search).get (lit "word") = some word) :
    (p.lang = some lang ∧ p.word = word) ∧ (∀ l w, p.step (.effect l w) = p) ∧
      (openPage p.search).lang = some lang ∧ (openPage p.search).word = word := by
  have e := h.params
  refine ⟨⟨?_, ?_⟩, ?_, ?_, ?_⟩
  · simp [Page.lang, e, h1, hl]
  · simp [Page.word, e, h2]
  · exact effect_idle (by simp [Params.has, e, h1]) (by simp [Params.has, e, h2])
  · simp [Page.lang, Page.params, openPage, h1, hl]
  · simp [Page.word, Page.params, openPage, h2]

theorem lang_ne_word : lit "lang" ≠ lit "word" := by decide

theorem change_named {p : Page} (h : Inv p) {lang word : Str} (hl : ∃ rs, Spells lang rs) (hw : ∃ rs, Spells word rs) :
    (params (p.step (.change lang word)).search).get (lit "lang") = some lang ∧
    (params (p.step (.change lang word)).search).get (lit "word") = some word ∧
    ∀ m, m ≠ lit "lang" → m ≠ lit "word" → (params (p.step (.change lang word)).search).get m = p.captured.get m := by
  have e1 : (p.captured.set (lit "lang") lang).set (lit "word") word =
      Params.put (lit "word") word (Params.put (lit "lang") lang p.captured) := by
    rw [set_eq ⟨_, word_spells⟩ hw, set_eq ⟨_, lang_spells⟩ hl]
  have hwh : (Params.put (lit "word") word (Params.put (lit "lang") lang p.captured)).Whole :=
    whole_put ⟨_, word_spells⟩ hw (whole_put ⟨_, lang_spells⟩ hl h.whole)
  simp only [Page.step, Page.go, e1]
  rw [params_navigate hwh]
  refine ⟨?_, ?_, ?_⟩
  · rw [get_put_ne lang_ne_word, get_put_self]
  · rw [get_put_self]
  · intro m h1 h2
    rw [get_put_ne h2, get_put_ne h1]

/-! ## Links -/

/-- The query of a text in a link. -/
def query (s : Str) : Bytes := (encodeText s).flatMap queryByte

/-- Characters which have no meaning in a query. -/
def Clean (s : Str) : Prop := ∀ u ∈ s, u ∉ [0x09, 0x0A, 0x0D, 0x23, 0x25, 0x26, 0x2B]

theorem clean_bytes {s : Str} (h : ∃ rs, Spells s rs) (hc : Clean s) : ∀ b ∈ encodeText s, b ≠ 0x23 ∧ b ≠ 0x25 ∧ b ≠ 0x26 ∧ b ≠ 0x2B := by
  intro b hb
  have key : ∀ c : UInt8, c.toNat < 0x80 → c.toNat ∈ [0x09, 0x0A, 0x0D, 0x23, 0x25, 0x26, 0x2B] → b ≠ c := by
    rintro c h1 h2 rfl
    exact hc _ (encodeText_ascii_mem h h1 hb) h2
  exact ⟨key _ (by decide) (by decide), key _ (by decide) (by decide), key _ (by decide) (by decide), key _ (by decide) (by decide)⟩

theorem percent_ne (b : UInt8) : ∀ c ∈ percent b, c = 0x25 ∨ plainByte c = true := by
  intro c hc
  have h1 := hexDigit_plain ⟨b.toNat / 16, by have := b.toNat_lt; omega⟩
  have h2 := hexDigit_plain ⟨b.toNat % 16, by omega⟩
  simp only [percent, List.mem_cons, List.not_mem_nil, or_false] at hc
  rcases hc with rfl | rfl | rfl
  · exact .inl rfl
  · exact .inr h1
  · exact .inr h2

theorem decode_queryByte {b : UInt8} (h : b ≠ 0x25 ∧ b ≠ 0x2B) (s : Bytes) :
    percentDecode ((queryByte b).map blank ++ s) = b :: percentDecode s := by
  unfold queryByte
  split
  · have h1 := hexDigit_plain ⟨b.toNat / 16, by have := b.toNat_lt; omega⟩
    have h2 := hexDigit_plain ⟨b.toNat % 16, by omega⟩
    have : (percent b).map blank = percent b := by
      simp only [percent, List.map_cons, List.map_nil, blank_plain h1, blank_plain h2]
      rfl
    rw [this]
    exact percentDecode_percent b s
  · simp only [List.map_cons, List.map_nil, List.cons_append, List.nil_append, blank, if_neg h.2]
    exact percentDecode_cons h.1 s

theorem formValue_query {s : Str} (h : ∃ rs, Spells s rs) (hc : Clean s) : formValue (query s) = s := by
  have hb := clean_bytes h hc
  rw [spells_iff] at h
  have key : ∀ (l : Bytes), (∀ b ∈ l, b ≠ 0x23 ∧ b ≠ 0x25 ∧ b ≠ 0x26 ∧ b ≠ 0x2B) → percentDecode ((l.flatMap queryByte).map blank) = l := by
    intro l
    induction l with
    | nil => intro _; rfl
    | cons b l ih =>
      intro hl
      have := hl b (by simp)
      rw [List.flatMap_cons, List.map_append, decode_queryByte ⟨this.2.1, this.2.2.2⟩, ih fun c hc => hl c (by simp [hc])]
  unfold formValue query
  have e : ((encodeText s).flatMap queryByte).map (fun b => if b = 0x2B then 0x20 else b) =
      ((encodeText s).flatMap queryByte).map blank := rfl
  rw [e, key _ hb, encodeText, decodeBytes_encode (spells_valid h)]
  exact usv_spells h

theorem query_no_amp {s : Str} (h : ∃ rs, Spells s rs) (hc : Clean s) : 0x26 ∉ query s := by
  have hb := clean_bytes h hc
  intro hm
  simp only [query, List.mem_flatMap] at hm
  obtain ⟨b, h1, h2⟩ := hm
  unfold queryByte at h2
  split at h2
  · rcases percent_ne b _ h2 with h3 | h3
    · revert h3; decide
    · revert h3; decide
  · simp only [List.mem_singleton] at h2
    exact (hb b h1).2.2.1 h2.symm

theorem clean_lit_lang : Clean (lit "?lang=") := by unfold Clean; decide

theorem browse_link {lang word : Str} (hl : ∃ rs, Spells lang rs) (cl : Clean lang) (cw : Clean word)
    (he : ∀ u, word.getLast? = some u → 0x20 < u) :
    browse (lit "?lang=" ++ lang ++ lit "&word=" ++ word) = str "?lang=" ++ query lang ++ 0x26 :: (str "word=" ++ query word) := by
  have hm : ∀ c ∈ [0x09, 0x0A, 0x0D, 0x23], c ∉ lit "?lang=" ++ lang ++ lit "&word=" ++ word := by
    intro c hc hx
    simp only [List.mem_append] at hx
    rcases hx with ((hx | hx) | hx) | hx
    · revert c; decide
    · exact cl c hx (by revert hc; simp; omega)
    · revert c; decide
    · exact cw c hx (by revert hc; simp; omega)
  have e1 := takeWhile_not_mem (hm 0x23 (by simp))
  have e2 : trimEnd (lit "?lang=" ++ lang ++ lit "&word=" ++ word) = lit "?lang=" ++ lang ++ lit "&word=" ++ word := by
    apply trimEnd_eq
    intro u hu
    rw [List.getLast?_append] at hu
    cases hx : word.getLast? with
    | some v => rw [hx] at hu; simp at hu; subst hu; exact he v hx
    | none =>
      rw [hx, List.getLast?_append] at hu
      have : (lit "&word=").getLast? = some 0x3D := by decide
      rw [this] at hu
      simp at hu
      omega
  have e3 : (lit "?lang=" ++ lang ++ lit "&word=" ++ word).filter (· ∉ [0x09, 0x0A, 0x0D]) = lit "?lang=" ++ lang ++ lit "&word=" ++ word := by
    rw [List.filter_eq_self]
    intro u hu
    simp only [decide_eq_true_eq]
    intro hx
    exact hm u (by revert hx; simp; omega) hu
  have e4 : encodeText (lit "?lang=" ++ lang ++ lit "&word=" ++ word) =
      encodeText (lit "?lang=") ++ (encodeText lang ++ (encodeText (lit "&word=") ++ encodeText word)) := by
    rw [List.append_assoc, List.append_assoc, encodeText_append ⟨_, (lit_spells _).2 (by decide)⟩, encodeText_append hl,
      encodeText_append ⟨_, (lit_spells _).2 (by decide)⟩]
  unfold browse
  simp only [e1, if_neg (hm 0x23 (by simp)), e2, e3, e4, List.flatMap_append]
  have e5 : (encodeText (lit "?lang=")).flatMap queryByte = str "?lang=" := by decide
  have e6 : (encodeText (lit "&word=")).flatMap queryByte = 0x26 :: str "word=" := by decide
  rw [e5, e6]
  simp [query]

theorem params_link {lang word : Str} (hl : ∃ rs, Spells lang rs) (hw : ∃ rs, Spells word rs) (cl : Clean lang) (cw : Clean word)
    (he : ∀ u, word.getLast? = some u → 0x20 < u) :
    params (browse (lit "?lang=" ++ lang ++ lit "&word=" ++ word)) = [(lit "lang", lang), (lit "word", word)] := by
  rw [browse_link hl cl cw he]
  have e1 : str "?lang=" ++ query lang ++ 0x26 :: (str "word=" ++ query word) =
      0x3F :: ((str "lang=" ++ query lang) ++ 0x26 :: (str "word=" ++ query word)) := by
    rw [show str "?lang=" = 0x3F :: str "lang=" by decide]
    simp only [List.cons_append]
  have n1 : (0x26 : UInt8) ∉ str "lang=" ++ query lang := by
    simp only [List.mem_append, not_or]
    exact ⟨by decide, query_no_amp hl cl⟩
  have n2 : (0x26 : UInt8) ∉ str "word=" ++ query word := by
    simp only [List.mem_append, not_or]
    exact ⟨by decide, query_no_amp hw cw⟩
  rw [e1]
  simp only [params, parse]
  rw [splitOn_append n1, splitOn_none n2]
  have a1 : str "lang=" ++ query lang = str "lang" ++ 0x3D :: query lang := by
    rw [show str "lang=" = str "lang" ++ [0x3D] by decide]; simp
  have a2 : str "word=" ++ query word = str "word" ++ 0x3D :: query word := by
    rw [show str "word=" = str "word" ++ [0x3D] by decide]; simp
  rw [a1, a2, List.filter_cons, if_pos (by simp), List.filter_cons, if_pos (by simp), List.filter_nil, List.map_cons, List.map_cons, List.map_nil,
    cut_append (by decide), cut_append (by decide)]
  simp only [formValue_query hl cl, formValue_query hw cw]
  rw [show formValue (str "lang") = lit "lang" by decide, show formValue (str "word") = lit "word" by decide]

/-! ## The effect -/

theorem get_of_not_has {ps : Params} {n : Str} (h : ps.has n = false) : ps.get n = none := by
  simpa [Params.has] using h

/-- What the effect does. -/
theorem effect_names {p : Page} (h : Inv p) {l : Str} {w : Option Str} (hl : ∃ rs, Spells l rs) (hw : ∀ x, w = some x → ∃ rs, Spells x rs) :
    (params (p.step (.effect l w)).search).get (lit "lang") =
      some (((params p.search).get (lit "lang")).getD l) ∧
    (params (p.step (.effect l w)).search).get (lit "word") = ((params p.search).get (lit "word")).or w ∧
    ∀ m, m ≠ lit "lang" → m ≠ lit "word" → (params (p.step (.effect l w)).search).get m = (params p.search).get m := by
  have hwh : p.params.Whole := by rw [h.params]; exact whole_params _
  rw [← h.params]
  simp only [Page.step]
  have hlang : p.params.has (lit "lang") = false → p.lang.getD l = l := by
    intro hx
    simp [Page.lang, get_of_not_has hx]
  generalize hps1 : (if p.params.has (lit "lang") then p.params else p.params.set (lit "lang") (p.lang.getD l)) = ps1
  have hw1 : ps1.Whole ∧ ps1.get (lit "lang") = some ((p.params.get (lit "lang")).getD l) ∧
      ∀ m, m ≠ lit "lang" → ps1.get m = p.params.get m := by
    rw [← hps1]
    split
    · rename_i hx
      refine ⟨hwh, ?_, fun _ _ => rfl⟩
      obtain ⟨v, hv⟩ := Option.isSome_iff_exists.1 hx
      rw [hv]; rfl
    · rename_i hx
      simp only [Bool.not_eq_true] at hx
      rw [hlang hx, set_eq ⟨_, lang_spells⟩ hl]
      refine ⟨whole_put ⟨_, lang_spells⟩ hl hwh, ?_, fun m hm => get_put_ne hm _ _⟩
      rw [get_put_self, get_of_not_has hx]; rfl
  obtain ⟨hw1, hg1, ho1⟩ := hw1
  generalize hps2 : (if ps1.has (lit "word") then ps1 else match (generalizing := false) w with | some w => ps1.set (lit "word") w | none => ps1) = ps2
  have hword : ps1.get (lit "word") = p.params.get (lit "word") := ho1 _ (Ne.symm lang_ne_word)
  have hw2 : ps2.Whole ∧ ps2.get (lit "lang") = some ((p.params.get (lit "lang")).getD l) ∧
      ps2.get (lit "word") = (p.params.get (lit "word")).or w ∧
      ∀ m, m ≠ lit "lang" → m ≠ lit "word" → ps2.get m = p.params.get m := by
    rw [← hps2]
    split
    · rename_i hx
      refine ⟨hw1, hg1, ?_, fun m h1 _ => ho1 m h1⟩
      obtain ⟨v, hv⟩ := Option.isSome_iff_exists.1 hx
      have hv' : ps1.get (lit "word") = some v := hv
      rw [hv', ← hword, hv']; rfl
    · rename_i hx
      simp only [Bool.not_eq_true] at hx
      have hn := get_of_not_has hx
      clear hps2
      cases w with
      | some x =>
        simp only
        rw [set_eq ⟨_, word_spells⟩ (hw x rfl)]
        refine ⟨whole_put ⟨_, word_spells⟩ (hw x rfl) hw1, ?_, ?_, fun m h1 h2 => ?_⟩
        · rw [get_put_ne lang_ne_word, hg1]
        · rw [get_put_self, ← hword, hn]; rfl
        · rw [get_put_ne h2, ho1 m h1]
      | none =>
        refine ⟨hw1, hg1, ?_, fun m h1 _ => ho1 m h1⟩
        rw [hn, ← hword, hn]; rfl
  obtain ⟨hw2, hg2, hg3, ho2⟩ := hw2
  split
  · rename_i hc
    simp only [Bool.and_eq_true, Bool.or_eq_true] at hc
    have e1 : ps1 = p.params := by rw [← hps1, if_pos hc.1]
    have e2 : ps2 = ps1 := by
      rw [← hps2]
      rcases hc.2 with hc | hc
      · rw [if_pos hc]
      · split
        · rfl
        · cases w with
          | none => rfl
          | some w => simp at hc
    have e3 : (if p.first = true then { p with captured := ps2 } else p).search = p.search := by split <;> rfl
    rw [e3, ← h.params]
    rw [e2, e1] at hg2 hg3 ho2
    exact ⟨hg2, hg3, ho2⟩
  · have e3 : ((if p.first = true then { p with captured := ps2 } else p).go (navigate ps2)).search = navigate ps2 := by
      split <;> rfl
    rw [e3, params_navigate hw2]
    exact ⟨hg2, hg3, ho2⟩

/-! ## Other parameters -/

theorem get_set_ne {n m : Str} {rs : List Rune} (hn : Spells n rs) (h : m ≠ n) (v : Str) (ps : Params) : (ps.set n v).get m = ps.get m := by
  unfold Params.set
  rw [usv_spells hn]
  exact get_put_ne h _ _

theorem captured_step (p : Page) (e : Event) {m : Str} (h1 : m ≠ lit "lang") (h2 : m ≠ lit "word") :
    (p.step e).captured.get m = p.captured.get m := by
  have hgo : ∀ (q : Page) s, (q.go s).captured = q.captured := fun _ _ => rfl
  cases e with
  | effect l w =>
    simp only [Page.step]
    have key : ∀ ps2 : Params, ps2.get m = p.params.get m →
        (if p.first = true then { p with captured := ps2 } else p).captured.get m = p.captured.get m := by
      intro ps2 h
      split
      · rename_i hf
        simp only [h, Page.params, hf, if_true]
      · rfl
    have h3 : ∀ ps1 : Params, ps1.get m = p.params.get m →
        (if ps1.has (lit "word") then ps1 else match (generalizing := false) w with | some w => ps1.set (lit "word") w | none => ps1).get m =
          p.params.get m := by
      intro ps1 h
      split
      · exact h
      · split
        · rw [get_set_ne word_spells h2, h]
        · exact h
    have h4 : (if p.params.has (lit "lang") then p.params else p.params.set (lit "lang") (p.lang.getD l)).get m = p.params.get m := by
      split
      · rfl
      · exact get_set_ne lang_spells h1 _ _
    generalize (if p.params.has (lit "lang") then p.params else p.params.set (lit "lang") (p.lang.getD l)) = ps1 at h4 ⊢
    have h5 := h3 ps1 h4
    generalize (if ps1.has (lit "word") then ps1 else match (generalizing := false) w with | some w => ps1.set (lit "word") w | none => ps1) =
      ps2 at h5 ⊢
    by_cases hc : (p.params.has (lit "lang") && (ps1.has (lit "word") || w.isNone)) = true
    · rw [if_pos hc]
      exact key _ h5
    · rw [if_neg hc, hgo]
      exact key _ h5
  | change l w => simp only [Page.step, hgo, get_set_ne word_spells h2, get_set_ne lang_spells h1]
  | click l w => rfl
  | goto s => rfl

theorem captured_steps {m : Str} (h1 : m ≠ lit "lang") (h2 : m ≠ lit "word") : ∀ (es : List Event) (p : Page),
    (p.steps es).captured.get m = p.captured.get m
  | [], _ => rfl
  | e :: es, p => (captured_steps h1 h2 es (p.step e)).trans (captured_step p e h1 h2)

end Verif.Address
