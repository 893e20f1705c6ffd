import Verif.Proofs.VarScan
import Verif.Proofs.Layout

/-! The regular expression of a pattern of plain text and vars. -/

namespace Verif.Hre

open Verif.Rx Verif.Spec.Hre Verif.Spec.Vars

/-! ## Quoted text -/

/-- `isMeta` on runes. -/
def isMetaR (r : Rune) : Bool := r < 0x80 && isMeta (UInt8.ofNat r)

/-- `quoteMeta` on runes. -/
def quoteR (rs : List Rune) : List Rune := rs.flatMap fun r => if isMetaR r then [0x5C, r] else [r]

theorem isMeta_lt {c : UInt8} (h : isMeta c = true) : c.toNat < 0x80 := by
  simp only [isMeta, List.contains_eq_mem, decide_eq_true_eq, List.mem_cons, List.not_mem_nil, or_false] at h
  rcases h with h | h | h | h | h | h | h | h | h | h | h | h | h | h <;> subst h <;> decide

theorem quoteMeta_append (a b : Bytes) : quoteMeta (a ++ b) = quoteMeta a ++ quoteMeta b := by
  simp [quoteMeta]

theorem quoteMeta_plain {a : Bytes} (h : ∀ c ∈ a, isMeta c = false) : quoteMeta a = a := by
  induction a with
  | nil => rfl
  | cons c a ih =>
    have := ih fun x hx => h x (by simp [hx])
    simp only [quoteMeta, List.flatMap_cons, h c (by simp)] at this ⊢
    simp [this]

theorem encodeRune_ascii {r : Rune} (h : r < 0x80) : encodeRune r = [UInt8.ofNat r] := by
  have : validRune r = true := (validRune_iff r).2 (by omega)
  simp [encodeRune, this, encodeValid, h]

theorem encodeRune_high {r : Rune} (h : 0x80 ≤ r) : ∀ c ∈ encodeRune r, 0x80 ≤ c.toNat := by
  intro c hc
  rcases Nat.lt_or_ge c.toNat 0x80 with hl | hl
  · exfalso
    have h1 := runes_ascii_mem hl hc
    by_cases hv : validRune r = true
    · have e : runes (encodeRune r) = [r] := by
        have := runes_encode (rs := [r]) (by simpa using hv)
        simpa [encode] using this
      rw [e] at h1; simp at h1; omega
    · have e : runes (encodeRune r) = [runeError] := by
        have := runes_encode (rs := [runeError]) (by simp [validRune_runeError])
        simpa [encode, encodeRune, hv, validRune_runeError] using this
      rw [e] at h1; simp [runeError] at h1; omega
  · exact hl

theorem quoteMeta_encodeRune (r : Rune) : quoteMeta (encodeRune r) = encode (if isMetaR r then [0x5C, r] else [r]) := by
  by_cases h : r < 0x80
  · rw [encodeRune_ascii h]
    by_cases hm : isMeta (UInt8.ofNat r) = true
    · have : isMetaR r = true := by simp [isMetaR, h, hm]
      simp [quoteMeta, hm, this, encode, encodeRune_ascii h, encodeRune_ascii (r := 0x5C) (by decide)]
    · have : isMetaR r = false := by simp [isMetaR, hm]
      simp [quoteMeta, hm, this, encode, encodeRune_ascii h]
  · have : isMetaR r = false := by simp [isMetaR, h]
    rw [quoteMeta_plain]
    · simp [this, encode]
    · intro c hc
      have := encodeRune_high (by omega) c hc
      cases hm : isMeta c
      · rfl
      · have := isMeta_lt hm; omega

theorem quoteMeta_encode (rs : List Rune) : quoteMeta (encode rs) = encode (quoteR rs) := by
  induction rs with
  | nil => rfl
  | cons r rs ih =>
    rw [encode_cons, quoteMeta_append, ih, quoteMeta_encodeRune]
    simp only [quoteR, List.flatMap_cons, encode_append]

theorem quoteR_valid {rs : List Rune} (h : ∀ r ∈ rs, validRune r = true) : ∀ r ∈ quoteR rs, validRune r = true := by
  intro r hr
  simp only [quoteR, List.mem_flatMap] at hr
  obtain ⟨a, ha, hb⟩ := hr
  split at hb
  · simp at hb
    rcases hb with rfl | rfl
    · rfl
    · exact h _ ha
  · simp at hb; subst hb; exact h _ ha

theorem quoteMeta_valid {v : Bytes} (h : ValidUtf8 v) : ValidUtf8 (quoteMeta v) := by
  rw [← encode_runes h, quoteMeta_encode]
  exact encode_valid (quoteR_valid (runes_valid v))

theorem runes_quoteMeta {v : Bytes} (h : ValidUtf8 v) : runes (quoteMeta v) = quoteR (runes v) := by
  have : quoteMeta v = encode (quoteR (runes v)) := by rw [← quoteMeta_encode, encode_runes h]
  rw [this, runes_encode (quoteR_valid (runes_valid v))]

theorem runes_bar (x : Bytes) : runes (0x7C :: x) = 0x7C :: runes x := by
  rw [runes, decode_cons_ascii (by decide)]; rfl

/-! ## Tokens -/

theorem isMetaR_iff {r : Rune} : isMetaR r = true ↔ r = 0x5C ∨ r = 0x2E ∨ r = 0x2B ∨ r = 0x2A ∨ r = 0x3F ∨ r = 0x28 ∨
    r = 0x29 ∨ r = 0x7C ∨ r = 0x5B ∨ r = 0x5D ∨ r = 0x7B ∨ r = 0x7D ∨ r = 0x5E ∨ r = 0x24 := by
  constructor
  · intro h
    simp only [isMetaR, Bool.and_eq_true, decide_eq_true_eq, isMeta, List.contains_eq_mem, List.mem_cons,
      List.not_mem_nil, or_false] at h
    obtain ⟨hl, h⟩ := h
    have e : (UInt8.ofNat r).toNat = r := by simp; omega
    rw [← e]
    rcases h with h | h | h | h | h | h | h | h | h | h | h | h | h | h <;> rw [h] <;> simp
  · rintro (rfl | rfl | rfl | rfl | rfl | rfl | rfl | rfl | rfl | rfl | rfl | rfl | rfl | rfl) <;> decide

theorem lexOne_plain_lit {r : Rune} (h : isMetaR r = false) (x : List Rune) : lexOne r x = .ok (.lit r, 0) := by
  have h' : ¬ isMetaR r = true := by simp [h]
  rw [isMetaR_iff] at h'
  simp only [not_or] at h'
  obtain ⟨h1, h2, h3, h4, h5, h6, h7, h8, h9, h10, h11, h12, h13, h14⟩ := h'
  simp only [lexOne, h1, h2, h3, h4, h5, h6, h7, h8, h9, h11, h13, h14, if_false]

theorem lexOne_quoted {r : Rune} (h : isMetaR r = true) (x : List Rune) : lexOne 0x5C (r :: x) = .ok (.lit r, 1) := by
  rw [isMetaR_iff] at h
  rcases h with rfl | rfl | rfl | rfl | rfl | rfl | rfl | rfl | rfl | rfl | rfl | rfl | rfl | rfl <;> rfl

theorem lex_plain {rs : List Rune} (h : ∀ r ∈ rs, isMetaR r = false) (x : List Rune) :
    lexFrom 0 (rs ++ x) = (lexFrom 0 x).bind fun us => .ok (rs.map .lit ++ us) := by
  induction rs with
  | nil => simp; cases lexFrom 0 x <;> rfl
  | cons r rs ih =>
    rw [List.cons_append, lexFrom, lexOne_plain_lit (h r (by simp))]
    simp only [Go.bind]
    rw [ih fun a ha => h a (by simp [ha])]
    cases lexFrom 0 x <;> rfl

theorem lex_quoted (rs x : List Rune) :
    lexFrom 0 (quoteR rs ++ x) = (lexFrom 0 x).bind fun us => .ok (rs.map .lit ++ us) := by
  induction rs with
  | nil => simp [quoteR]; cases lexFrom 0 x <;> rfl
  | cons r rs ih =>
    have e : quoteR (r :: rs) = (if isMetaR r then [0x5C, r] else [r]) ++ quoteR rs := by
      simp [quoteR]
    rw [e]
    by_cases h : isMetaR r = true
    · rw [if_pos h]
      simp only [List.cons_append, List.nil_append]
      rw [lexFrom, lexOne_quoted h]
      simp only [Go.bind, lexFrom]
      rw [ih]
      cases lexFrom 0 x <;> rfl
    · rw [if_neg h]
      simp only [List.cons_append, List.nil_append]
      rw [lexFrom, lexOne_plain_lit (by simpa using h)]
      simp only [Go.bind]
      rw [ih]
      cases lexFrom 0 x <;> rfl

/-- The tokens of alternatives. -/
def altToks : List Bytes → List Tok
  | [] => []
  | [v] => (runes v).map .lit
  | v :: vs => (runes v).map .lit ++ .bar :: altToks vs

theorem lex_alts : ∀ (vals : List Bytes), (∀ v ∈ vals, ValidUtf8 v) → ∀ x : List Rune,
    lexFrom 0 (runes (join [0x7C] (vals.map quoteMeta)) ++ x) =
      (lexFrom 0 x).bind fun us => .ok (altToks vals ++ us)
  | [], _, x => by simp [join, altToks, runes_nil]; cases lexFrom 0 x <;> rfl
  | [v], h, x => by
    simp only [List.map_cons, List.map_nil, join, altToks]
    rw [runes_quoteMeta (h v (by simp)), lex_quoted]
  | v :: v' :: vs, h, x => by
    simp only [List.map_cons, join, altToks]
    have hv := h v (by simp)
    have ih := lex_alts (v' :: vs) (fun a ha => h a (by simp [ha])) x
    simp only [List.map_cons] at ih
    have e : runes (quoteMeta v ++ [0x7C] ++ join [0x7C] (quoteMeta v' :: vs.map quoteMeta)) =
        quoteR (runes v) ++ 0x7C :: runes (join [0x7C] (quoteMeta v' :: vs.map quoteMeta)) := by
      rw [List.append_assoc, runes_append (quoteMeta_valid hv), runes_quoteMeta hv, List.singleton_append,
        runes_bar]
    rw [e, List.append_assoc, lex_quoted, List.cons_append, lexFrom]
    rw [show lexOne 0x7C (runes (join [0x7C] (quoteMeta v' :: vs.map quoteMeta)) ++ x) = .ok (.bar, 0) from rfl]
    simp only [Go.bind]
    rw [ih]
    cases lexFrom 0 x <;> simp [Go.bind]

/-- The tokens of a pattern. -/
def toksOf : List Item → List Tok
  | [] => []
  | .text t :: is => (runes t).map .lit ++ toksOf is
  | .var _ vals :: is => .open :: (altToks vals ++ .close :: toksOf is)

theorem join_valid : ∀ {vals : List Bytes}, (∀ v ∈ vals, ValidUtf8 v) → ValidUtf8 (join [0x7C] vals)
  | [], _ => ValidUtf8.nil
  | [v], h => h v (by simp)
  | v :: v' :: vs, h => by
    simp only [join]
    have hb : ValidUtf8 [0x7C] := ⟨[0x7C], by decide, by decide⟩
    exact ((h v (by simp)).append hb).append (join_valid fun a ha => h a (List.mem_cons_of_mem _ ha))

theorem varGroup_valid {vals : List Bytes} (h : ∀ v ∈ vals, ValidUtf8 v) : ValidUtf8 (varGroup vals) := by
  have h1 : ValidUtf8 [0x28] := ⟨[0x28], by decide, by decide⟩
  have h2 : ValidUtf8 [0x29] := ⟨[0x29], by decide, by decide⟩
  refine (h1.append (join_valid ?_)).append h2
  intro v hv
  obtain ⟨a, ha, rfl⟩ := List.mem_map.1 hv
  exact quoteMeta_valid (h a ha)

theorem expanded_valid {vars : List (Bytes × List Bytes)} : ∀ {items : List Item}, (∀ it ∈ items, it.Simple vars) →
    ValidUtf8 (expanded items)
  | [], _ => ValidUtf8.nil
  | .text t :: is, h => (h (.text t) (by simp)).1.1.append (expanded_valid fun x hx => h x (by simp [hx]))
  | .var n vals :: is, h =>
    (varGroup_valid fun v hv => ((h (.var n vals) (by simp)).2 v hv).1).append
      (expanded_valid fun x hx => h x (by simp [hx]))

theorem plain_runes {t : Bytes} (h : ∀ b ∈ t, isMeta b = false) : ∀ r ∈ runes t, isMetaR r = false := by
  intro r hr
  cases hm : isMetaR r with
  | false => rfl
  | true =>
    exfalso
    simp only [isMetaR, Bool.and_eq_true, decide_eq_true_eq] at hm
    have e : (UInt8.ofNat r).toNat = r := by simp; omega
    have := mem_of_runes_ascii (c := UInt8.ofNat r) (by rw [e]; exact hm.1) (x := t) (by rw [e]; exact hr)
    rw [h _ this] at hm
    simp at hm

theorem lexOne_open {x : List Rune} (h : x.head? ≠ some 0x3F) : lexOne 0x28 x = .ok (.open, 0) := by
  have hno : ∀ k (l : List Rune), l.head? = some 0x3F → k ≠ 0 → x.take k ≠ l := by
    intro k l hl hk he
    apply h
    rw [← hl, ← he]
    cases k with
    | zero => exact absurd rfl hk
    | succ k => cases h : x <;> simp
  unfold lexOne
  rw [if_pos rfl, if_neg (hno 2 _ rfl (by omega)), if_neg (hno 3 _ rfl (by omega)), if_neg h]

theorem quoteR_head (rs x : List Rune) (h : x.head? ≠ some 0x3F) : (quoteR rs ++ x).head? ≠ some 0x3F := by
  cases rs with
  | nil => simpa [quoteR] using h
  | cons r rs =>
    by_cases hm : isMetaR r = true
    · simp [quoteR, hm]
    · simp [quoteR, hm]
      rintro rfl
      exact hm (by decide)

theorem alts_head {vals : List Bytes} (h : ∀ v ∈ vals, ValidUtf8 v) (x : List Rune) :
    (runes (join [0x7C] (vals.map quoteMeta)) ++ 0x29 :: x).head? ≠ some 0x3F := by
  match vals with
  | [] => simp [join, runes_nil]
  | [v] =>
    simp only [List.map_cons, List.map_nil, join]
    rw [runes_quoteMeta (h v (by simp))]
    exact quoteR_head _ _ (by simp)
  | v :: v' :: vs =>
    simp only [List.map_cons, join]
    have hv := h v (by simp)
    rw [List.append_assoc, runes_append (quoteMeta_valid hv), runes_quoteMeta hv, List.singleton_append,
      runes_bar, List.append_assoc]
    exact quoteR_head _ _ (by simp)

theorem lex_expanded {vars : List (Bytes × List Bytes)} : ∀ {items : List Item}, (∀ it ∈ items, it.Simple vars) →
    ∀ x : List Rune, lexFrom 0 (runes (expanded items) ++ x) = (lexFrom 0 x).bind fun us => .ok (toksOf items ++ us) := by
  intro items
  induction items with
  | nil => intro _ x; simp [expanded, toksOf, runes_nil]; cases lexFrom 0 x <;> rfl
  | cons it items ih =>
    intro h x
    have hi := h it (by simp)
    have ht := ih (fun a ha => h a (by simp [ha])) x
    cases it with
    | text t =>
      rw [expanded, runes_append hi.1.1, List.append_assoc, lex_plain (plain_runes hi.2), ht]
      cases lexFrom 0 x <;> simp [Go.bind, toksOf]
    | var n vals =>
      have hv : ∀ v ∈ vals, ValidUtf8 v := fun v hv => (hi.2 v hv).1
      have hj : ValidUtf8 (join [0x7C] (vals.map quoteMeta)) := join_valid (by
        intro v hm; obtain ⟨a, ha, rfl⟩ := List.mem_map.1 hm; exact quoteMeta_valid (hv a ha))
      have e : runes (expanded (.var n vals :: items)) ++ x =
          0x28 :: (runes (join [0x7C] (vals.map quoteMeta)) ++ 0x29 :: (runes (expanded items) ++ x)) := by
        rw [expanded, varGroup, List.append_assoc, List.append_assoc, List.singleton_append, runes,
          decode_cons_ascii (by decide), List.map_cons]
        have e1 : (decode (join [0x7C] (vals.map quoteMeta) ++ ([0x29] ++ expanded items))).map (·.1) =
            runes (join [0x7C] (vals.map quoteMeta)) ++ 0x29 :: runes (expanded items) := by
          rw [decode_append hj, List.singleton_append, decode_cons_ascii (by decide), List.map_append]
          rfl
        rw [e1]
        simp
      rw [e, lexFrom, lexOne_open (alts_head hv _)]
      simp only [Go.bind]
      rw [lex_alts vals hv, lexFrom, show lexOne 0x29 (runes (expanded items) ++ x) = .ok (.close, 0) from rfl]
      simp only [Go.bind]
      rw [ht]
      cases lexFrom 0 x <;> simp [Go.bind, toksOf]

/-! ## The syntax tree -/

/-- The items of plain text. -/
def litsOf (t : Bytes) : List Re := (runes t).map fun r => .lit [r]

/-- The alternatives of a var. -/
def altOf (vals : List Bytes) : Re := mkAlt (vals.map fun v => mkCat (litsOf v).reverse).reverse

/-- The items of a pattern, with groups numbered from `j`. -/
def coreOf : Nat → List Item → List Re
  | _, [] => []
  | j, .text t :: is => litsOf t ++ coreOf j is
  | j, .var _ vals :: is => .cap j (altOf vals) :: coreOf (j + 1) is

theorem steps_lits (rs : List Rune) : ∀ (c : Option Nat) (as cat : List Re) (stk : List Frame) (n : Nat) (us : List Tok),
    psteps ⟨⟨c, as, cat⟩, stk, n, false⟩ (rs.map .lit ++ us) =
      psteps ⟨⟨c, as, (rs.map fun r => Re.lit [r]).reverse ++ cat⟩, stk, n, false⟩ us := by
  induction rs with
  | nil => intro c as cat stk n us; rfl
  | cons r rs ih =>
    intro c as cat stk n us
    simp only [List.map_cons, List.cons_append, psteps, pstep, PSt.push, Go.bind]
    rw [ih]
    simp

theorem steps_alts : ∀ (vals : List Bytes), vals ≠ [] → ∀ (c : Option Nat) (as : List Re) (stk : List Frame) (n : Nat)
    (us : List Tok), ∃ as' cat', psteps ⟨⟨c, as, []⟩, stk, n, false⟩ (altToks vals ++ us) =
      psteps ⟨⟨c, as', cat'⟩, stk, n, false⟩ us ∧
      mkCat cat' :: as' = (vals.map fun v => mkCat (litsOf v).reverse).reverse ++ as
  | [], h => absurd rfl h
  | [v], _ => by
    intro c as stk n us
    refine ⟨as, (litsOf v).reverse, ?_, by simp⟩
    rw [altToks, steps_lits]
    simp [litsOf]
  | v :: v' :: vs, _ => by
    intro c as stk n us
    obtain ⟨as', cat', h1, h2⟩ := steps_alts (v' :: vs) (by simp) c (mkCat (litsOf v).reverse :: as) stk n us
    refine ⟨as', cat', ?_, by rw [h2]; simp⟩
    rw [altToks, List.append_assoc, steps_lits]
    simp only [List.append_nil, List.cons_append, psteps, pstep, Go.bind]
    exact h1
    simp

theorem steps_items {vars : List (Bytes × List Bytes)} : ∀ {items : List Item}, (∀ it ∈ items, it.Defined vars) →
    ∀ (as cat : List Re) (n : Nat) (us : List Tok),
    psteps ⟨⟨none, as, cat⟩, [], n, false⟩ (toksOf items ++ us) =
      psteps ⟨⟨none, as, (coreOf (n + 1) items).reverse ++ cat⟩, [], n + (valsOf items).length, false⟩ us := by
  intro items
  induction items with
  | nil => intro _ as cat n us; rfl
  | cons it items ih =>
    intro h as cat n us
    have ht := fun x hx => h x (List.mem_cons_of_mem _ hx)
    cases it with
    | text t =>
      rw [toksOf, List.append_assoc, steps_lits, ih ht]
      simp [coreOf, litsOf, valsOf]
    | var m vals =>
      obtain ⟨as', cat', h1, h2⟩ := steps_alts vals (h _ List.mem_cons_self).2.2.2.2.2.2 (some (n + 1)) []
        [⟨none, as, cat⟩] (n + 1) (.close :: (toksOf items ++ us))
      simp only [toksOf, List.cons_append, List.append_assoc, psteps, pstep, Go.bind]
      rw [h1]
      simp only [psteps, pstep, PSt.push, Go.bind, Frame.close, Frame.body]
      rw [h2, ih ht]
      have e : n + 1 + (valsOf items).length = n + ((valsOf items).length + 1) := by omega
      simp [coreOf, altOf, valsOf, e]

/-- The expression of a pattern with `k` vars. -/
def reOf (items : List Item) : Re :=
  .cat ([.cap 1 .empty, .cap 2 .empty] ++ coreOf 3 items ++
    [.cap ((valsOf items).length + 3) .empty, .cap ((valsOf items).length + 4) .empty])

theorem compile_expanded {vars : List (Bytes × List Bytes)} {items : List Item} (h : ∀ it ∈ items, it.Simple vars) :
    compile ([0x28, 0x29, 0x28, 0x29] ++ (expanded items ++ [0x28, 0x29, 0x28, 0x29])) = .ok (reOf items) ∧
      numCap (reOf items) = (valsOf items).length + 4 := by
  have hp : ValidUtf8 [0x28, 0x29, 0x28, 0x29] := ⟨[0x28, 0x29, 0x28, 0x29], by decide, by decide⟩
  have hv := expanded_valid h
  have hr : runes ([0x28, 0x29, 0x28, 0x29] ++ (expanded items ++ [0x28, 0x29, 0x28, 0x29])) =
      0x28 :: 0x29 :: 0x28 :: 0x29 :: (runes (expanded items) ++ [0x28, 0x29, 0x28, 0x29]) := by
    rw [runes_append hp, runes_append hv]
    rfl
  have hlex : lexFrom 0 (0x28 :: 0x29 :: 0x28 :: 0x29 :: (runes (expanded items) ++ [0x28, 0x29, 0x28, 0x29])) =
      .ok (.open :: .close :: .open :: .close :: (toksOf items ++ [.open, .close, .open, .close])) := by
    rw [lexFrom, lexOne_open (by simp)]
    simp only [Go.bind]
    rw [lexFrom, show ∀ x, lexOne 0x29 x = .ok (.close, 0) from fun _ => rfl]
    simp only [Go.bind]
    rw [lexFrom, lexOne_open (by simp)]
    simp only [Go.bind]
    rw [lexFrom, show ∀ x, lexOne 0x29 x = .ok (.close, 0) from fun _ => rfl]
    simp only [Go.bind]
    rw [lex_expanded h, show lexFrom 0 [0x28, 0x29, 0x28, 0x29] = .ok [.open, .close, .open, .close] from rfl]
    rfl
  have hst : psteps PSt.init (.open :: .close :: .open :: .close :: (toksOf items ++ [.open, .close, .open, .close])) =
      .ok ⟨⟨none, [], .cap ((valsOf items).length + 4) .empty :: .cap ((valsOf items).length + 3) .empty ::
        ((coreOf 3 items).reverse ++ [.cap 2 .empty, .cap 1 .empty])⟩, [], (valsOf items).length + 4, false⟩ := by
    simp only [PSt.init, psteps, pstep, PSt.push, Go.bind, Frame.close, Frame.body, mkCat, mkAlt]
    rw [steps_items fun x hx => (h x hx).1]
    simp only [psteps, pstep, PSt.push, Go.bind, Frame.close, Frame.body, mkCat, mkAlt]
    simp only [Nat.zero_add, Go.ok.injEq, PSt.mk.injEq, Frame.mk.injEq, true_and, and_true, List.cons.injEq,
      Re.cap.injEq]
    omega
  have hP : Parses (runes ([0x28, 0x29, 0x28, 0x29] ++ (expanded items ++ [0x28, 0x29, 0x28, 0x29]))) _ _ _ _ :=
    ⟨hr ▸ hlex, hst⟩
  have hb : (⟨none, [], .cap ((valsOf items).length + 4) .empty :: .cap ((valsOf items).length + 3) .empty ::
        ((coreOf 3 items).reverse ++ [.cap 2 .empty, .cap 1 .empty])⟩ : Frame).body = reOf items := by
    simp [Frame.body, mkAlt, mkCat, reOf]
  refine ⟨?_, ?_⟩
  · rw [compile, if_pos (hp.append (hv.append hp)), parseRunes_iff.2 ⟨_, _, _, _, hP, rfl⟩, hb]
  · rw [← hb, hP.numCap]

/-! ## `newPattern` -/

theorem mem_quoteMeta {c : UInt8} (h : c ≠ 0x5C) {v : Bytes} (hm : c ∈ quoteMeta v) : c ∈ v := by
  simp only [quoteMeta, List.mem_flatMap] at hm
  obtain ⟨a, ha, hb⟩ := hm
  split at hb
  · simp at hb
    rcases hb with rfl | rfl
    · exact absurd rfl h
    · exact ha
  · simp at hb; subst hb; exact ha

theorem mem_join {c : UInt8} (h : c ≠ 0x7C) : ∀ {vs : List Bytes}, c ∈ join [0x7C] vs → ∃ v ∈ vs, c ∈ v
  | [], hm => by simp [join] at hm
  | [v], hm => ⟨v, by simp, hm⟩
  | v :: v' :: vs, hm => by
    simp only [join, List.mem_append, List.mem_singleton] at hm
    rcases hm with (hm | hm) | hm
    · exact ⟨v, by simp, hm⟩
    · exact absurd hm h
    · obtain ⟨w, h1, h2⟩ := mem_join h hm
      exact ⟨w, List.mem_cons_of_mem _ h1, h2⟩

theorem mem_varGroup {c : UInt8} (h1 : c ≠ 0x7C) (h2 : c ≠ 0x28) (h3 : c ≠ 0x29) (h4 : c ≠ 0x5C) {vals : List Bytes}
    (hm : c ∈ varGroup vals) : ∃ v ∈ vals, c ∈ v := by
  simp only [varGroup, List.mem_append, List.mem_singleton] at hm
  rcases hm with (hm | hm) | hm
  · exact absurd hm h2
  · obtain ⟨w, e1, e2⟩ := mem_join h1 hm
    obtain ⟨a, ha, rfl⟩ := List.mem_map.1 e1
    exact ⟨a, ha, mem_quoteMeta h4 e2⟩
  · exact absurd hm h3

theorem not_mem_expanded {vars : List (Bytes × List Bytes)} {c : UInt8} (hc : c = 0x5E ∨ c = 0x24 ∨ c = 0x7B) :
    ∀ {items : List Item}, (∀ it ∈ items, it.Simple vars) → c ∉ expanded items
  | [], _ => by simp [expanded]
  | .text t :: is, h => by
    have hi := (h (.text t) (by simp)).2
    have := not_mem_expanded hc (items := is) fun x hx => h x (by simp [hx])
    simp only [expanded, List.mem_append, not_or]
    refine ⟨fun hm => ?_, this⟩
    have := hi c hm
    rcases hc with rfl | rfl | rfl <;> simp [isMeta] at this
  | .var n vals :: is, h => by
    have hi := (h (.var n vals) (by simp)).2
    have := not_mem_expanded hc (items := is) fun x hx => h x (by simp [hx])
    simp only [expanded, List.mem_append, not_or]
    refine ⟨fun hm => ?_, this⟩
    obtain ⟨v, h1, h2⟩ := mem_varGroup (by rcases hc with rfl | rfl | rfl <;> decide)
      (by rcases hc with rfl | rfl | rfl <;> decide) (by rcases hc with rfl | rfl | rfl <;> decide)
      (by rcases hc with rfl | rfl | rfl <;> decide) hm
    have hh := hi v h1
    rcases hc with rfl | rfl | rfl
    · exact hh.2.1 h2
    · exact hh.2.2.1 h2
    · exact hh.2.2.2 h2

theorem braced_nil_of {look x : Bytes} (h : 0x7B ∉ x) (hs : ∀ c ∈ braced look, c ∈ x) : look = [] := by
  by_cases hl : look = []
  · exact hl
  · exact absurd (hs 0x7B (by simp [braced, hl])) h

theorem replicate_nil_of {n : Nat} {c : UInt8} {x : Bytes} (h : c ∉ x) (hs : ∀ b ∈ List.replicate n c, b ∈ x) : n = 0 := by
  cases n with
  | zero => rfl
  | succ n => exact absurd (hs c (by simp)) h

theorem expandLookahead_plain {x : Bytes} (h1 : 0x24 ∉ x) (h2 : 0x7B ∉ x) :
    expandLookahead x = .ok (x ++ [0x28, 0x29, 0x28, 0x29], [], 0) := by
  obtain ⟨m, hm⟩ := lookahead_matches x
  obtain ⟨other, look, n, _, e1, e2, e3, e4⟩ := lookahead_split hm
  have hl : look = [] := braced_nil_of h2 fun c hc => by rw [e1]; simp [hc]
  have hn : n = 0 := replicate_nil_of h1 fun c hc => by rw [e1]; simp only [List.mem_append]; exact .inr (.inr hc)
  subst hl hn
  simp [braced] at e1
  subst e1
  simp only [expandLookahead, hm, Option.getD_some, e2, e3, e4, Go.bind_ok, Int.toNat_natCast]
  simp [noCapture_nil, dissolveLookaround, paren]

theorem expandLookbehind_plain {x : Bytes} (h1 : 0x5E ∉ x) (h2 : 0x7B ∉ x) :
    expandLookbehind x = .ok ([0x28, 0x29, 0x28, 0x29] ++ x, [], 0) := by
  obtain ⟨m, hm⟩ := lookbehind_matches x
  obtain ⟨other, look, n, _, e1, e2, e3, e4⟩ := lookbehind_split hm
  have hl : look = [] := braced_nil_of h2 fun c hc => by rw [e1]; simp [hc]
  have hn : n = 0 := replicate_nil_of h1 fun c hc => by rw [e1]; simp only [List.mem_append]; exact .inl hc
  subst hl hn
  simp [braced] at e1
  subst e1
  simp only [expandLookbehind, hm, Option.getD_some, e2, e3, e4, Go.bind_ok]
  simp [noCapture_nil, dissolveLookaround, paren, braced]

theorem no_zeroWidth {x : Bytes} (h : 0x7B ∉ x) : matchString reZeroWidth x = false := by
  cases hm : matchString reZeroWidth x with
  | false => rfl
  | true =>
    exfalso
    unfold matchString at hm
    obtain ⟨⟨p, s⟩, hs⟩ := Option.isSome_iff_exists.1 hm
    obtain ⟨u, v, e1, _, e3⟩ := searchFrom_some hs
    obtain ⟨n1, n2, b, _, _, e4, _⟩ := run_braces e3
    simp only [start] at e4
    refine h (mem_of_runes_ascii (c := 0x7B) (by decide) (x := x) ?_)
    rw [runes, e1, e4]
    simp

theorem expandEdges_plain {x : Bytes} (h1 : 0x5E ∉ x) (h2 : 0x24 ∉ x) : expandEdges x = x := by
  have e : ∀ {k : UInt8} (f : Nat → Bytes) {y : Bytes}, k ∉ y → mapRuns k f 0 y = y := by
    intro k f y hy
    have := mapRuns_none f hy []
    simpa [mapRuns] using this
  rw [expandEdges_eq, e _ h1, e _ h2]

/-- The pattern of text and vars. -/
theorem newPattern_simple {vars : List (Bytes × List Bytes)} {items : List Item} (h : ∀ it ∈ items, it.Simple vars)
    (hne : written items ≠ []) :
    ∃ letters, newPattern (written items) [] vars =
      .ok ⟨written items, reOf items, none, none, 0, 0, letters, valsOf items⟩ := by
  have h0 : (written items).isEmpty = false := by simpa using hne
  have c1 := not_mem_expanded (c := 0x5E) (by simp) h
  have c2 := not_mem_expanded (c := 0x24) (by simp) h
  have c3 := not_mem_expanded (c := 0x7B) (by simp) h
  have cm : ∀ c : UInt8, c ≠ 0x28 → c ≠ 0x29 → c ∉ expanded items →
      c ∉ expanded items ++ [0x28, 0x29, 0x28, 0x29] := by
    intro c d1 d2 d3
    simp [d1, d2, d3]
  have cn : ∀ c : UInt8, c ≠ 0x28 → c ≠ 0x29 → c ∉ expanded items →
      c ∉ [0x28, 0x29, 0x28, 0x29] ++ (expanded items ++ [0x28, 0x29, 0x28, 0x29]) := by
    intro c d1 d2 d3
    simp [d1, d2, d3]
  have e : expandLookaround (expanded items) =
      .ok ⟨[0x28, 0x29, 0x28, 0x29] ++ (expanded items ++ [0x28, 0x29, 0x28, 0x29]), [], [], 0, 0⟩ := by
    simp only [expandLookaround, expandLookahead_plain c2 c3, Go.bind_ok,
      expandLookbehind_plain (cm 0x5E (by decide) (by decide) c1) (cm 0x7B (by decide) (by decide) c3),
      no_zeroWidth (cn 0x7B (by decide) (by decide) c3)]
    rfl
  refine ⟨sortRunes (splitLetters (regexpLetters
    ([0x28, 0x29, 0x28, 0x29] ++ (expanded items ++ [0x28, 0x29, 0x28, 0x29]) ++ [] ++ []))), ?_⟩
  simp only [newPattern, h0, expandMacros_nil, expandVars_written fun x hx => (h x hx).1, e, Go.bind_ok,
    expandEdges_plain (cn 0x5E (by decide) (by decide) c1) (cn 0x24 (by decide) (by decide) c2),
    (compile_expanded h).1, compileOpt_nil]
  rfl

end Verif.Hre
