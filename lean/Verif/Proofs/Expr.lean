import Verif.Proofs.Leftmost
import Verif.Proofs.VarParse
import Verif.Proofs.Firm
import Verif.Proofs.ExprOrder

/-! The expressions of `Spec/Expr.lean` are parsed as they are meant. -/

namespace Verif.Spec.Expr

open Verif.Rx Verif.Spec
open Verif.Hre (maxWidth maxWidthCat maxWidthAlt)

/-- Without vars. -/
def Raw : Expr → Prop
  | .nothing | .any => True
  | .char c => Proper c
  | .oneOf ranges => ranges ≠ [] ∧ ∀ p ∈ ranges, Proper p.1 ∧ Proper p.2 ∧ p.1 ≤ p.2
  | .var _ _ => False
  | .seq a b => Raw a ∧ Raw b ∧ isOr a = false ∧ isOr b = false
  | .or a b => Raw a ∧ Raw b
  | .group _ a => Raw a
  | .opt _ a | .many _ a | .more _ a => Raw a ∧ isAtom a = true

/-! ## Tokens -/

def toks : Expr → List Tok
  | .nothing | .var _ _ => []
  | .char c => [.lit c]
  | .any => [.re .anyNotNL]
  | .oneOf ranges => [.re (.cls false ranges)]
  | .seq a b => toks a ++ toks b
  | .or a b => toks a ++ .bar :: toks b
  | .group captures a => (if captures then .open else .openNC) :: (toks a ++ [.close])
  | .opt g a => toks a ++ [.quest g]
  | .many g a => toks a ++ [.star g]
  | .more g a => toks a ++ [.plus g]

theorem special_iff {c : Rune} : special c = true ↔ c = 0x5C ∨ c = 0x2E ∨ c = 0x2B ∨ c = 0x2A ∨ c = 0x3F ∨ c = 0x28 ∨
    c = 0x29 ∨ c = 0x7C ∨ c = 0x5B ∨ c = 0x5D ∨ c = 0x7B ∨ c = 0x7D ∨ c = 0x5E ∨ c = 0x24 := by
  simp [special]

theorem escape_special {c : Rune} (h : special c = true ∨ c = 0x2D) : escapeRune c = .ok c ∧ perlClass c = none ∧
    c ≠ 0x70 ∧ c ≠ 0x50 ∧ escapeTok c = .ok (.lit c) := by
  rw [special_iff] at h
  rcases h with (h | h | h | h | h | h | h | h | h | h | h | h | h | h) | h <;> subst h <;>
    exact ⟨rfl, rfl, by decide, by decide, rfl⟩

theorem head_charText {c : Rune} {x : List Rune} : (charText c ++ x).head? ≠ some 0x3F := by
  unfold charText
  split
  · simp
  · rename_i h
    simp only [special_iff] at h
    simp only [List.singleton_append, List.head?_cons, ne_eq, Option.some.injEq]
    intro h'
    exact h (by simp [h'])

theorem head_atom {e : Expr} (h : isAtom e = true) {x : List Rune} : (text e ++ x).head? ≠ some 0x3F := by
  cases e with
  | char c => exact head_charText
  | group c a => cases c <;> simp [text]
  | any | oneOf | var => simp [text]
  | nothing | seq | or | opt | many | more => simp [isAtom] at h

theorem head_text : ∀ {e : Expr} {x : List Rune}, Raw e → x.head? ≠ some 0x3F → (text e ++ x).head? ≠ some 0x3F
  | .nothing, x, _, h => by simpa [text] using h
  | .char c, x, _, _ => head_charText
  | .any, x, _, _ => by simp [text]
  | .oneOf r, x, _, _ => by simp [text]
  | .var n v, x, _, _ => by simp [text]
  | .seq a b, x, hr, h => by
    rw [text, List.append_assoc]
    exact head_text hr.1 (head_text hr.2.1 h)
  | .or a b, x, hr, h => by
    rw [text, List.append_assoc]
    exact head_text hr.1 (by simp)
  | .group c a, x, hr, h => by cases c <;> simp [text]
  | .opt g a, x, hr, h => by
    rw [text, List.append_assoc]
    exact head_atom hr.2
  | .many g a, x, hr, h => by
    rw [text, List.append_assoc]
    exact head_atom hr.2
  | .more g a, x, hr, h => by
    rw [text, List.append_assoc]
    exact head_atom hr.2

/-! ## Classes -/

theorem classItems_skip {u t : List Rune} {first : Bool} :
    classItems u.length first (u ++ t) = (classItems 0 first t).bind fun x => .ok (x.1, x.2 + u.length) := by
  induction u with
  | nil => cases h : classItems 0 first t <;> simp [h, Go.bind]
  | cons a u ih =>
    simp only [List.length_cons, List.cons_append, classItems, ih]
    cases h : classItems 0 first t <;> simp [Go.bind]
    omega

/-- What can follow an item of a class: no unescaped `-`. -/
theorem member_ne {c : Rune} (h : ¬ (special c || c == 0x2D) = true) : c ≠ 0x5C ∧ c ≠ 0x5B ∧ c ≠ 0x5D ∧ c ≠ 0x2D := by
  simp only [Bool.or_eq_true, special_iff, beq_iff_eq, not_or] at h
  omega

theorem classChar_member {c : Rune} {x : List Rune} :
    classChar (memberText c ++ x) = .ok (c, (memberText c).length) ∧ startsPosix (memberText c ++ x) = false ∧
      perlItem (memberText c ++ x) = none ∧ (memberText c ++ x).head? ≠ some 0x5D ∧
      (memberText c ++ x).head? ≠ some 0x2D ∧ memberText c ≠ [] := by
  unfold memberText
  split
  · rename_i h
    simp only [Bool.or_eq_true, beq_iff_eq] at h
    obtain ⟨h1, h2, h3, h4, _⟩ := escape_special h
    refine ⟨?_, ?_, ?_, by simp, by simp, by simp⟩
    · simp [classChar, h1, Go.bind]
    · cases x <;> simp [startsPosix]
    · simp [perlItem, h2, h3, h4]
  · rename_i h
    obtain ⟨h1, h2, h3, h4⟩ := member_ne h
    refine ⟨?_, ?_, ?_, by simp [h3], by simp [h4], by simp⟩
    · simp [classChar, h1]
    · match x with
      | [] | [_] => simp [startsPosix]
      | _ :: _ :: _ => simp [startsPosix, h2]
    · cases x <;> simp [perlItem, h1]

theorem classItem_range {p : Rune × Rune} (hp : p.1 ≤ p.2) {x : List Rune} (hx : x.head? ≠ some 0x2D) :
    classItem (rangeText p ++ x) = .ok ([p], (rangeText p).length) := by
  obtain ⟨a, b⟩ := p
  simp only at hp
  unfold rangeText
  simp only
  split
  · rename_i h
    subst h
    obtain ⟨h1, h2, h3, _⟩ := classChar_member (c := a) (x := x)
    simp only [classItem, h2, h3, h1, Go.bind, List.drop_left]
    match x, hx with
    | [], _ | [_], _ => simp [rangeItem]
    | c :: d :: t, hx =>
      have : c ≠ 0x2D := by simpa using hx
      simp [rangeItem, this]
  · rw [List.append_assoc]
    obtain ⟨h1, h2, h3, _⟩ := classChar_member (c := a) (x := 0x2D :: memberText b ++ x)
    obtain ⟨k1, k2, k3, k4, k5, k6⟩ := classChar_member (c := b) (x := x)
    simp only [classItem, h2, h3, h1, Go.bind, List.drop_left]
    cases hb : memberText b with
    | nil => exact absurd hb k6
    | cons d t =>
      rw [hb] at k1 k4
      have hd : d ≠ 0x5D := by simpa using k4
      simp only [List.cons_append] at k1
      have : ¬ b < a := by omega
      simp [rangeItem, hd, k1, Go.bind, this]
      omega

theorem head_range {p : Rune × Rune} {x : List Rune} : (rangeText p ++ x).head? ≠ some 0x5D ∧
    (rangeText p ++ x).head? ≠ some 0x2D ∧ rangeText p ≠ [] := by
  unfold rangeText
  split
  · exact ⟨classChar_member.2.2.2.1, classChar_member.2.2.2.2.1, (classChar_member (x := [])).2.2.2.2.2⟩
  · rw [List.append_assoc]
    refine ⟨classChar_member.2.2.2.1, classChar_member.2.2.2.2.1, ?_⟩
    simp

theorem classItems_ranges : ∀ {ranges : List (Rune × Rune)} {first : Bool} {x : List Rune}, (∀ p ∈ ranges, p.1 ≤ p.2) →
    (first = true → ranges ≠ []) →
    classItems 0 first (ranges.flatMap rangeText ++ 0x5D :: x) = .ok (ranges, (ranges.flatMap rangeText).length + 1)
  | [], first, x, _, h => by
    have : first = false := by cases first <;> simp_all
    subst this
    simp [classItems]
  | p :: ps, first, x, h, _ => by
    have ih := classItems_ranges (ranges := ps) (first := false) (x := x) (fun q hq => h q (by simp [hq])) (by simp)
    have hx : (ps.flatMap rangeText ++ 0x5D :: x).head? ≠ some 0x2D := by
      cases ps with
      | nil => simp
      | cons q qs => rw [List.flatMap_cons, List.append_assoc]; exact head_range.2.1
    rw [List.flatMap_cons, List.append_assoc]
    have hi := classItem_range (h p (by simp)) hx
    obtain ⟨k1, _, k3⟩ := head_range (p := p) (x := ps.flatMap rangeText ++ 0x5D :: x)
    cases hp : rangeText p with
    | nil => exact absurd hp k3
    | cons c t =>
      rw [hp] at hi k1
      have hc : c ≠ 0x5D := by simpa using k1
      simp only [List.cons_append] at hi ⊢
      simp only [classItems, hi, Go.bind, List.length_cons, Nat.add_sub_cancel, classItems_skip, ih]
      simp [hc]
      omega

theorem lexClass_ranges {ranges : List (Rune × Rune)} (h0 : ranges ≠ []) (h : ∀ p ∈ ranges, Proper p.1 ∧ Proper p.2 ∧ p.1 ≤ p.2)
    {x : List Rune} : lexClass (ranges.flatMap rangeText ++ 0x5D :: x) =
      .ok (.re (.cls false ranges), (ranges.flatMap rangeText).length + 1) := by
  have hh : (ranges.flatMap rangeText ++ 0x5D :: x).head? ≠ some 0x5E := by
    cases ranges with
    | nil => exact absurd rfl h0
    | cons p ps =>
      have := (h p (by simp)).1.2.1
      simp only [List.flatMap_cons, rangeText, memberText]
      split <;> split <;> simp_all
  unfold lexClass
  rw [if_neg hh, classItems_ranges (fun p hp => (h p hp).2.2) (fun _ => h0)]
  rfl

/-! ## Splitting into tokens -/

theorem lexFrom_skip {u t : List Rune} : lexFrom u.length (u ++ t) = lexFrom 0 t := by
  induction u with
  | nil => rfl
  | cons a u ih => simpa [lexFrom] using ih

theorem lexFrom_mark {g : Bool} {x : List Rune} (h : g = true → x.head? ≠ some 0x3F) :
    lazyMark (mark g ++ x) = !g ∧ lexFrom (!g).toNat (mark g ++ x) = lexFrom 0 x := by
  cases g
  · refine ⟨rfl, ?_⟩
    simp [mark, lexFrom]
  · have := h rfl
    simp [lazyMark, mark, this]

theorem lex_char {c : Rune} (h : Proper c) {x : List Rune} :
    lexFrom 0 (charText c ++ x) = (lexFrom 0 x).bind fun ts => .ok (.lit c :: ts) := by
  unfold charText
  split
  · rename_i hs
    have := (escape_special (.inl hs)).2.2.2.2
    simp [lexFrom, lexOne, this, Go.bind]
  · rename_i hs
    simp only [special_iff, not_or] at hs
    obtain ⟨h1, h2, h3, h4⟩ := h
    simp [lexFrom, lexOne, hs, Go.bind]

theorem lex_text : ∀ {e : Expr} {x : List Rune}, Raw e → (isAtom e = true ∨ x.head? ≠ some 0x3F) →
    lexFrom 0 (text e ++ x) = (lexFrom 0 x).bind fun ts => .ok (toks e ++ ts)
  | .nothing, x, _, _ => by simp only [text, toks, List.nil_append]; cases lexFrom 0 x <;> rfl
  | .char c, x, hr, _ => lex_char hr
  | .any, x, _, _ => by simp [text, toks, lexFrom, lexOne, Go.bind]
  | .oneOf r, x, hr, _ => by
    have : text (.oneOf r) ++ x = 0x5B :: (r.flatMap rangeText ++ 0x5D :: x) := by simp [text]
    rw [this]
    have h1 : lexFrom ((r.flatMap rangeText).length + 1) (r.flatMap rangeText ++ 0x5D :: x) = lexFrom 0 x := by
      have := lexFrom_skip (u := r.flatMap rangeText ++ [0x5D]) (t := x)
      simpa using this
    have h2 : lexOne 0x5B (r.flatMap rangeText ++ 0x5D :: x) =
        .ok (.re (.cls false r), (r.flatMap rangeText).length + 1) := by
      simp [lexOne, lexClass_ranges hr.1 hr.2]
    simp only [lexFrom, h2, Go.bind, h1, toks, List.singleton_append]
  | .var n v, x, hr, _ => hr.elim
  | .seq a b, x, hr, h => by
    have hx : x.head? ≠ some 0x3F := by simpa [isAtom] using h
    rw [text, List.append_assoc, lex_text hr.1 (.inr (head_text hr.2.1 hx)), lex_text hr.2.1 (.inr hx), toks]
    cases lexFrom 0 x <;> simp [Go.bind]
  | .or a b, x, hr, h => by
    have hx : x.head? ≠ some 0x3F := by simpa [isAtom] using h
    rw [text, List.append_assoc, lex_text hr.1 (.inr (by simp)), List.cons_append]
    have : lexFrom 0 (0x7C :: (text b ++ x)) = (lexFrom 0 (text b ++ x)).bind fun ts => .ok (.bar :: ts) := by
      simp [lexFrom, lexOne, Go.bind]
    rw [this, lex_text hr.2 (.inr hx), toks]
    cases lexFrom 0 x <;> simp [Go.bind]
  | .group c a, x, hr, h => by
    have hx : ∀ y, (text a ++ 0x29 :: y).head? ≠ some 0x3F := fun y => head_text hr (by simp)
    have e2 : lexFrom 0 (0x29 :: x) = (lexFrom 0 x).bind fun ts => .ok (.close :: ts) := by
      simp [lexFrom, lexOne, Go.bind]
    have e1 : lexFrom 0 (text a ++ 0x29 :: x) = (lexFrom 0 x).bind fun ts => .ok (toks a ++ .close :: ts) := by
      rw [lex_text (e := a) hr (.inr (by simp)), e2]
      cases lexFrom 0 x <;> simp [Go.bind]
    cases c
    · have : text (.group false a) ++ x = 0x28 :: 0x3F :: 0x3A :: (text a ++ 0x29 :: x) := by simp [text]
      rw [this]
      simp only [lexFrom, lexOne, List.take_succ_cons, List.take_zero, if_true, Go.bind, e1, toks]
      cases lexFrom 0 x <;> simp
    · have : text (.group true a) ++ x = 0x28 :: (text a ++ 0x29 :: x) := by simp [text]
      rw [this]
      have h1 : lexOne 0x28 (text a ++ 0x29 :: x) = .ok (.open, 0) := by
        have := hx x
        cases ht : text a ++ 0x29 :: x with
        | nil => simp at ht
        | cons d t =>
          rw [ht] at this
          have : d ≠ 0x3F := by simpa using this
          simp [lexOne, this]
      simp only [lexFrom, h1, Go.bind, e1, toks]
      cases lexFrom 0 x <;> simp
  | .opt g a, x, hr, h => by
    have hx : x.head? ≠ some 0x3F := by simpa [isAtom] using h
    rw [text, List.append_assoc, lex_text hr.1 (.inl hr.2), List.cons_append]
    obtain ⟨m1, m2⟩ := lexFrom_mark (g := g) (x := x) fun _ => hx
    have : lexFrom 0 (0x3F :: (mark g ++ x)) = (lexFrom 0 x).bind fun ts => .ok (.quest g :: ts) := by
      simp [lexFrom, lexOne, Go.bind, m1, m2]
    rw [this, toks]
    cases lexFrom 0 x <;> simp [Go.bind]
  | .many g a, x, hr, h => by
    have hx : x.head? ≠ some 0x3F := by simpa [isAtom] using h
    rw [text, List.append_assoc, lex_text hr.1 (.inl hr.2), List.cons_append]
    obtain ⟨m1, m2⟩ := lexFrom_mark (g := g) (x := x) fun _ => hx
    have : lexFrom 0 (0x2A :: (mark g ++ x)) = (lexFrom 0 x).bind fun ts => .ok (.star g :: ts) := by
      simp [lexFrom, lexOne, Go.bind, m1, m2]
    rw [this, toks]
    cases lexFrom 0 x <;> simp [Go.bind]
  | .more g a, x, hr, h => by
    have hx : x.head? ≠ some 0x3F := by simpa [isAtom] using h
    rw [text, List.append_assoc, lex_text hr.1 (.inl hr.2), List.cons_append]
    obtain ⟨m1, m2⟩ := lexFrom_mark (g := g) (x := x) fun _ => hx
    have : lexFrom 0 (0x2B :: (mark g ++ x)) = (lexFrom 0 x).bind fun ts => .ok (.plus g :: ts) := by
      simp [lexFrom, lexOne, Go.bind, m1, m2]
    rw [this, toks]
    cases lexFrom 0 x <;> simp [Go.bind]

/-! ## The syntax tree -/

theorem minW_mkCat {l : List Re} : minW (mkCat l) = minWCat l.reverse := by
  match l with
  | [] => rfl
  | [r] => simp [mkCat, minWCat]
  | a :: b :: l => simp [mkCat, minW]

theorem minWAlt_pos : ∀ {rs : List Re}, rs ≠ [] → (∀ r ∈ rs, 1 ≤ minW r) → 1 ≤ minWAlt rs
  | [], h, _ => absurd rfl h
  | [r], _, h => h r (by simp)
  | r :: q :: rs, _, h => by
    have h1 := h r (by simp)
    have h2 := minWAlt_pos (rs := q :: rs) (by simp) fun x hx => h x (by simp [hx])
    simp only [minWAlt]
    omega

theorem minWCat_append {a b : List Re} : minWCat (a ++ b) = minWCat a + minWCat b := by
  induction a with
  | nil => simp [minWCat]
  | cons r a ih => simp [minWCat, ih]; omega

theorem plainList_iff {rs : List Re} : PlainList rs = true ↔ ∀ r ∈ rs, Plain r = true := by
  induction rs with
  | nil => simp [PlainList]
  | cons r rs ih => simp [PlainList, ih]

theorem plain_of_mkCat {l : List Re} (h : PlainList l.reverse = true) : Plain (mkCat l) = true := by
  match l with
  | [] => rfl
  | [r] => simpa [mkCat, PlainList] using h
  | a :: b :: l => simpa only [mkCat, Plain] using h

theorem lang_mkAlt {a : Re} {as : List Re} {u : List Rune} : Lang (mkAlt (a :: as)) u ↔ ∃ r ∈ a :: as, Lang r u := by
  match as with
  | [] => simp [mkAlt]
  | b :: as => simp only [mkAlt, lang_alt_iff, List.mem_reverse]

theorem plain_mkAlt {a : Re} {as : List Re} (h : ∀ r ∈ a :: as, Plain r = true) : Plain (mkAlt (a :: as)) = true := by
  match as with
  | [] => exact h a (by simp)
  | b :: as =>
    simp only [mkAlt, Plain, plainList_iff, List.mem_reverse]
    exact h

theorem minW_mkAlt {a : Re} {as : List Re} (h : ∀ r ∈ a :: as, 1 ≤ minW r) : 1 ≤ minW (mkAlt (a :: as)) := by
  match as with
  | [] => exact h a (by simp)
  | b :: as =>
    simp only [mkAlt, minW]
    exact minWAlt_pos (by simp) fun r hr => h r (List.mem_reverse.1 hr)

/-- A width as the code has it. -/
def wint : Option Nat → Int
  | none => -1
  | some n => n

theorem wint_ge (w : Option Nat) : -1 ≤ wint w := by
  cases w <;> simp [wint]

theorem wint_ne (n : Nat) : wint (some n) ≠ -1 := by simp [wint]

theorem maxWidthCat_append : ∀ {x y : List Re} {t : Int}, 0 ≤ t → (∀ r ∈ x, -1 ≤ maxWidth r) →
    maxWidthCat (x ++ y) t = if maxWidthCat x t = -1 then -1 else maxWidthCat y (maxWidthCat x t)
  | [], y, t, ht, _ => by
    rw [List.nil_append, maxWidthCat, if_neg (by omega)]
  | r :: x, y, t, ht, hx => by
    have h1 := hx r (by simp)
    simp only [List.cons_append, maxWidthCat]
    by_cases h : maxWidth r = -1
    · simp [h]
    · simp only [if_neg h]
      exact maxWidthCat_append (by omega) fun q hq => hx q (by simp [hq])

theorem maxWidthAlt_ge_of : ∀ {x : List Re} {t : Int}, maxWidthAlt x t = -1 ∨ t ≤ maxWidthAlt x t
  | [], t => .inr (by simp [maxWidthAlt])
  | r :: x, t => by
    simp only [maxWidthAlt]
    by_cases h : maxWidth r = -1
    · simp [h]
    · simp only [if_neg h]
      rcases maxWidthAlt_ge_of (x := x) (t := if maxWidth r > t then maxWidth r else t) with h1 | h1
      · exact .inl h1
      · refine .inr (Int.le_trans ?_ h1)
        split <;> omega

theorem maxWidthAlt_append : ∀ {x y : List Re} {t : Int}, 0 ≤ t →
    maxWidthAlt (x ++ y) t = if maxWidthAlt x t = -1 then -1 else maxWidthAlt y (maxWidthAlt x t)
  | [], y, t, ht => by
    rw [List.nil_append, maxWidthAlt, if_neg (by omega)]
  | r :: x, y, t, ht => by
    simp only [List.cons_append, maxWidthAlt]
    by_cases h : maxWidth r = -1
    · simp [h]
    · simp only [if_neg h]
      exact maxWidthAlt_append (by split <;> omega)

theorem maxWidth_mkCat {l : List Re} : maxWidth (mkCat l) = maxWidthCat l.reverse 0 := by
  match l with
  | [] => rfl
  | [r] =>
    simp only [mkCat, List.reverse_cons, List.reverse_nil, List.nil_append, maxWidthCat]
    split
    · assumption
    · simp
  | a :: b :: l => simp [mkCat, maxWidth]

theorem maxWidth_mkAlt {a : Re} {as : List Re} (h : -1 ≤ maxWidth a) :
    maxWidth (mkAlt (a :: as)) = maxWidthAlt (a :: as).reverse 0 := by
  match as with
  | [] =>
    simp only [mkAlt, List.reverse_cons, List.reverse_nil, List.nil_append, maxWidthAlt]
    split
    · assumption
    · split <;> omega
  | b :: as => simp [mkAlt, maxWidth]

/-- Items that mean the same as an expression. -/
structure Same (e : Expr) (r : Re) : Prop where
  lang : ∀ u, Lang r u ↔ Means e u
  plain : Plain r = true
  width : ¬ Means e [] → 1 ≤ minW r
  wide : maxWidth r = wint (Expr.width e)
  ord : ∀ k, Ord (run (shiftCap k r)) (rests e)

/-- The items an expression appends. -/
structure Items (e : Expr) (st st' : PSt) (rs : List Re) : Prop where
  cap : st'.cur.cap = st.cur.cap
  alts : st'.cur.alts = st.cur.alts
  cat : st'.cur.cat = rs.reverse ++ st.cur.cat
  stack : st'.stack = st.stack
  same : Same e (.cat rs)
  wide : ∀ t : Nat, maxWidthCat rs t = wint ((Expr.width e).map (t + ·))
  least : ∀ r ∈ rs, -1 ≤ maxWidth r
  atom : isAtom e = true → st'.lastRep = false ∧ ∃ r, rs = [r]

/-- The alternatives an expression appends in an empty group. -/
structure Alts (e : Expr) (st st' : PSt) (a : Re) (as : List Re) : Prop where
  cap : st'.cur.cap = st.cur.cap
  alts : st'.cur.alts = as ++ st.cur.alts
  cat : mkCat st'.cur.cat = a
  stack : st'.stack = st.stack
  lang : ∀ u, (∃ r ∈ a :: as, Lang r u) ↔ Means e u
  plain : ∀ r ∈ a :: as, Plain r = true
  width : ¬ Means e [] → ∀ r ∈ a :: as, 1 ≤ minW r
  wide : ∀ t : Nat, maxWidthAlt (a :: as).reverse t = wint ((Expr.width e).map (max t ·))
  least : ∀ r ∈ a :: as, -1 ≤ maxWidth r
  ord : ∀ k, Ord (runAlt ((a :: as).reverse.map (shiftCap k))) (rests e)

theorem Items.toAlts {e : Expr} {st st' : PSt} {rs : List Re} (h : Items e st st' rs) (h0 : st.cur.cat = []) :
    Alts e st st' (mkCat rs.reverse) [] where
  cap := h.cap
  alts := by simp [h.alts]
  cat := by rw [h.cat, h0, List.append_nil]
  stack := h.stack
  lang u := by simp [lang_mkCat, h.same.lang]
  plain := by
    have := h.same.plain
    simpa using plain_of_mkCat (l := rs.reverse) (by simpa [Plain] using this)
  width hn := by
    have := h.same.width hn
    simpa [minW_mkCat, minW] using this
  wide t := by
    have hw : maxWidth (mkCat rs.reverse) = wint (Expr.width e) := by
      rw [maxWidth_mkCat, List.reverse_reverse]
      exact h.same.wide
    simp only [List.reverse_cons, List.reverse_nil, List.nil_append, maxWidthAlt, hw]
    cases Expr.width e with
    | none => rfl
    | some n =>
      rw [if_neg (wint_ne n), Option.map_some]
      show (if (n : Int) > t then (n : Int) else t) = ((max t n : Nat) : Int)
      split <;> omega
  least r hr := by
    simp only [List.mem_cons, List.not_mem_nil, or_false] at hr
    subst hr
    rw [maxWidth_mkCat, List.reverse_reverse]
    have := h.same.wide
    simp only [maxWidth] at this
    rw [this]
    exact wint_ge _
  ord k s := by
    have := h.same.ord k s
    simp only [shiftCap, run, shiftCapList_eq] at this
    simp only [List.reverse_cons, List.reverse_nil, List.nil_append, List.map_cons, List.map_nil, runAlt, List.append_nil,
      shiftCap_mkCat, run_mkCat, List.map_reverse, List.reverse_reverse, this]

theorem maxWidthCat_one {r : Re} {w : Option Nat} (h : maxWidth r = wint w) (t : Nat) :
    maxWidthCat [r] t = wint (w.map (t + ·)) := by
  simp only [maxWidthCat, h]
  cases w with
  | none => rfl
  | some n =>
    rw [if_neg (wint_ne n)]
    simp only [wint, Option.map_some]
    omega

theorem same_one {e : Expr} {r : Re} (h : Same e r) : Same e (.cat [r]) where
  lang u := by
    simp only [lang_cat_cons, lang_cat_nil]
    rw [← h.lang]
    exact ⟨fun ⟨v, w, h1, h2, h3⟩ => by subst h3; simpa [h1] using h2, fun h => ⟨u, [], by simp, h, rfl⟩⟩
  plain := by simpa [Plain, PlainList] using h.plain
  width hn := by simpa [minW, minWCat] using h.width hn
  wide := by
    have := maxWidthCat_one h.wide 0
    simpa [maxWidth] using this
  ord k s := by
    rw [← h.ord k s, shiftCap, shiftCapList, shiftCapList, run, runCat]
    simp [runCat]

theorem same_of_one {e : Expr} {r : Re} (h : Same e (.cat [r])) : Same e r where
  lang u := by
    rw [← h.lang]
    simp only [lang_cat_cons, lang_cat_nil]
    exact ⟨fun h => ⟨u, [], by simp, h, rfl⟩, fun ⟨v, w, h1, h2, h3⟩ => by subst h3; simpa [h1] using h2⟩
  plain := by simpa [Plain, PlainList] using h.plain
  width hn := by simpa [minW, minWCat] using h.width hn
  wide := by
    have := h.wide
    simp only [maxWidth, maxWidthCat] at this
    split at this
    · rename_i h1; rw [h1, this]
    · simpa using this
  ord k s := by
    rw [← h.ord k s, shiftCap, shiftCapList, shiftCapList, run, runCat]
    simp [runCat]

/-- A single item. -/
theorem items_push {e : Expr} {st : PSt} {r : Re} (h : Same e r) : Items e st (st.push r) [r] where
  cap := rfl
  alts := rfl
  cat := rfl
  stack := rfl
  same := same_one h
  wide := maxWidthCat_one h.wide
  least q hq := by
    simp only [List.mem_cons, List.not_mem_nil, or_false] at hq
    subst hq
    exact h.wide ▸ wint_ge _
  atom _ := ⟨rfl, _, rfl⟩

theorem same_char {c : Rune} : Same (.char c) (.lit [c]) where
  lang u := ⟨fun h => by cases h; rfl, fun h => by rw [Means] at h; subst h; exact .lit _⟩
  plain := rfl
  width _ := by simp [minW]
  wide := rfl
  ord k s := by
    have := ord_one (p := (· == c)) (fun _ => rfl) s
    rw [rests, ← this, shiftCap, run, lits]
    · simp [lits]
    all_goals simp

theorem same_any : Same .any .anyNotNL where
  lang u := ⟨fun h => by cases h with | anyNotNL h => exact ⟨_, rfl, h⟩, fun ⟨c, h, h1⟩ => by subst h; exact .anyNotNL h1⟩
  plain := rfl
  width _ := by simp [minW]
  wide := rfl
  ord k s := ord_one (fun _ => rfl) s

theorem same_oneOf {ranges : List (Rune × Rune)} : Same (.oneOf ranges) (.cls false ranges) where
  lang u := ⟨fun h => by cases h with | cls h => exact ⟨_, rfl, h.2 rfl⟩, fun ⟨c, h, h1⟩ => by
    subst h; exact .cls (by simpa using h1)⟩
  plain := rfl
  width _ := by simp [minW]
  wide := rfl
  ord k s := ord_one (fun r => by simp) s

/-- A repetition of the only item of an atom. -/
theorem items_repeat {e a : Expr} {st st' : PSt} {rs : List Re} (h : Items a st st' rs) (ha : isAtom a = true)
    (he : isAtom e = false) {f : Re → Re} (hf : ∀ r, Same a r → Same e (f r)) :
    ∃ st'' rs', st'.repeat f = .ok st'' ∧ Items e st st'' rs' := by
  obtain ⟨h1, r, rfl⟩ := h.atom ha
  have hc : st'.cur.cat = r :: st.cur.cat := h.cat
  refine ⟨{ st' with cur := { st'.cur with cat := f r :: st.cur.cat }, lastRep := true }, [f r],
    by simp only [PSt.repeat, h1, hc], h.cap, h.alts, rfl, h.stack, same_one (hf r (same_of_one h.same)),
    maxWidthCat_one (hf r (same_of_one h.same)).wide, ?_, ?_⟩
  · intro q hq
    simp only [List.mem_cons, List.not_mem_nil, or_false] at hq
    subst hq
    exact (hf r (same_of_one h.same)).wide ▸ wint_ge _
  simp [he]

theorem parse_toks : ∀ (e : Expr), Raw e →
    (isOr e = false → ∀ st, ∃ st' rs, psteps st (toks e) = .ok st' ∧ Items e st st' rs) ∧
    (∀ st, st.cur.cat = [] → ∃ st' a as, psteps st (toks e) = .ok st' ∧ Alts e st st' a as) := by
  have up : ∀ e : Expr, (∀ st, ∃ st' rs, psteps st (toks e) = .ok st' ∧ Items e st st' rs) →
      (isOr e = false → ∀ st, ∃ st' rs, psteps st (toks e) = .ok st' ∧ Items e st st' rs) ∧
      (∀ st, st.cur.cat = [] → ∃ st' a as, psteps st (toks e) = .ok st' ∧ Alts e st st' a as) := by
    intro e h
    refine ⟨fun _ => h, fun st h0 => ?_⟩
    obtain ⟨st', rs, h1, h2⟩ := h st
    exact ⟨st', _, _, h1, h2.toAlts h0⟩
  intro e
  induction e with
  | nothing =>
    intro _
    refine up _ fun st => ⟨st, [], rfl, rfl, rfl, rfl, rfl, ⟨fun u => lang_cat_nil, rfl, fun h => absurd rfl h, rfl, fun k s => by simp [shiftCap, shiftCapList, run, runCat, rests]⟩, fun t => by simp [maxWidthCat, wint, Expr.width], by simp, by simp [isAtom]⟩
  | char c => exact fun _ => up _ fun st => ⟨_, _, rfl, items_push same_char⟩
  | any => exact fun _ => up _ fun st => ⟨_, _, rfl, items_push same_any⟩
  | oneOf r => exact fun _ => up _ fun st => ⟨_, _, rfl, items_push same_oneOf⟩
  | var n v => exact fun h => h.elim
  | seq a b iha ihb =>
    rintro ⟨ha, hb, oa, ob⟩
    refine up _ fun st => ?_
    obtain ⟨s1, r1, h1, i1⟩ := (iha ha).1 oa st
    obtain ⟨s2, r2, h2, i2⟩ := (ihb hb).1 ob s1
    have hwide : ∀ t : Nat, maxWidthCat (r1 ++ r2) t = wint ((Expr.width (.seq a b)).map (t + ·)) := by
      intro t
      rw [maxWidthCat_append (by omega) i1.least, i1.wide, Expr.width]
      cases Expr.width a with
      | none => rfl
      | some m =>
        simp only [Option.map_some, Option.bind_some]
        rw [if_neg (wint_ne _), wint, i2.wide]
        cases Expr.width b with
        | none => rfl
        | some n => simp only [wint, Option.map_some]; omega
    refine ⟨s2, r1 ++ r2, by rw [toks, psteps_append, h1]; exact h2, i2.cap.trans i1.cap, i2.alts.trans i1.alts, ?_,
      i2.stack.trans i1.stack, ⟨fun u => ?_, ?_, fun hn => ?_, ?_, fun k s => ?_⟩, hwide, ?_, by simp [isAtom]⟩
    · rw [i2.cat, i1.cat]; simp
    · simp only [lang_cat_append, i1.same.lang, i2.same.lang, Means]
    · have p1 := i1.same.plain
      have p2 := i2.same.plain
      simp only [Plain, plainList_iff] at p1 p2 ⊢
      intro r hr
      rcases List.mem_append.1 hr with h | h
      · exact p1 r h
      · exact p2 r h
    · simp only [minW, minWCat_append]
      by_cases hna : Means a []
      · have hnb : ¬ Means b [] := fun h => hn ⟨[], [], rfl, hna, h⟩
        have := i2.same.width hnb
        simp only [minW] at this
        omega
      · have := i1.same.width hna
        simp only [minW] at this
        omega
    · have := hwide 0
      simpa [maxWidth] using this
    · have o1 := i1.same.ord k
      have o2 := i2.same.ord k
      have := o1.flatMap o2 s
      simp only [shiftCap, run, shiftCapList_eq] at this
      rw [shiftCap, run, shiftCapList_eq, List.map_append, Verif.Hre.runCat_append, rests]
      exact this
    · intro r hr
      rcases List.mem_append.1 hr with h | h
      · exact i1.least r h
      · exact i2.least r h
  | or a b iha ihb =>
    rintro ⟨ha, hb⟩
    refine ⟨by simp [isOr], fun st h0 => ?_⟩
    obtain ⟨s1, r1, as1, h1, i1⟩ := (iha ha).2 st h0
    obtain ⟨s2, r2, as2, h2, i2⟩ := (ihb hb).2
      { s1 with cur := ⟨s1.cur.cap, mkCat s1.cur.cat :: s1.cur.alts, []⟩, lastRep := false } rfl
    refine ⟨s2, r2, as2 ++ r1 :: as1, ?_, i2.cap.trans i1.cap, ?_, i2.cat, i2.stack.trans i1.stack, fun u => ?_, ?_, fun hn => ?_, fun t => ?_, ?_, fun k s => ?_⟩
    · rw [toks, psteps_append, h1]
      simp only [Go.bind, psteps, pstep]
      exact h2
    · rw [i2.alts]
      simp [i1.alts, i1.cat]
    · rw [Means, ← i1.lang, ← i2.lang]
      constructor
      · rintro ⟨r, hr, hu⟩
        rcases List.mem_append.1 (show r ∈ (r2 :: as2) ++ (r1 :: as1) by simpa using hr) with h | h
        · exact .inr ⟨r, h, hu⟩
        · exact .inl ⟨r, h, hu⟩
      · rintro (⟨r, hr, hu⟩ | ⟨r, hr, hu⟩)
        · refine ⟨r, ?_, hu⟩
          have : r ∈ (r2 :: as2) ++ (r1 :: as1) := List.mem_append.2 (.inr hr)
          simpa using this
        · refine ⟨r, ?_, hu⟩
          have : r ∈ (r2 :: as2) ++ (r1 :: as1) := List.mem_append.2 (.inl hr)
          simpa using this
    · intro r hr
      rcases List.mem_append.1 (show r ∈ (r2 :: as2) ++ (r1 :: as1) by simpa using hr) with h | h
      · exact i2.plain r h
      · exact i1.plain r h
    · intro r hr
      rcases List.mem_append.1 (show r ∈ (r2 :: as2) ++ (r1 :: as1) by simpa using hr) with h | h
      · exact i2.width (fun h => hn (.inr h)) r h
      · exact i1.width (fun h => hn (.inl h)) r h
    · have : (r2 :: (as2 ++ r1 :: as1)).reverse = (r1 :: as1).reverse ++ (r2 :: as2).reverse := by simp
      rw [this, maxWidthAlt_append (by omega), i1.wide, Expr.width]
      cases Expr.width a with
      | none => rfl
      | some m =>
        simp only [Option.map_some, Option.bind_some]
        rw [if_neg (wint_ne _), wint, i2.wide]
        cases Expr.width b with
        | none => rfl
        | some n => simp only [wint, Option.map_some]; omega
    · intro r hr
      rcases List.mem_append.1 (show r ∈ (r2 :: as2) ++ (r1 :: as1) by simpa using hr) with h | h
      · exact i2.least r h
      · exact i1.least r h
    · have : (r2 :: (as2 ++ r1 :: as1)).reverse = (r1 :: as1).reverse ++ (r2 :: as2).reverse := by simp
      rw [this, List.map_append, runAlt_append, List.map_append, i1.ord k s, i2.ord k s, rests]
  | group c a ih =>
    intro ha
    refine up _ fun st => ?_
    have key : ∀ s0 : PSt, s0.cur.cat = [] → s0.cur.alts = [] → s0.stack = st.cur :: st.stack →
        ∃ st' rs, psteps s0 (toks a ++ [.close]) = .ok st' ∧ Items (.group c a) st st' rs := by
      intro s0 h0 h1 h2
      obtain ⟨s1, r1, as1, k1, i1⟩ := (ih ha).2 s0 h0
      have hm : Same (.group c a) (mkAlt (r1 :: as1)) := by
        refine ⟨fun u => by rw [lang_mkAlt, i1.lang, Means], plain_mkAlt i1.plain, fun hn => minW_mkAlt (i1.width (by simpa [Means] using hn)), ?_, fun k s => ?_⟩
        · rw [maxWidth_mkAlt (i1.least _ (by simp))]
          have := i1.wide 0
          simp only [Nat.zero_max, Option.map_id'] at this
          exact this
        · have := i1.ord k s
          rw [shiftCap_mkAlt, List.map_cons, run_mkAlt, ← List.map_cons, ← List.map_reverse, this, rests]
      have hb : s1.cur.body = mkAlt (r1 :: as1) := by
        rw [Frame.body, i1.cat, i1.alts, h1, List.append_nil]
      have hcl : Same (.group c a) s1.cur.close := by
        unfold Frame.close
        rw [hb]
        split
        · exact ⟨fun u => by rw [lang_cap_iff, hm.lang], by simpa [Plain] using hm.plain, fun hn => by simpa [minW] using hm.width hn,
            by simpa [maxWidth] using hm.wide, fun k => ord_cap (hm.ord k)⟩
        · exact hm
      refine ⟨PSt.push ⟨st.cur, st.stack, s1.ncap, false⟩ s1.cur.close, [s1.cur.close], ?_, ?_⟩
      · rw [psteps_append, k1]
        simp only [Go.bind, psteps, pstep, i1.stack, h2]
      · exact { items_push (st := ⟨st.cur, st.stack, s1.ncap, false⟩) hcl with }
    cases c
    · simp only [toks, psteps, pstep]
      exact key _ rfl rfl rfl
    · simp only [toks, psteps, pstep]
      exact key _ rfl rfl rfl
  | opt g a ih =>
    rintro ⟨ha, hat⟩
    refine up _ fun st => ?_
    obtain ⟨s1, r1, h1, i1⟩ := (ih ha).1 (by cases a <;> simp_all [isAtom, isOr]) st
    obtain ⟨s2, r2, h2, i2⟩ := items_repeat (e := .opt g a) (f := .quest g) i1 hat rfl fun r hr =>
      ⟨fun u => by rw [lang_quest_iff, hr.lang, Means], by simpa [Plain] using hr.plain, fun hn => absurd (.inl rfl) hn,
        by simpa [maxWidth, Expr.width] using hr.wide, fun k s => by rw [shiftCap, run, rests]; exact ord_quest (hr.ord k) s⟩
    refine ⟨s2, r2, ?_, i2⟩
    rw [toks, psteps_append, h1]
    simp only [Go.bind, psteps, pstep, h2]
  | many g a ih =>
    rintro ⟨ha, hat⟩
    refine up _ fun st => ?_
    obtain ⟨s1, r1, h1, i1⟩ := (ih ha).1 (by cases a <;> simp_all [isAtom, isOr]) st
    obtain ⟨s2, r2, h2, i2⟩ := items_repeat (e := .many g a) (f := .star g) i1 hat rfl fun r hr =>
      ⟨fun u => by simp only [lang_star_iff, hr.lang, Means], by simpa [Plain] using hr.plain,
        fun hn => absurd ⟨[], rfl, by simp⟩ hn, rfl, fun k s => by rw [shiftCap, run, rests]; exact ord_star (hr.ord k) s⟩
    refine ⟨s2, r2, ?_, i2⟩
    rw [toks, psteps_append, h1]
    simp only [Go.bind, psteps, pstep, h2]
  | more g a ih =>
    rintro ⟨ha, hat⟩
    refine up _ fun st => ?_
    obtain ⟨s1, r1, h1, i1⟩ := (ih ha).1 (by cases a <;> simp_all [isAtom, isOr]) st
    obtain ⟨s2, r2, h2, i2⟩ := items_repeat (e := .more g a) (f := .plus g) i1 hat rfl fun r hr =>
      ⟨fun u => by simp only [lang_plus_iff, hr.lang, Means], by simpa [Plain] using hr.plain,
        fun hn => by
          have := hr.width fun h => hn ⟨[[]], by simp, by simp, by simpa using h⟩
          simpa [minW] using this, rfl, fun k s => by rw [shiftCap, run, rests]; exact ord_plus (hr.ord k) s⟩
    refine ⟨s2, r2, ?_, i2⟩
    rw [toks, psteps_append, h1]
    simp only [Go.bind, psteps, pstep, h2]

end Verif.Spec.Expr
