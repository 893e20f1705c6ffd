import Verif.Proofs.WordSearch
import Verif.Proofs.Leftmost
import Verif.Proofs.Utf8Ascii

/-! The matches of a pattern in a text of two parts separated by a space. -/

namespace Verif.Words

open Verif.Rx Verif.Hre

/-! ## What is checked -/

/-- The negative lookahead matches no white space. -/
def aheadOk (p : Pattern) : Bool :=
  match p.negA with
  | none => true
  | some (.cat [.beginText, .cap _ e]) => inner e && decide (0 ≤ p.negAWidth)
  | _ => false

/-- The negative lookbehind matches one character which is not white space. -/
def behindOk (p : Pattern) : Bool :=
  match p.negB with
  | none => true
  | some (.cat [.cap _ e, .endText]) => inner e && eats e && decide (p.negBWidth = 1)
  | _ => false

/-- A pattern which matches inside words. -/
def wordly (p : Pattern) : Bool := within (numCap p.re) p.re && aheadOk p && behindOk p

/-! ## Parts -/

/-- No white space of patterns. -/
def Solid (x : Bytes) : Prop := ∀ b ∈ x, blank b.toNat = false

theorem blank_lt {c : Rune} (h : blank c = true) : c < 0x80 := by
  simp [blank] at h
  omega

theorem solid_decode {x : Bytes} (h : Solid x) : ∀ c ∈ decode x, blank c.1 = false := by
  suffices ∀ n (x : Bytes), x.length ≤ n → Solid x → ∀ c ∈ decode x, blank c.1 = false from this _ x (Nat.le_refl _) h
  intro n
  induction n with
  | zero =>
    intro x hx _ c hc
    have : x = [] := by simpa using hx
    simp [this, decode_nil] at hc
  | succ n ih =>
    intro x hx hs c hc
    cases x with
    | nil => simp [decode_nil] at hc
    | cons b t =>
      rw [decode_cons] at hc
      rcases List.mem_cons.1 hc with rfl | hc
      · cases hb : blank (decodeRune b t).1 with
        | false => rfl
        | true =>
          obtain ⟨e, _⟩ := decodeRune_lt (blank_lt hb)
          rw [e] at hb
          rw [← hb]
          exact (hs b (by simp)).symm ▸ rfl
      · refine ih _ ?_ (fun b hb => hs b (List.mem_cons_of_mem _ (List.mem_of_mem_drop hb))) c hc
        simp at hx ⊢
        omega

theorem Solid.drop {x : Bytes} (h : Solid x) (n : Nat) : Solid (x.drop n) := fun b hb => h b (List.mem_of_mem_drop hb)
theorem Solid.take {x : Bytes} (h : Solid x) (n : Nat) : Solid (x.take n) := fun b hb => h b (List.mem_of_mem_take hb)

/-- Two parts. -/
def both (x y : Bytes) : Bytes := x ++ 0x20 :: y

@[simp] theorem length_both (x y : Bytes) : (both x y).length = x.length + 1 + y.length := by
  simp [both]; omega

theorem decode_both (x y : Bytes) : decode (both x y) = decode x ++ space :: decode y := decode_split x (by decide) y

theorem drop_both {x : Bytes} (y : Bytes) {o : Nat} (h : o ≤ x.length) : (both x y).drop o = both (x.drop o) y := by
  unfold both
  rw [List.drop_append_of_le_length h]

theorem drop_both_late (x y : Bytes) (o : Nat) : (both x y).drop (x.length + 1 + o) = y.drop o := by
  unfold both
  rw [← List.drop_drop, show x ++ 0x20 :: y = (x ++ [0x20]) ++ y by simp, List.drop_left' (by simp)]

theorem decode_drop_both {x : Bytes} (y : Bytes) {o : Nat} (h : o ≤ x.length) :
    decode ((both x y).drop o) = decode (x.drop o) ++ space :: decode y := by rw [drop_both y h, decode_both]

/-! ## Substrings -/

theorem substr_first {x : Bytes} (y : Bytes) (a : Int) {b : Int} (hb : b ≤ x.length) :
    substr (both x y) a b = substr x a b := by
  unfold substr
  split
  · rfl
  · rename_i h
    by_cases h1 : a ≥ (x.length : Int)
    · rw [if_pos h1]
      split
      · rfl
      · have e : (if b > ((both x y).length : Int) then ((both x y).length : Int) else b) = b := by
          rw [if_neg]; simp; omega
        simp only [e]
        rw [if_neg (by omega)]
    · rw [if_neg h1, if_neg (by simp; omega)]
      have e : (if b > ((both x y).length : Int) then ((both x y).length : Int) else b) = b := by
        rw [if_neg]; simp; omega
      have e' : (if b > (x.length : Int) then (x.length : Int) else b) = b := by
        rw [if_neg]; omega
      simp only [e, e']
      split
      · unfold both
        rw [List.drop_append_of_le_length (by omega), List.take_append_of_le_length]
        rw [List.length_drop]; omega
      · rfl

theorem substr_second (x y : Bytes) {a b : Int} (ha : 0 ≤ a) (hb : 0 ≤ b) :
    substr (both x y) (a + (x.length + 1 : Nat)) (b + (x.length + 1 : Nat)) = substr y a b := by
  have hA : ¬ (a + (x.length + 1 : Nat) < 0 ∨ b + (x.length + 1 : Nat) < 0) := by omega
  have hB : ¬ (a < 0 ∨ b < 0) := by omega
  have hC : a + (x.length + 1 : Nat) ≥ ((both x y).length : Int) ↔ a ≥ (y.length : Int) := by simp; omega
  unfold substr
  rw [if_neg hA, if_neg hB]
  by_cases h1 : a ≥ (y.length : Int)
  · rw [if_pos h1, if_pos (hC.2 h1)]
  · rw [if_neg h1, if_neg (fun h => h1 (hC.1 h))]
    have e : (if b + (x.length + 1 : Nat) > ((both x y).length : Int) then ((both x y).length : Int) else b + (x.length + 1 : Nat)) =
        (if b > (y.length : Int) then (y.length : Int) else b) + (x.length + 1 : Nat) := by
      simp only [length_both]
      split <;> split <;> omega
    simp only [e]
    obtain ⟨b', hb'⟩ : ∃ b', (if b > (y.length : Int) then (y.length : Int) else b) = b' := ⟨_, rfl⟩
    rw [hb']
    have hpos : 0 ≤ b' := by rw [← hb']; split <;> omega
    by_cases h2 : b' - a > 0
    · rw [if_pos h2, if_pos (by omega)]
      have e1 : (a + (x.length + 1 : Nat)).toNat = x.length + 1 + a.toNat := by omega
      have e2 : (b' + (x.length + 1 : Nat)).toNat - (a + (x.length + 1 : Nat)).toNat = b'.toNat - a.toNat := by omega
      rw [e2, e1, drop_both_late]
    · rw [if_neg h2, if_neg (by omega)]

theorem substr_neg (w : Bytes) {a : Int} (b : Int) (h : a < 0) : substr w a b = [] := by
  unfold substr
  rw [if_pos (by omega)]

theorem substr_neg' (w : Bytes) (a : Int) {b : Int} (h : b < 0) : substr w a b = [] := by
  unfold substr
  rw [if_pos (by omega)]

/-! ## Negative lookaround -/

theorem begin_none (rs : List Re) : ∀ (u : List (Rune × Nat)) (c : Rune) (pos : Nat),
    searchFrom (.cat (.beginText :: rs)) u (some c) pos = none
  | [], c, pos => by simp [searchFrom, run, runCat, start, check]
  | (d, k) :: u, c, pos => by
    have : run (.cat (.beginText :: rs)) (start (.cat (.beginText :: rs)) (some c) pos ((d, k) :: u)) = [] := by
      simp [run, runCat, start, check]
    simp only [searchFrom, this]
    exact begin_none rs u d (pos + k)

theorem match_begin (rs : List Re) (w : Bytes) : matchString (.cat (.beginText :: rs)) w =
    !(runCat rs (start (.cat (.beginText :: rs)) none 0 (decode w))).isEmpty := by
  have e : ∀ u, run (.cat (.beginText :: rs)) (start (.cat (.beginText :: rs)) none 0 u) =
      runCat rs (start (.cat (.beginText :: rs)) none 0 u) := by
    intro u
    simp [run, runCat, start, check]
  unfold matchString
  cases hd : decode w with
  | nil =>
    simp only [searchFrom, e]
    cases runCat rs (start (.cat (.beginText :: rs)) none 0 []) <;> rfl
  | cons a u =>
    obtain ⟨c, k⟩ := a
    simp only [searchFrom, e]
    cases hr : runCat rs (start (.cat (.beginText :: rs)) none 0 ((c, k) :: u)) with
    | nil => simp only [begin_none]; rfl
    | cons s l => rfl

theorem pairs_empty {α β : Type} {R : α → β → Prop} {l : List α} {m : List β} (h : Pairs R l m) : m.isEmpty = l.isEmpty := by
  cases h <;> rfl

theorem ahead_cut {x : Bytes} (y : Bytes) {q wd : Nat} (hq : q ≤ x.length) :
    substr (both x y) q (q + wd) = substr x q (q + wd) ∨
    (substr x q (q + wd) = x.drop q ∧ ∃ y', substr (both x y) q (q + wd) = both (x.drop q) y') := by
  by_cases h : q + wd ≤ x.length
  · exact .inl (substr_first y _ (by omega))
  · refine .inr ⟨?_, y.take (wd - (x.length - q) - 1), ?_⟩
    · unfold substr
      rw [if_neg (by omega)]
      split
      · rw [List.drop_eq_nil_of_le (by omega)]
      · rw [if_pos (by omega), if_pos (by omega)]
        rw [List.take_of_length_le (by simp)]
        congr 1
    · unfold substr
      rw [if_neg (by omega), if_neg (by simp; omega)]
      have hlen : (both (x.drop q) y).length = x.length - q + 1 + y.length := by simp
      split <;> simp only
      · rename_i h2
        rw [if_pos (by simp; omega), Int.toNat_natCast, Int.toNat_natCast, drop_both y hq, List.take_of_length_le (by simp; omega)]
        rw [List.take_of_length_le]
        simp at h2
        omega
      · rw [if_pos (by omega), Int.toNat_natCast, drop_both y hq]
        unfold both
        rw [List.take_append, List.take_of_length_le (by simp; omega)]
        congr 1
        have : ((q : Int) + wd).toNat - q - (x.drop q).length = (wd - (x.length - q) - 1) + 1 := by
          simp; omega
        rw [this, List.take_succ_cons]

theorem hitsAhead_first {p : Pattern} (h : aheadOk p = true) {x : Bytes} (hx : Solid x) (y : Bytes) {q : Int}
    (hq : q ≤ x.length) : hitsAhead p (both x y) q = hitsAhead p x q := by
  unfold aheadOk at h
  unfold hitsAhead
  split at h
  · rename_i e; rw [e]
  · rename_i i e hn
    rw [hn]
    simp only [Bool.and_eq_true, decide_eq_true_eq] at h
    simp only
    rw [if_neg (by omega), if_neg (by omega)]
    by_cases h0 : q < 0
    · rw [substr_neg _ _ h0, substr_neg _ _ h0]
    · obtain ⟨q', rfl⟩ := Int.eq_ofNat_of_zero_le (by omega : 0 ≤ q)
      obtain ⟨wd, hw⟩ := Int.eq_ofNat_of_zero_le h.2
      rw [hw]
      have hq' : q' ≤ x.length := by exact_mod_cast hq
      rcases ahead_cut y (wd := wd) hq' with e1 | ⟨e1, y', e2⟩
      · rw [e1]
      · rw [e1, e2, match_begin, match_begin, decode_both]
        congr 1
        exact pairs_empty (steps_innerCat (ext_sim (decode y')) (fun _ h => h) _ (by simp [innerList, inner, h.1])
          (ext_start (solid_decode (hx.drop q')) none 0))
  · simp at h

theorem hitsAhead_second {p : Pattern} (h : aheadOk p = true) (x y : Bytes) {q : Int} (hq : -1 ≤ q) :
    hitsAhead p (both x y) (shift (x.length + 1) q) = hitsAhead p y q := by
  unfold aheadOk at h
  unfold hitsAhead
  split at h
  · rename_i e; rw [e]
  · rename_i i e hn
    rw [hn]
    simp only [Bool.and_eq_true, decide_eq_true_eq] at h
    simp only
    rw [if_neg (by omega), if_neg (by omega)]
    unfold shift
    by_cases h0 : q = -1
    · subst h0
      rw [if_neg (by simp), substr_neg _ _ (by omega), substr_neg _ _ (by omega)]
    · rw [if_pos h0, ← substr_second x y (a := q) (b := q + p.negAWidth) (by omega) (by omega)]
      congr 2
      omega
  · simp at h

theorem hitsBehind_first {p : Pattern} (x : Bytes) (y : Bytes) {q : Int}
    (hq : q ≤ x.length) : hitsBehind p (both x y) q = hitsBehind p x q := by
  unfold hitsBehind
  split
  · rfl
  · rw [substr_first y _ hq]

theorem match_stuck {e : Re} {i : Nat} (h1 : inner e = true) (h2 : eats e = true) {w : Bytes} (hw : w = [] ∨ w = [0x20]) :
    matchString (.cat [.cap i e, .endText]) w = false := by
  have key : ∀ s, Stuck s → run (.cat [.cap i e, .endText]) s = [] := by
    intro s hs
    simp only [run, runCat]
    rw [eats_stuck e h1 h2 (s := setCap (2 * i) s) (hs.same rfl)]
    rfl
  have k1 : ∀ prev pos, run (.cat [.cap i e, .endText]) (start (.cat [.cap i e, .endText]) prev pos []) = [] := by
    intro prev pos
    exact key _ (by intro c t e; simp [start] at e)
  unfold matchString
  rcases hw with rfl | rfl
  · simp only [decode_nil, searchFrom, k1]; rfl
  · have e1 : decode [0x20] = [(32, 1)] := by decide
    have k2 : run (.cat [.cap i e, .endText]) (start (.cat [.cap i e, .endText]) none 0 [(32, 1)]) = [] :=
      key _ (stuck_blank (c := (32, 1)) rfl (by decide))
    rw [e1]
    simp only [searchFrom, k1, k2]
    rfl

theorem hitsBehind_second {p : Pattern} (h : behindOk p = true) (x y : Bytes) {q : Int} (hq : -1 ≤ q) :
    hitsBehind p (both x y) (shift (x.length + 1) q) = hitsBehind p y q := by
  unfold behindOk at h
  unfold hitsBehind
  split at h
  · rename_i e; rw [e]
  · rename_i i e hn
    rw [hn]
    simp only [Bool.and_eq_true, decide_eq_true_eq] at h
    simp only [h.2]
    rw [if_neg (by omega), if_neg (by omega)]
    unfold shift
    by_cases h0 : q = -1
    · subst h0
      rw [if_neg (by simp), substr_neg _ _ (by omega), substr_neg _ _ (by omega)]
    · rw [if_pos h0]
      by_cases h1 : q = 0
      · subst h1
        have e1 : substr (both x y) (0 + ((x.length + 1 : Nat) : Int) - 1) (0 + ((x.length + 1 : Nat) : Int)) = [0x20] := by
          unfold substr
          rw [if_neg (by omega), if_neg (by simp; omega)]
          have e3 : (if 0 + ((x.length + 1 : Nat) : Int) > ((both x y).length : Int) then ((both x y).length : Int)
              else 0 + ((x.length + 1 : Nat) : Int)) = 0 + ((x.length + 1 : Nat) : Int) := by
            rw [if_neg]; simp; omega
          simp only [e3]
          rw [if_pos (by omega)]
          have : (0 + ((x.length + 1 : Nat) : Int) - 1).toNat = x.length := by omega
          rw [this, drop_both y (Nat.le_refl _)]
          have : (0 + ((x.length + 1 : Nat) : Int)).toNat - x.length = 1 := by omega
          rw [this]
          simp [both]
        rw [e1, substr_neg _ _ (by omega), match_stuck h.1.1 h.1.2 (.inr rfl), match_stuck h.1.1 h.1.2 (.inl rfl)]
      · rw [← substr_second x y (a := q - 1) (b := q) (by omega) (by omega)]
        congr 2
        omega
  · simp at h

end Verif.Words
