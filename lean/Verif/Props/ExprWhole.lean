import Verif.Proofs.ExprWhole
import Verif.Props.Expr
import Verif.Props.Scan

/-!
# Property C93 for patterns with edges and lookarounds
-/

namespace Verif.Props
open Verif.Hre Verif.Rx Verif.Spec Verif.Spec.Expr

theorem wint_reach (a : Expr) : wint (Expr.width a) = reach a := by
  unfold wint reach
  cases Expr.width a <;> rfl

/-- What a negative lookaround must not see. -/
theorem whole_neg {vars : List (Bytes × List Bytes)} {l : Look} {e : Bytes} (hl : l.Fit vars) (he : l.bytes = 0x7E :: e) :
    ∃ a, l = .no a ∧ e = encode (Expr.text (core a)) ∧ ∃ r, compile (noCapture e) = .ok r ∧ Same a r := by
  cases l with
  | nothing => simp [Look.bytes] at he
  | yes a =>
    have := Look.noTilde hl
    rw [show encode (Expr.text (core a)) = 0x7E :: e from he] at this
    simp at this
  | no a =>
    simp only [Look.bytes, List.cons.injEq, true_and] at he
    obtain ⟨r, q1, _, q3, _⟩ := look_raw hl.1 hl.2
    exact ⟨a, rfl, he.symm, r, by rw [← he]; exact q1, q3⟩

theorem whole_veto {vars : List (Bytes × List Bytes)} {w : Whole} (h : w.Fit vars) {x : Bytes} {p : Pattern} (sh : Shape x p)
    (h1 : sh.nb = w.carets) (h2 : sh.na = w.dollars) (h3 : sh.lookB = w.behind.bytes) (h4 : sh.lookA = w.ahead.bytes)
    {word : Bytes} {j k : Nat} : Vetoed sh word j k ↔ w.Vetoed word j k := by
  have zeroB : ∀ a, w.behind = .no a → w.carets = 0 := by
    intro a ha
    by_contra hh
    have := h.left hh
    rw [ha] at this
    cases this
  have zeroA : ∀ a, w.ahead = .no a → w.dollars = 0 := by
    intro a ha
    by_contra hh
    have := h.right hh
    rw [ha] at this
    cases this
  constructor
  · rintro (⟨e, re, u, a, q1, q2, q3, q4, q5⟩ | ⟨e, re, b, u, q1, q2, q3, q4, q5⟩)
    · obtain ⟨x, e1, e2, r, e3, e4⟩ := whole_neg h.ahead (h4 ▸ q1)
      rw [e3] at q3
      cases q3
      refine .inl ⟨x, u, e1, (e4.lang u).1 (lang_of_match q5 e4.plain), ?_⟩
      rw [← wint_reach, ← e4.wide, q4]
      exact List.prefix_append _ _
    · obtain ⟨x, e1, e2, r, e3, e4⟩ := whole_neg h.behind (h3 ▸ q1)
      rw [e3] at q3
      cases q3
      refine .inr ⟨x, u, e1, (e4.lang u).1 (lang_of_match q5 e4.plain), ?_⟩
      rw [← wint_reach, ← e4.wide, q4]
      exact List.suffix_append _ _
  · rintro (⟨x, u, e1, q1, a, q2⟩ | ⟨x, u, e1, q1, b, q2⟩)
    · have hl := h.ahead
      rw [e1] at hl
      obtain ⟨r, q3, _, q4, _⟩ := look_raw hl.1 hl.2
      refine .inl ⟨encode (Expr.text (core x)), r, u, a, ?_, h2.trans (zeroA x e1), q3, ?_, match_of_lang ((q4.lang u).2 q1) _ _⟩
      · rw [h4, e1]; rfl
      · rw [q4.wide, wint_reach, q2]
    · have hl := h.behind
      rw [e1] at hl
      obtain ⟨r, q3, _, q4, _⟩ := look_raw hl.1 hl.2
      refine .inr ⟨encode (Expr.text (core x)), r, b, u, ?_, h1.trans (zeroB x e1), q3, ?_, match_of_lang ((q4.lang u).2 q1) _ _⟩
      · rw [h3, e1]; rfl
      · rw [q4.wide, wint_reach, q2]

/-- C93 (partial): an expression with edges and lookarounds, `^^{a}b{c}$$`, is a pattern.  In every word `Find` takes the
leftmost place where the left edge, a text of the lookbehind, one of the expression, one of the lookahead and the right
edge stand one after another, then the leftmost one from the end of the expression's text on, and so on; it reports the
text of the expression unless a text which must not be there stands before or after it, as far as the lookaround reaches.
It returns if the empty text does not belong to the expression.  Missing: lookarounds beside edges, for which it is false
(`C93_beside_refuted`), and with `(`, `}` and `(?:`, for which it is false (`C93_paren_refuted`); a bar outside groups;
lookarounds that reach all of their texts, which is false (`C11_wide_refuted`). -/
theorem C93_whole_partial {vars : List (Bytes × List Bytes)} {macros : List (Bytes × Bytes)} {w : Whole} (h : w.Fit vars)
    (hm : ∀ m ∈ macros, m.1 ≠ [] ∧ ¬ m.1 <:+: encode w.text) :
    ∃ p, newPattern (encode w.text) macros vars = .ok p ∧
      (∀ word ms, find p word (-1) = .ok ms → Scan (w.OccursFrom word) (w.Vetoed word) word.length 0 ms) ∧
      (¬ Means w.mid [] → ∀ word, ∃ ms, find p word (-1) = .ok ms) := by
  obtain ⟨p, sh, rc, hp, h1, h2, h3, h4, hno, hc, hs⟩ := whole_pattern h hm
  obtain ⟨rb, b1, _, b3, b4, b5, b6, _⟩ := Look.pos h.behind
  obtain ⟨ra, a1, _, a3, a4, a5, a6, _⟩ := Look.pos h.ahead
  have hb : compile (expandEdges (posLook sh.lookB)) = .ok rb := by rw [h3, expandEdges_plain b5 b6, b1]
  have ha : compile (expandEdges (posLook sh.lookA)) = .ok ra := by rw [h4, expandEdges_plain a5 a6, a1]
  refine ⟨p, hp, fun word ms hf => ?_, fun hn word => ?_⟩
  · have := C58_edges_partial hp sh hb hno hc ha (by
      rintro e (⟨he, _⟩ | ⟨he, _⟩)
      · obtain ⟨_, _, _, r, hr, _⟩ := whole_neg h.ahead (h4 ▸ he)
        exact ⟨r, hr⟩
      · obtain ⟨_, _, _, r, hr, _⟩ := whole_neg h.behind (h3 ▸ he)
        exact ⟨r, hr⟩) hf
    refine scan_congr (fun o i j k => ?_) (fun o i j k _ => ?_) this
    · unfold OccursFrom Whole.OccursFrom
      simp only [match_plain b3, match_plain a3, match_plain hs.plain, b4, a4, hs.lang, h1, h2, Spec.chars]
    · exact whole_veto h sh h1 h2 h3 h4
  · obtain ⟨r1, r2, core', k, _, _, hL, hcl⟩ := sh.layout hb hno ha
    obtain ⟨l, e1, e2⟩ := hcl rc hc
    have hw : 1 ≤ minWCat core' := by
      have w1 := hs.width hn
      have w2 : minW (mkCat l) = minWCat core' := by
        rw [minW_mkCat, e2, ← List.map_reverse, ← shiftCapList_eq, minWCat_shift]
      rw [← w2, ← e1]
      exact w1
    obtain ⟨ms, hms, _⟩ := find_firm (firm_layout hL hw) word (-1)
    exact ⟨ms, hms⟩

/-! ## Lookarounds in words of ASCII characters -/

theorem means_width : ∀ {a : Expr} {n : Nat} {u : List Rune}, Expr.width a = some n → Means a u → u.length ≤ n
  | .nothing, n, u, h, hu => by
    cases h
    rw [show u = [] from hu]
    simp
  | .char c, n, u, h, hu => by
    cases h
    rw [show u = [c] from hu]
    simp
  | .any, n, u, h, hu => by
    cases h
    obtain ⟨c, rfl, _⟩ := hu
    simp
  | .oneOf r, n, u, h, hu => by
    cases h
    obtain ⟨c, rfl, _⟩ := hu
    simp
  | .var _ vals, n, u, h, hu => by
    cases h
    have hm : u ∈ vals := hu
    clear hu
    induction vals with
    | nil => simp at hm
    | cons v vals ih =>
      simp only [List.map_cons, List.foldr_cons]
      rcases List.mem_cons.1 hm with rfl | hm
      · omega
      · have := ih hm
        omega
  | .seq a b, n, u, h, hu => by
    simp only [Expr.width, Option.bind_eq_some_iff, Option.map_eq_some_iff] at h
    obtain ⟨x, hx, y, hy, rfl⟩ := h
    obtain ⟨v, w, rfl, hv, hw⟩ := hu
    have := means_width hx hv
    have := means_width hy hw
    simp
    omega
  | .or a b, n, u, h, hu => by
    simp only [Expr.width, Option.bind_eq_some_iff, Option.map_eq_some_iff] at h
    obtain ⟨x, hx, y, hy, rfl⟩ := h
    rcases hu with hu | hu
    · have := means_width hx hu
      omega
    · have := means_width hy hu
      omega
  | .group _ a, n, u, h, hu => means_width (a := a) h hu
  | .opt _ a, n, u, h, hu => by
    rcases hu with rfl | hu
    · simp
    · exact means_width (a := a) h hu
  | .many _ _, n, u, h, hu => by simp [Expr.width] at h
  | .more _ _, n, u, h, hu => by simp [Expr.width] at h

/-- C93 (partial): in a word of ASCII characters a negative lookahead forbids what it says: its texts stand after the
reported text exactly if they stand in what it reaches. -/
theorem C93_ahead_partial {a : Expr} {word : Bytes} (hw : ∀ b ∈ word, b.toNat < 0x80) (k : Nat) :
    (∃ u, Means a u ∧ u <+: runes (windowAhead word k (reach a))) ↔ ∃ u, Means a u ∧ u <+: runes (word.drop k) := by
  have hd : ∀ b ∈ word.drop k, b.toNat < 0x80 := fun b hb => hw b (List.mem_of_mem_drop hb)
  unfold windowAhead reach
  cases hx : Expr.width a with
  | none => simp
  | some n =>
    simp only [show ((n : Int) = -1) = False from by simp, if_false, Int.toNat_natCast]
    rw [runes_ascii hd, runes_ascii fun b hb => hd b (List.mem_of_mem_take hb), List.map_take]
    constructor
    · rintro ⟨u, h1, h2⟩
      exact ⟨u, h1, h2.trans (List.take_prefix _ _)⟩
    · rintro ⟨u, h1, h2⟩
      exact ⟨u, h1, List.prefix_take_iff.2 ⟨h2, means_width hx h1⟩⟩

/-- C93 (partial): the same for a negative lookbehind all of whose texts are equally long.  Missing: texts of several
lengths, for which it is false (`C93_short_refuted`). -/
theorem C93_behind_partial {a : Expr} {n : Nat} (ha : Expr.width a = some n) (hn : ∀ u, Means a u → u.length = n)
    {word : Bytes} (hw : ∀ b ∈ word, b.toNat < 0x80) {j : Nat} (hj : j ≤ word.length) :
    (∃ u, Means a u ∧ u <:+ runes (windowBehind word j (reach a))) ↔ ∃ u, Means a u ∧ u <:+ runes (word.take j) := by
  have hd : ∀ b ∈ word.take j, b.toNat < 0x80 := fun b hb => hw b (List.mem_of_mem_take hb)
  unfold windowBehind reach
  simp only [ha, show ((n : Int) = -1) = False from by simp, if_false, Int.toNat_natCast, Int.ofNat_le]
  rw [runes_ascii hd]
  by_cases hnj : n ≤ j
  · rw [if_pos hnj, runes_ascii fun b hb => hd b (List.mem_of_mem_drop hb), List.map_drop]
    constructor
    · rintro ⟨u, h1, h2⟩
      exact ⟨u, h1, h2.trans (List.drop_suffix _ _)⟩
    · rintro ⟨u, h1, h2⟩
      refine ⟨u, h1, ?_⟩
      refine List.suffix_of_suffix_length_le h2 (List.drop_suffix _ _) ?_
      rw [hn u h1]
      simp
      omega
  · rw [if_neg hnj]
    constructor
    · rintro ⟨u, h1, h2⟩
      have := hn u h1
      have := h2.length_le
      rw [show runes ([] : Bytes) = [] from rfl, List.length_nil] at this
      omega
    · rintro ⟨u, h1, h2⟩
      have := hn u h1
      have := h2.length_le
      simp at this
      omega

/-! ## An example -/

/-- `{<v>}(a|b)+{~c|d}` where `v` has the values `x` and `yz`. -/
def sampleWhole : Whole :=
  ⟨0, .yes (.var [0x76] [[0x78], [0x79, 0x7A]]), .more true (.group true (.or (.char 0x61) (.char 0x62))),
    .no (.or (.char 0x63) (.char 0x64)), 0⟩

example : encode sampleWhole.text = str "{<v>}(a|b)+{~c|d}" := by decide +kernel

theorem sampleWhole_fit : sampleWhole.Fit sampleVars where
  behind := by
    simp only [sampleWhole, sampleVars, Look.Fit, Fit, Proper, Mild]
    decide +kernel
  mid := by
    simp only [sampleWhole, Fit, Proper]
    decide +kernel
  ahead := by
    simp only [sampleWhole, Look.Fit, Fit, Proper, Mild]
    decide +kernel
  noOr := rfl
  some := by decide
  left := fun h => absurd rfl h
  right := fun h => absurd rfl h

theorem sampleWhole_nonempty : ¬ Means sampleWhole.mid [] := by
  rintro ⟨us, h1, h2, h3⟩
  cases us with
  | nil => exact h1 rfl
  | cons u us =>
    rcases h3 u (by simp) with rfl | rfl <;> simp at h2

example : ∃ p, newPattern (encode sampleWhole.text) [] sampleVars = .ok p ∧
    ∀ word, ∃ ms, find p word (-1) = .ok ms ∧ Scan (sampleWhole.OccursFrom word) (sampleWhole.Vetoed word) word.length 0 ms := by
  obtain ⟨p, h1, h2, h3⟩ := C93_whole_partial sampleWhole_fit (macros := []) (by simp)
  refine ⟨p, h1, fun word => ?_⟩
  obtain ⟨ms, hms⟩ := h3 sampleWhole_nonempty word
  exact ⟨ms, hms, h2 word ms hms⟩

/-- In `xab yzbd yza` it finds `ab` after `x` and `a` after `yz`; `d` forbids `b`. -/
example : ((newPattern (encode sampleWhole.text) [] sampleVars).bind fun p =>
    (find p (str "xab yzbd yza") (-1)).bind fun ms => .ok (ms.map (·.take 2))) = .ok [[1, 3], [11, 12]] := by decide +kernel

example : sampleWhole.OccursFrom (str "xab yzbd yza") 0 0 1 3 ∧ ¬ sampleWhole.Vetoed (str "xab yzbd yza") 1 3 ∧
    sampleWhole.Vetoed (str "xab yzbd yza") 6 7 := by
  refine ⟨⟨[], [], [(0x78, 1)], [(0x61, 1), (0x62, 1)], [], [], decode (str " yzbd yza"), by decide +kernel, by decide, by decide, by decide,
    .inl ⟨rfl, rfl⟩, ?_, ?_, rfl, .inl ⟨rfl, rfl⟩⟩, ?_, ?_⟩
  · show [0x78] ∈ [[0x78], [0x79, 0x7A]]
    simp
  · refine ⟨[[0x61], [0x62]], by simp, rfl, ?_⟩
    intro v hv
    simp at hv
    rcases hv with rfl | rfl
    · exact .inl rfl
    · exact .inr rfl
  · rintro (⟨a, u, h1, h2, h3⟩ | ⟨a, u, h1, _⟩)
    · simp only [sampleWhole, Look.no.injEq] at h1
      subst h1
      have e : runes (windowAhead (str "xab yzbd yza") 3 (reach (.or (.char 0x63) (.char 0x64)))) = [0x20] := by decide +kernel
      rw [e] at h3
      rcases h2 with h2 | h2
      · rw [show u = [0x63] from h2] at h3
        revert h3
        decide
      · rw [show u = [0x64] from h2] at h3
        revert h3
        decide
    · simp [sampleWhole] at h1
  · exact .inl ⟨_, [0x64], rfl, .inr rfl, by decide +kernel⟩

/-- `^ab$` -/
def sampleEdges : Whole := ⟨1, .nothing, .seq (.char 0x61) (.char 0x62), .nothing, 1⟩

example : ∃ p, newPattern (encode sampleEdges.text) [] [] = .ok p ∧
    ∀ word ms, find p word (-1) = .ok ms → Scan (sampleEdges.OccursFrom word) (sampleEdges.Vetoed word) word.length 0 ms := by
  obtain ⟨p, h1, h2, _⟩ := C93_whole_partial (w := sampleEdges) (vars := []) (macros := []) ⟨trivial, by
    simp only [sampleEdges, Fit, Proper]
    decide +kernel, trivial, rfl, by decide, fun _ => rfl, fun _ => rfl⟩ (by simp)
  exact ⟨p, h1, h2⟩

example : ∀ b ∈ str "xab yzbd yza", b.toNat < 0x80 := by decide +kernel

/-- The texts of `[ab]c` are equally long. -/
example : Expr.width (.seq (.oneOf [(0x61, 0x62)]) (.char 0x63)) = some 2 ∧
    ∀ u, Means (.seq (.oneOf [(0x61, 0x62)]) (.char 0x63)) u → u.length = 2 := by
  refine ⟨rfl, ?_⟩
  rintro u ⟨v, w, rfl, ⟨c, rfl, _⟩, hw⟩
  rw [show w = [0x63] from hw]
  rfl

/-! ## Where it fails -/

/-- C93 fails with a lookaround beside an edge: `a{~ b}$` finds `a` before ` b`, and `a{ }$` does not find `a` before a
blank at the end. -/
theorem C93_beside_refuted : (∃ p, newPattern (str "a{~ b}$") [] [] = .ok p ∧ find p (str "a b") (-1) = .ok [[0, 1]]) ∧
    ∃ p, newPattern (str "a{ }$") [] [] = .ok p ∧ find p (str "a ") (-1) = .ok [] := by
  have h : ((newPattern (str "a{~ b}$") [] []).bind fun p => (find p (str "a b") (-1)).bind fun x =>
      (newPattern (str "a{ }$") [] []).bind fun q => (find q (str "a ") (-1)).bind fun y => .ok (x, y)) = .ok ([[0, 1]], []) := by
    decide +kernel
  simp only [go_bind_ok] at h
  obtain ⟨p, h1, x, h2, q, h3, y, h4, h5⟩ := h
  simp only [Go.ok.injEq, Prod.mk.injEq] at h5
  exact ⟨⟨p, h1, h5.1 ▸ h2⟩, q, h3, h5.2 ▸ h4⟩

/-- C93 fails with a negative lookbehind whose texts have several lengths: `{~bb|a}c` finds `c` in `ac`, not in `xac`. -/
theorem C93_short_refuted : ∃ p, newPattern (str "{~bb|a}c") [] [] = .ok p ∧ find p (str "ac") (-1) = .ok [[1, 2]] ∧
    find p (str "xac") (-1) = .ok [] := by
  have h : ((newPattern (str "{~bb|a}c") [] []).bind fun p => (find p (str "ac") (-1)).bind fun x =>
    (find p (str "xac") (-1)).bind fun y => .ok (x, y)) = .ok ([[1, 2]], []) := by decide +kernel
  simp only [go_bind_ok] at h
  obtain ⟨p, h1, x, h2, y, h3, h4⟩ := h
  simp only [Go.ok.injEq, Prod.mk.injEq] at h4
  exact ⟨p, h1, h4.1 ▸ h2, h4.2 ▸ h3⟩

end Verif.Props
