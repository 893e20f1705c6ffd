import Verif.Proofs.ExprPattern
import Verif.Props.Hre

/-!
# Property C93: patterns mean what their regular expressions mean
-/

namespace Verif.Props
open Verif.Hre Verif.Rx Verif.Spec Verif.Spec.Expr

/-- C93 (partial): an expression of characters, `.`, `[ab-c]`, vars, groups, bars within groups, `?`, `*` and `+` is a
pattern.  In every word `Find` reports the leftmost text of the expression, then the leftmost one from its end on, and so
on; it returns if the empty text does not belong to the expression.  Missing: expressions with `^`, `$` and `{`, for which
it is false (`C93_not_refuted`, `C93_count_refuted`, `C93_dollar_refuted`); a bar outside groups; edges and
lookarounds, for which see `C93_whole_partial`. -/
theorem C93_means_partial {vars : List (Bytes × List Bytes)} {macros : List (Bytes × Bytes)} {e : Expr} (h : Fit vars e)
    (ho : isOr e = false) (hne : text e ≠ []) (hm : ∀ m ∈ macros, m.1 ≠ [] ∧ ¬ m.1 <:+: encode (text e)) :
    ∃ p, newPattern (encode (text e)) macros vars = .ok p ∧
      (∀ word ms, find p word (-1) = .ok ms →
        Leftmost (fun i j k => i = j ∧ Stands e word j k) (fun _ _ => False) word.length 0 ms) ∧
      (¬ Means e [] → ∀ word, ∃ ms, find p word (-1) = .ok ms) := by
  obtain ⟨p, rs, k, h1, h2, h3, hL, hl, hp, hf⟩ := pattern h ho hne hm
  refine ⟨p, h1, fun word ms hms => ?_, fun hn word => ?_⟩
  · have := hL.leftmost (rc := .cat rs) (fun u => Iff.rfl) rfl hp rfl (boundary_zero word) hms
    refine leftmost_occ (fun i j k => ?_) (leftmost_congr (fun i j k _ => ?_) this)
    · constructor
      · rintro ⟨w, x, y, z, t, q1, q2, q3, q4, q5, q6, _⟩
        have hx : x = [] := by
          generalize hu : x.map Prod.fst = u at q5
          cases q5
          exact List.map_eq_nil_iff.1 hu
        subst hx
        simp [bytes] at q3
        exact ⟨q3.symm, w, y, z ++ t, by simpa using q1, by omega, q4, (hl _).1 q6⟩
      · rintro ⟨rfl, w, y, t, q1, q2, q3, q4⟩
        exact ⟨w, [], y, [], t, by simpa using q1, q2, by simp [bytes], q3, .empty, (hl _).2 q4, .empty⟩
    · simp [vetoes, hitsAhead, hitsBehind, h2, h3]
  · obtain ⟨ms, hms, _⟩ := find_firm (hf hn) word (-1)
    exact ⟨ms, hms⟩

/-- C93 (partial): a pattern finds something in a word exactly if a text of the expression stands in the word. -/
theorem C93_found_partial {vars : List (Bytes × List Bytes)} {macros : List (Bytes × Bytes)} {e : Expr} (h : Fit vars e)
    (ho : isOr e = false) (hne : text e ≠ []) (hm : ∀ m ∈ macros, m.1 ≠ [] ∧ ¬ m.1 <:+: encode (text e)) (hn : ¬ Means e []) :
    ∃ p, newPattern (encode (text e)) macros vars = .ok p ∧
      ∀ word, ∃ ms, find p word (-1) = .ok ms ∧ (ms ≠ [] ↔ ∃ j k, Stands e word j k) := by
  obtain ⟨p, h1, h2, h3⟩ := C93_means_partial h ho hne hm
  refine ⟨p, h1, fun word => ?_⟩
  obtain ⟨ms, hms⟩ := h3 hn word
  refine ⟨ms, hms, ?_⟩
  cases h2 word ms hms with
  | done hno =>
    refine ⟨fun h => absurd rfl h, fun ⟨j, k, hs⟩ => ?_⟩
    obtain ⟨w, y, t, q1, q2, q3, q4⟩ := id hs
    have hy : y ≠ [] := by rintro rfl; exact hn q4
    refine absurd ⟨rfl, hs⟩ (hno j j k (by omega) ?_)
    have hw : y.length ≤ bytes y := Wide.width fun x hx => decode_wide word x (by rw [q1]; simp [hx])
    have hl := List.length_pos_iff.2 hy
    have : ((decode word).map Prod.snd).sum = word.length := decode_width_sum word
    rw [q1] at this
    simp only [List.map_append, List.sum_append] at this
    simp only [bytes] at q2 hw
    omega
  | found hocc => exact ⟨fun _ => ⟨_, _, hocc.2⟩, fun _ => by simp⟩
  | vetoed _ _ _ _ hv => exact hv.elim

/-- `(a|[b-d])+<v>?` where `v` has the values `x` and `yz`. -/
def sampleExpr : Expr :=
  .seq (.more true (.group true (.or (.char 0x61) (.oneOf [(0x62, 0x64)])))) (.opt true (.var [0x76] [[0x78], [0x79, 0x7A]]))

def sampleVars : List (Bytes × List Bytes) := [(str "v", [str "x", str "yz"])]

example : encode (text sampleExpr) = str "(a|[b-d])+<v>?" := by decide +kernel

theorem sampleExpr_fit : Fit sampleVars sampleExpr := by
  simp only [sampleExpr, sampleVars, Fit, Proper]
  decide +kernel

example : isOr sampleExpr = false ∧ text sampleExpr ≠ [] := by decide +kernel

theorem sampleExpr_nonempty : ¬ Means sampleExpr [] := by
  simp only [sampleExpr, Means]
  rintro ⟨v, w, h, ⟨us, h1, rfl, h2⟩, _⟩
  obtain ⟨rfl, -⟩ | ⟨u, us, rfl⟩ : (us = [] ∧ True) ∨ ∃ u us', us = u :: us' := by cases us <;> simp
  · exact h1 rfl
  · have := h2 u (by simp)
    simp at h
    rcases this with rfl | ⟨c, rfl, _⟩ <;> simp at h

/-- The texts of the sample: `cayz` belongs to it, `yz` does not. -/
example : Means sampleExpr [0x63, 0x61, 0x79, 0x7A] ∧ ¬ Means sampleExpr [0x79, 0x7A] := by
  constructor
  · refine ⟨[0x63, 0x61], [0x79, 0x7A], rfl, ⟨[[0x63], [0x61]], by simp, rfl, ?_⟩, .inr (by simp [Means])⟩
    intro v hv
    simp at hv
    rcases hv with rfl | rfl
    · exact .inr ⟨_, rfl, (0x62, 0x64), by simp, by decide, by decide⟩
    · exact .inl rfl
  · rintro ⟨v, w, h, ⟨us, h1, rfl, h2⟩, _⟩
    cases us with
    | nil => exact h1 rfl
    | cons u us =>
      rcases h2 u (by simp) with rfl | ⟨c, rfl, p, hp, h3, h4⟩
      · simp at h
      · simp at h hp
        subst hp
        obtain ⟨rfl, -⟩ := h
        revert h4
        decide

example : ∃ p, newPattern (encode (text sampleExpr)) [] sampleVars = .ok p ∧
    ∀ word, ∃ ms, find p word (-1) = .ok ms ∧ (ms ≠ [] ↔ ∃ j k, Stands sampleExpr word j k) :=
  C93_found_partial sampleExpr_fit (by decide) (by decide) (by simp) sampleExpr_nonempty

/-- In `xcayzd` it finds `cayz` and `d`. -/
example : ((newPattern (encode (text sampleExpr)) [] sampleVars).bind fun p =>
    (find p (str "xcayzd") (-1)).bind fun ms => .ok (ms.map (·.take 2))) = .ok [[1, 5], [5, 6]] := by decide +kernel

/-! ## Where it fails -/

/-- C93 fails with `[^a]`, which stands for any character but `a`: it finds `a`, and nothing else.  What `[^a]` should be
is written `[^^a]`. -/
theorem C93_not_refuted : (∃ p, newPattern (str "[^a]") [] [] = .ok p ∧ find p (str "a") (-1) = .ok [[0, 1]] ∧
      find p (str "b") (-1) = .ok []) ∧
    ∃ p, newPattern (str "[^^a]") [] [] = .ok p ∧ find p (str "a") (-1) = .ok [] ∧ find p (str "b") (-1) = .ok [[0, 1]] := by
  have h : ((newPattern (str "[^a]") [] []).bind fun p => (find p (str "a") (-1)).bind fun x =>
    (find p (str "b") (-1)).bind fun y => .ok (x, y)) = .ok ([[0, 1]], []) := by decide +kernel
  have h' : ((newPattern (str "[^^a]") [] []).bind fun p => (find p (str "a") (-1)).bind fun x =>
    (find p (str "b") (-1)).bind fun y => .ok (x, y)) = .ok ([], [[0, 1]]) := by decide +kernel
  simp only [go_bind_ok] at h h'
  obtain ⟨p, h1, x, h2, y, h3, h4⟩ := h
  obtain ⟨p', h1', x', h2', y', h3', h4'⟩ := h'
  simp only [Go.ok.injEq, Prod.mk.injEq] at h4 h4'
  exact ⟨⟨p, h1, h4.1 ▸ h2, h4.2 ▸ h3⟩, p', h1', h4'.1 ▸ h2', h4'.2 ▸ h3'⟩

/-- C93 fails with `a{2}`, which stands for `aa`: it finds `a` before `2`. -/
theorem C93_count_refuted : (∃ p, newPattern (str "a{2}") [] [] = .ok p ∧ find p (str "aa") (-1) = .ok [] ∧
    find p (str "a2") (-1) = .ok [[0, 1]]) ∧ newPattern (str "a{2}b") [] [] = .err .hre := by
  refine ⟨?_, by rfl⟩
  have h : ((newPattern (str "a{2}") [] []).bind fun p => (find p (str "aa") (-1)).bind fun x =>
    (find p (str "a2") (-1)).bind fun y => .ok (x, y)) = .ok ([], [[0, 1]]) := by decide +kernel
  simp only [go_bind_ok] at h
  obtain ⟨p, h1, x, h2, y, h3, h4⟩ := h
  simp only [Go.ok.injEq, Prod.mk.injEq] at h4
  exact ⟨p, h1, h4.1 ▸ h2, h4.2 ▸ h3⟩

/-- C93 fails with `\$` and `\^`, which stand for the characters themselves: they are no patterns. -/
theorem C93_dollar_refuted : newPattern (str "a\\$") [] [] = .err .regexpSyntax ∧
    newPattern (str "\\^a") [] [] = .err .regexpSyntax := by
  constructor <;> rfl

/-- C93 fails in lookarounds with a parenthesis which is a character, or with `(?:`: `a{\(}` does not find `a` before
`(`, but before `:`; `a{(?:b|c)}` is no pattern.  Each `(` has been made `(?:`. -/
theorem C93_paren_refuted : (∃ p, newPattern (str "a{\\(}") [] [] = .ok p ∧ find p (str "a(") (-1) = .ok [] ∧
      find p (str "a:") (-1) = .ok [[0, 1]]) ∧
    newPattern (str "a{(?:b|c)}") [] [] = .err .regexpSyntax := by
  refine ⟨?_, by rfl⟩
  have h : ((newPattern (str "a{\\(}") [] []).bind fun p => (find p (str "a(") (-1)).bind fun x =>
    (find p (str "a:") (-1)).bind fun y => .ok (x, y)) = .ok ([], [[0, 1]]) := by decide +kernel
  simp only [go_bind_ok] at h
  obtain ⟨p, h1, x, h2, y, h3, h4⟩ := h
  simp only [Go.ok.injEq, Prod.mk.injEq] at h4
  exact ⟨p, h1, h4.1 ▸ h2, h4.2 ▸ h3⟩

end Verif.Props
