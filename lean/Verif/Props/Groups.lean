import Verif.Proofs.GroupsWhole
import Verif.Props.Choice

/-!
# Property C95: what the groups of a match hold

Each `(a)` and each var of an expression is a group; `Spec/Groups.lean` says which place it holds.
-/

namespace Verif.Props
open Verif.Hre Verif.Rx Verif.Spec Verif.Spec.Expr

/-- C95 (partial): an expression with edges and lookarounds is a pattern.  What `Find` reports of a word is determined: the
texts as in `C94_picks_partial`, and for each the places of the groups of the expression, one after another in the order in
which the groups begin; a group that was used more than once holds the last place, and one that was not used `-1` twice.
Groups in lookarounds are not reported.  Missing: as for `C93_whole_partial`; repetitions of a text that may be empty. -/
theorem C95_groups_partial {vars : List (Bytes × List Bytes)} {macros : List (Bytes × Bytes)} {w : Whole} (h : w.Fit vars)
    (hw : w.Solid) (hm : ∀ m ∈ macros, m.1 ≠ [] ∧ ¬ m.1 <:+: encode w.text) :
    ∃ p, newPattern (encode w.text) macros vars = .ok p ∧
      ∀ word ms, find p word (-1) = .ok ms → ∀ ms', w.Reports word 0 ms' ↔ ms' = ms := by
  obtain ⟨p, sh, rc, hp, h1, h2, h3, h4, hno, hc, hs⟩ := whole_pattern h hm
  have hx : (Hre.expandVars (expandMacros (encode w.text) macros) vars).1 = w.bytes := by
    rw [expandMacros_unused hm, Whole.expandVars h]
  obtain ⟨e1, lb, core', k, la, e2, r⟩ := whole_runsG h sh hx h1 h2 h3 h4 hno hc hs
  refine ⟨p, hp, fun word ms hf ms' => ?_⟩
  have hv : ∀ j k, vetoes p word j k ↔ w.Vetoed word j k := by
    intro j k
    refine (vetoed_iff hp sh ?_).trans (whole_veto h sh h1 h2 h3 h4)
    rintro e (⟨he, _⟩ | ⟨he, _⟩)
    · obtain ⟨_, _, _, r, hr, _⟩ := whole_neg h.ahead (h4 ▸ he)
      exact ⟨r, hr⟩
    · obtain ⟨_, _, _, r, hr, _⟩ := whole_neg h.behind (h3 ▸ he)
      exact ⟨r, hr⟩
  have hr := r.reports hw hv (boundary_zero word) hf
  exact ⟨fun h' => reports_unique hw h' hr, fun he => he ▸ hr⟩

/-- C95: what is taken has groups, and always the same. -/
theorem C95_held {w : Whole} (hw : w.Solid) (word : Bytes) (o i j k : Nat) :
    (w.PicksFrom word o i j k ↔ ∃ gs, w.TakesFrom word o i j k gs) ∧
    ∀ gs gs', w.TakesFrom word o i j k gs → w.TakesFrom word o i j k gs' → gs = gs' :=
  ⟨⟨picks_takes, fun ⟨_, h⟩ => takes_picks h⟩, fun _ _ h h' => (takes_unique hw h h').2.2⟩

/-- A place within a text: from an offset to a later one, both at the bounds of characters of the text. -/
def Within (i : Nat) (y : List (Rune × Nat)) (g : Nat × Nat) : Prop :=
  ∃ a b c, y = a ++ (b ++ c) ∧ g = (i + bytes a, i + bytes a + bytes b)

theorem Within.left {i : Nat} {u v : List (Rune × Nat)} {g : Nat × Nat} (h : Within i u g) : Within i (u ++ v) g := by
  obtain ⟨a, b, c, rfl, rfl⟩ := h
  exact ⟨a, b, c ++ v, by simp, rfl⟩

theorem Within.right {i : Nat} {u v : List (Rune × Nat)} {g : Nat × Nat} (h : Within (i + bytes u) v g) : Within i (u ++ v) g := by
  obtain ⟨a, b, c, rfl, rfl⟩ := h
  exact ⟨u ++ a, b, c, by simp, by simp only [bytes_eq, width_append, Nat.add_assoc]⟩

theorem Within.whole {i : Nat} {y : List (Rune × Nat)} : Within i y (i, i + bytes y) := ⟨[], y, [], by simp, rfl⟩

theorem mem_later {g : Nat × Nat} : ∀ {gs hs : Places}, some g ∈ later gs hs → some g ∈ gs ∨ some g ∈ hs
  | [], _, h => by simp [later] at h
  | _ :: _, [], h => by simp [later] at h
  | a :: gs, b :: hs, h => by
    simp only [later, List.zipWith_cons_cons, List.mem_cons] at h
    rcases h with h | h
    · cases b with
      | none => exact .inl (by simp [h])
      | some b => exact .inr (by simp [h])
    · rcases mem_later (gs := gs) (hs := hs) h with h | h
      · exact .inl (by simp [h])
      · exact .inr (by simp [h])

theorem reps_within {M : List Nat → Nat → List (Rune × Nat) → Places → Prop}
    (h : ∀ c i y gs, M c i y gs → ∀ g, some g ∈ gs → Within i y g) {b : Bool} {c : List Nat} {i : Nat} {y : List (Rune × Nat)}
    {gs : Places} (hr : Reps M b c i y gs) : ∀ g, some g ∈ gs → Within i y g := by
  induction hr with
  | last hm => exact h _ _ _ _ hm
  | next hm _ ih =>
    intro g hg
    rcases mem_later hg with hg | hg
    · exact (h _ _ _ _ hm g hg).left
    · exact (ih g hg).right

theorem not_unused {e : Expr} {g : Nat × Nat} : some g ∉ unused e := by simp [unused]

/-- C95: a group holds a place within the text of the expression, or none. -/
theorem C95_within : ∀ {e : Expr} {c : List Nat} {i : Nat} {y : List (Rune × Nat)} {gs : Places}, Marks e c i y gs →
    ∀ g, some g ∈ gs → Within i y g
  | .nothing, _, _, _, _, ⟨_, _, h⟩, g, hg | .char _, _, _, _, _, ⟨_, _, h⟩, g, hg | .any, _, _, _, _, ⟨_, _, h⟩, g, hg
  | .oneOf _, _, _, _, _, ⟨_, _, h⟩, g, hg => by simp [h] at hg
  | .var _ _, _, _, _, _, ⟨_, _, _, h⟩, g, hg => by
    simp only [h, List.mem_singleton, Option.some.injEq] at hg
    exact hg ▸ Within.whole
  | .seq a b, _, _, _, _, ⟨_, _, u, v, _, _, _, rfl, rfl, h1, h2⟩, g, hg => by
    rcases List.mem_append.1 hg with hg | hg
    · exact (C95_within h1 g hg).left
    · exact (C95_within h2 g hg).right
  | .or a b, _, _, _, _, .inl ⟨_, _, _, rfl, h⟩, g, hg => by
    rcases List.mem_append.1 hg with hg | hg
    · exact C95_within h g hg
    · exact absurd hg not_unused
  | .or a b, _, _, _, _, .inr ⟨_, _, _, rfl, h⟩, g, hg => by
    rcases List.mem_append.1 hg with hg | hg
    · exact absurd hg not_unused
    · exact C95_within h g hg
  | .group true a, _, _, _, _, ⟨_, rfl, h⟩, g, hg => by
    simp only [if_true, List.mem_cons, Option.some.injEq] at hg
    rcases hg with rfl | hg
    · exact Within.whole
    · exact C95_within (e := a) h g hg
  | .group false a, _, _, _, _, ⟨_, rfl, h⟩, g, hg => C95_within (e := a) h g (by simpa using hg)
  | .opt _ a, _, _, _, _, .inl ⟨_, _, h⟩, g, hg => C95_within (e := a) h g hg
  | .opt _ a, _, _, _, _, .inr ⟨_, _, h⟩, g, hg => absurd (h ▸ hg) not_unused
  | .many _ a, _, _, _, _, .inl ⟨_, _, h⟩, g, hg => reps_within (M := Marks a) (fun _ _ _ _ => C95_within (e := a)) h g hg
  | .many _ a, _, _, _, _, .inr ⟨_, _, h⟩, g, hg => absurd (h ▸ hg) not_unused
  | .more _ a, _, _, _, _, h, g, hg => reps_within (M := Marks a) (fun _ _ _ _ => C95_within (e := a)) h g hg

/-! ## Examples -/

/-- `(?:(a)|b)+` -/
def sampleGroups : Whole := ⟨0, .nothing, .more true (.group false (.or (.group true (.char 0x61)) (.char 0x62))), .nothing, 0⟩

example : encode sampleGroups.text = str "(?:(a)|b)+" := by decide +kernel

theorem sampleGroups_ok : sampleGroups.Fit [] ∧ sampleGroups.Solid := by
  refine ⟨⟨trivial, ?_, trivial, rfl, by decide, fun h => absurd rfl h, fun h => absurd rfl h⟩, trivial, ?_, trivial⟩
  · simp only [sampleGroups, Fit, Proper]
    decide +kernel
  · simp only [sampleGroups, Solid, and_self, true_and]
    rintro (h | h) <;> simp [Means] at h

example : ∃ p, newPattern (encode sampleGroups.text) [] [] = .ok p ∧ ∀ word ms, find p word (-1) = .ok ms →
    sampleGroups.Reports word 0 ms := by
  obtain ⟨p, h1, h2⟩ := C95_groups_partial sampleGroups_ok.1 sampleGroups_ok.2 (macros := []) (by simp)
  exact ⟨p, h1, fun word ms h => (h2 word ms h ms).2 rfl⟩

/-- In `ab` the group holds `a`, in `aab` the second `a`, in `b` nothing. -/
example : ((newPattern (str "(?:(a)|b)+") [] []).bind fun p => find p (str "ab aab b") (-1)) =
    .ok [[0, 2, 0, 1], [3, 6, 4, 5], [7, 8, -1, -1]] := by decide +kernel

/-- `ab`: the first alternative, again, the second alternative, enough. -/
example : Marks sampleGroups.mid [0, 0, 1, 1] 5 [(0x61, 1), (0x62, 1)] [some (5, 6)] :=
  .next (c := [0]) (d := [1, 1]) (y := [(0x61, 1)]) (z := [(0x62, 1)]) (gs := [some (5, 6)]) (hs := [none])
    ⟨[some (5, 6)], rfl, .inl ⟨[], [some (5, 6)], rfl, rfl, [], rfl, rfl, rfl, rfl⟩⟩
    (.last (c := [1]) ⟨[none], rfl, .inr ⟨[], [], rfl, rfl, rfl, rfl, rfl⟩⟩)

/-- `<v>(a|ab)b?` after `q`: the value of the var and the alternative. -/
example : ((newPattern (encode sampleChoice.text) [] sampleChoiceVars).bind fun p => find p (str "q xab") (-1)) =
    .ok [[2, 5, 2, 3, 3, 4]] := by decide +kernel

example : ∃ p, newPattern (encode sampleChoice.text) [] sampleChoiceVars = .ok p ∧ ∀ word ms, find p word (-1) = .ok ms →
    sampleChoice.Reports word 0 ms := by
  obtain ⟨p, h1, h2⟩ := C95_groups_partial sampleChoice_ok.1 sampleChoice_ok.2 (macros := []) (by simp)
  exact ⟨p, h1, fun word ms h => (h2 word ms h ms).2 rfl⟩

/-- A group in a lookbehind is not reported: `{(x)}(a)` in `xa` reports `a` alone. -/
example : ((newPattern (str "{(x)}(a)") [] []).bind fun p => find p (str "xa") (-1)) = .ok [[1, 2, 1, 2]] := by decide +kernel

end Verif.Props
