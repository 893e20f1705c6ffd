import Verif.Go.Strings
import Verif.Spec.Strings

/-! `strings.NewReplacer` and the order of its arguments. -/

namespace Verif

open Spec.Strings

theorem hasPrefix_iff {s p : Bytes} : hasPrefix s p = true ↔ p <+: s := by
  unfold hasPrefix
  exact List.isPrefixOf_iff_prefix

/-- If at most one element satisfies the predicate, the order of the list does not matter. -/
theorem find_perm {α : Type} {P : α → Bool} {l l' : List α} (h : l.Perm l')
    (hp : l.Pairwise fun a b => ¬ (P a = true ∧ P b = true)) : l.find? P = l'.find? P := by
  induction h with
  | nil => rfl
  | cons a _ ih =>
    simp only [List.find?_cons]
    rw [ih (List.pairwise_cons.1 hp).2]
  | swap a b l =>
    simp only [List.find?_cons]
    have := (List.pairwise_cons.1 hp).1 a (by simp)
    cases ha : P a <;> cases hb : P b <;> simp_all
  | trans h1 _ ih1 ih2 =>
    rw [ih1 hp]
    exact ih2 (h1.pairwise hp (fun h h' => h h'.symm))

theorem lookupKey_perm {pairs pairs' : List (Bytes × Bytes)} (h : pairs.Perm pairs') (hf : PrefixFree pairs)
    (s : Bytes) (e : Bool) : lookupKey pairs s e = lookupKey pairs' s e := by
  unfold lookupKey
  rw [find_perm h]
  refine hf.imp fun {a b} hab hboth => ?_
  simp only [Bool.and_eq_true, hasPrefix_iff] at hboth
  rcases List.prefix_or_prefix_of_prefix hboth.1.1 hboth.2.1 with h | h
  · exact hab.1 h
  · exact hab.2 h

/-- With keys none of which is a prefix of another one, the order of the pairs does not matter. -/
theorem replacePairs_perm {pairs pairs' : List (Bytes × Bytes)} (h : pairs.Perm pairs') (hf : PrefixFree pairs)
    (s : Bytes) : replacePairs pairs s = replacePairs pairs' s := by
  unfold replacePairs
  have e := lookupKey_perm h hf
  suffices ∀ (s : Bytes) (k : Nat), replaceFrom pairs k s = replaceFrom pairs' k s from this s 0
  intro s
  induction s with
  | nil => intro k; simp only [replaceFrom, e]
  | cons c t ih =>
    intro k
    cases k with
    | succ k => simp only [replaceFrom, ih]
    | zero =>
      simp only [replaceFrom, e]
      split
      · rw [ih]
      · rw [ih]
      · split <;> rw [ih]

theorem replacePairs_nil {pairs : List (Bytes × Bytes)} (h : ∀ p ∈ pairs, p.1 ≠ []) : replacePairs pairs [] = [] := by
  have : lookupKey pairs [] false = none := by
    rw [lookupKey, Option.map_eq_none_iff, List.find?_eq_none]
    intro p hp
    have := h p hp
    cases hp1 : p.1 with
    | nil => exact absurd hp1 this
    | cons => simp [hasPrefix]
  simp [replacePairs, replaceFrom, this]

end Verif
