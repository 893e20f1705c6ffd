import Verif.Go.Unicode

/-! Ranges of runes. -/

namespace Verif

open Unicode

/-- Whether no range of a table meets a range of another one. -/
def tablesDisjoint (t u : List (Nat × Nat)) : Bool := t.all fun p => u.all fun q => p.2 < q.1 || q.2 < p.1

theorem not_inTable {t u : List (Nat × Nat)} (h : tablesDisjoint t u = true) {c : Rune} (hc : inTable t c = true) :
    inTable u c = false := by
  simp only [inTable, List.any_eq_true, Bool.and_eq_true, decide_eq_true_eq] at hc
  obtain ⟨p, hp, h1⟩ := hc
  rw [inTable, List.any_eq_false]
  intro q hq
  simp only [tablesDisjoint, List.all_eq_true] at h
  have := h p hp q hq
  simp only [Bool.or_eq_true, decide_eq_true_eq] at this
  simp only [Bool.and_eq_true, decide_eq_true_eq]
  omega

end Verif
