import Verif.Proofs.Regexp
import Verif.Model.Hre

/-! `RegexpMaxWidth` bounds what an expression consumes. -/

namespace Verif.Hre

open Verif.Rx

mutual
/-- No unbounded expression is repeated a bounded number (at least two) of times, as in `(a+){2}`; the
bounds of a repetition are in order, as `syntax.Parse` guarantees. -/
def RepSafe : Re → Bool
  | .cap _ r | .star _ r | .plus _ r | .quest _ r => RepSafe r
  | .rep _ none _ r => RepSafe r
  | .rep mn (some m) _ r => RepSafe r && (m ≤ 1 || maxWidth r != -1) && mn ≤ m
  | .cat rs | .alt rs => RepSafeList rs
  | _ => true
def RepSafeList : List Re → Bool
  | [] => true
  | r :: rs => RepSafe r && RepSafeList rs
end

/-- Consuming at most `w` characters. -/
def Within (w : Int) (s s' : St) : Prop := (s.rest.length : Int) ≤ s'.rest.length + w

theorem lits_within {rs : List Rune} {s s' : St} (h : s' ∈ lits rs s) : Within rs.length s s' := by
  induction rs generalizing s with
  | nil => simp [lits] at h; subst h; simp [Within]
  | cons r rs ih =>
    simp only [lits, List.mem_flatMap] at h
    obtain ⟨t, ht, h⟩ := h
    obtain ⟨c, n, u, h1, _, rfl⟩ := one_mem ht
    have := ih h
    simp only [Within, h1, List.length_cons] at this ⊢
    omega

theorem one_within {p : Rune → Bool} {s s' : St} (h : s' ∈ one p s) : Within 1 s s' := by
  obtain ⟨c, n, u, h1, _, rfl⟩ := one_mem h
  simp [Within, h1]

theorem times_within {f : St → List St} {w : Int} (hf : ∀ s s', s' ∈ f s → Within w s s') {n : Nat}
    {s s' : St} (h : s' ∈ times f n s) : Within (n * w) s s' := by
  induction n generalizing s with
  | zero => simp [times] at h; subst h; simp [Within]
  | succ n ih =>
    simp only [times, List.mem_flatMap] at h
    obtain ⟨t, ht, h⟩ := h
    have h1 := hf _ _ ht
    have h2 := ih h
    simp only [Within] at *
    have : ((n + 1 : Nat) : Int) * w = n * w + w := by
      rw [Int.natCast_add, Int.add_mul]; simp
    omega

theorem upTo_within {g : Bool} {f : St → List St} {w : Int} (h0 : 0 ≤ w)
    (hf : ∀ s s', s' ∈ f s → Within w s s') {n : Nat}
    {s s' : St} (h : s' ∈ upTo g f n s) : Within (n * w) s s' := by
  induction n generalizing s with
  | zero => simp [upTo] at h; subst h; simp [Within]
  | succ n ih =>
    have key : s' = s ∨ ∃ t ∈ f s, s' ∈ upTo g f n t := by
      unfold upTo at h
      rcases quest_mem h with h | h
      · exact .inl h
      · exact .inr (List.mem_flatMap.1 h)
    have hm : ((n + 1 : Nat) : Int) * w = n * w + w := by
      rw [Int.natCast_add, Int.add_mul]; simp
    have hn : 0 ≤ (n : Int) * w := Int.mul_nonneg (by omega) h0
    rcases key with rfl | ⟨t, ht, h⟩
    · simp only [Within]; omega
    · have h1 := hf _ _ ht
      have h2 := ih h
      simp only [Within] at *
      omega

mutual
theorem maxWidth_ge : ∀ (r : Re), RepSafe r = true → -1 ≤ maxWidth r
  | .noMatch, _ | .empty, _ | .cls _ _, _ | .anyNotNL, _ | .any, _ | .beginLine, _ | .endLine, _
  | .beginText, _ | .endText, _ | .wordB, _ | .noWordB, _ | .star _ _, _ | .plus _ _, _ | .rep _ none _ _, _ => by
    simp [maxWidth]
  | .lit rs, _ => by simp only [maxWidth]; omega
  | .cap _ r, h => by simpa [maxWidth] using maxWidth_ge r (by simpa [RepSafe] using h)
  | .quest _ r, h => by simpa [maxWidth] using maxWidth_ge r (by simpa [RepSafe] using h)
  | .rep _ (some m) _ r, h => by
    simp only [RepSafe, Bool.and_eq_true, Bool.or_eq_true, decide_eq_true_eq, bne_iff_ne, ne_eq] at h
    replace h := h.1
    have := maxWidth_ge r h.1
    simp only [maxWidth]
    rcases h.2 with h2 | h2
    · match m, h2 with
      | 0, _ => simp
      | 1, _ => simpa using this
    · have := Int.mul_nonneg (a := (m : Int)) (b := maxWidth r) (by omega) (by omega)
      omega
  | .cat rs, h => by
    simp only [maxWidth]; exact maxWidthCat_ge rs 0 (by omega) (by simpa [RepSafe] using h)
  | .alt rs, h => by
    simp only [maxWidth]; exact maxWidthAlt_ge rs 0 (by omega) (by simpa [RepSafe] using h)
theorem maxWidthCat_ge : ∀ (rs : List Re) (t : Int), 0 ≤ t → RepSafeList rs = true → -1 ≤ maxWidthCat rs t
  | [], t, ht, _ => by simp only [maxWidthCat]; omega
  | r :: rs, t, ht, h => by
    simp only [RepSafeList, Bool.and_eq_true] at h
    have := maxWidth_ge r h.1
    simp only [maxWidthCat]
    split
    · omega
    · exact maxWidthCat_ge rs _ (by omega) h.2
theorem maxWidthAlt_ge : ∀ (rs : List Re) (t : Int), 0 ≤ t → RepSafeList rs = true → -1 ≤ maxWidthAlt rs t
  | [], t, ht, _ => by simp only [maxWidthAlt]; omega
  | r :: rs, t, ht, h => by
    simp only [RepSafeList, Bool.and_eq_true] at h
    have := maxWidth_ge r h.1
    simp only [maxWidthAlt]
    split
    · omega
    · exact maxWidthAlt_ge rs _ (by split <;> omega) h.2
end

mutual
theorem run_within : ∀ (r : Re), RepSafe r = true → maxWidth r ≠ -1 → ∀ {s s' : St}, s' ∈ run r s →
    Within (maxWidth r) s s'
  | .noMatch, _, _, s, s', h => by simp [run] at h
  | .empty, _, _, s, s', h => by simp [run] at h; subst h; simp [Within, maxWidth]
  | .lit rs, _, _, s, s', h => by
    rw [run] at h; simpa [maxWidth] using lits_within h
  | .cls _ _, _, _, s, s', h => by rw [run] at h; simpa [maxWidth] using one_within h
  | .anyNotNL, _, _, s, s', h => by rw [run] at h; simpa [maxWidth] using one_within h
  | .any, _, _, s, s', h => by rw [run] at h; simpa [maxWidth] using one_within h
  | .beginLine, _, _, s, s', h => by rw [run] at h; rw [(check_mem h).1]; simp [Within, maxWidth]
  | .endLine, _, _, s, s', h => by rw [run] at h; rw [(check_mem h).1]; simp [Within, maxWidth]
  | .beginText, _, _, s, s', h => by rw [run] at h; rw [(check_mem h).1]; simp [Within, maxWidth]
  | .endText, _, _, s, s', h => by rw [run] at h; rw [(check_mem h).1]; simp [Within, maxWidth]
  | .wordB, _, _, s, s', h => by rw [run] at h; rw [(check_mem h).1]; simp [Within, maxWidth]
  | .noWordB, _, _, s, s', h => by rw [run] at h; rw [(check_mem h).1]; simp [Within, maxWidth]
  | .cap i r, hs, hw, s, s', h => by
    rw [run, List.mem_map] at h
    obtain ⟨t, ht, rfl⟩ := h
    have := run_within r (by simpa [RepSafe] using hs) (by simpa [maxWidth] using hw) ht
    simpa [Within, setCap, maxWidth] using this
  | .star _ _, _, hw, _, _, _ => by simp [maxWidth] at hw
  | .plus _ _, _, hw, _, _, _ => by simp [maxWidth] at hw
  | .rep _ none _ _, _, hw, _, _, _ => by simp [maxWidth] at hw
  | .quest _ r, hs, hw, s, s', h => by
    rw [run] at h
    have hs' : RepSafe r = true := by simpa [RepSafe] using hs
    have hw' : maxWidth r ≠ -1 := by simpa [maxWidth] using hw
    have := maxWidth_ge r hs'
    rcases quest_mem h with rfl | h
    · simp only [Within, maxWidth]; omega
    · simpa [maxWidth] using run_within r hs' hw' h
  | .rep mn (some m) g r, hs, hw, s, s', h => by
    simp only [RepSafe, Bool.and_eq_true, Bool.or_eq_true, decide_eq_true_eq, bne_iff_ne, ne_eq] at hs
    obtain ⟨hs, hmn⟩ := hs
    have hge := maxWidth_ge r hs.1
    simp only [maxWidth] at hw ⊢
    rw [run, repLoop] at h
    simp only [List.mem_flatMap] at h
    obtain ⟨t, ht, h⟩ := h
    by_cases hr : maxWidth r = -1
    · -- then the repetition is `{0,0}` (`{0,1}` of an unbounded expression is unbounded)
      have hm := hs.2.resolve_right (by simp [hr])
      have hm0 : m = 0 := by
        match m, hm with
        | 0, _ => rfl
        | 1, _ => simp [hr] at hw
      subst hm0
      have : mn = 0 := by omega
      subst this
      simp [times] at ht
      subst ht
      simp [upTo] at h
      subst h
      simp [Within]
    · have h1 := times_within (fun s s' h => run_within r hs.1 hr h) ht
      have h2 := upTo_within (by omega) (fun s s' h => run_within r hs.1 hr h) h
      have e : (mn : Int) * maxWidth r + ((m - mn : Nat) : Int) * maxWidth r = m * maxWidth r := by
        rw [← Int.add_mul]
        congr 1
        omega
      simp only [Within] at *
      omega
  | .cat rs, hs, hw, s, s', h => by
    rw [run] at h
    have := runCat_within rs 0 (by omega) (by simpa [RepSafe] using hs) (by simpa [maxWidth] using hw) h
    simpa [maxWidth] using this
  | .alt rs, hs, hw, s, s', h => by
    rw [run] at h
    have := runAlt_within rs 0 (by omega) (by simpa [RepSafe] using hs) (by simpa [maxWidth] using hw) h
    simpa [maxWidth] using this
theorem runCat_within : ∀ (rs : List Re) (t : Int), 0 ≤ t → RepSafeList rs = true → maxWidthCat rs t ≠ -1 →
    ∀ {s s' : St}, s' ∈ runCat rs s → Within (maxWidthCat rs t - t) s s'
  | [], t, _, _, _, s, s', h => by simp [runCat] at h; subst h; simp [Within, maxWidthCat]
  | r :: rs, t, ht, hs, hw, s, s', h => by
    simp only [RepSafeList, Bool.and_eq_true] at hs
    have hge := maxWidth_ge r hs.1
    simp only [maxWidthCat] at hw ⊢
    split at hw
    · exact absurd rfl hw
    · rename_i hr
      rw [if_neg hr]
      simp only [runCat, List.mem_flatMap] at h
      obtain ⟨u, hu, h⟩ := h
      have h1 := run_within r hs.1 hr hu
      have h2 := runCat_within rs _ (by omega) hs.2 hw h
      simp only [Within] at *
      omega
theorem runAlt_within : ∀ (rs : List Re) (t : Int), 0 ≤ t → RepSafeList rs = true → maxWidthAlt rs t ≠ -1 →
    ∀ {s s' : St}, s' ∈ runAlt rs s → Within (maxWidthAlt rs t) s s'
  | [], t, _, _, _, s, s', h => by simp [runAlt] at h
  | r :: rs, t, ht, hs, hw, s, s', h => by
    simp only [RepSafeList, Bool.and_eq_true] at hs
    have hge := maxWidth_ge r hs.1
    simp only [maxWidthAlt] at hw ⊢
    split at hw
    · exact absurd rfl hw
    · rename_i hr
      rw [if_neg hr]
      simp only [runAlt, List.mem_append] at h
      have hle := maxWidthAlt_le rs (if maxWidth r > t then maxWidth r else t) (by split <;> omega) hs.2 hw
      rcases h with h | h
      · have h1 := run_within r hs.1 hr h
        simp only [Within] at *
        have : maxWidth r ≤ if maxWidth r > t then maxWidth r else t := by split <;> omega
        omega
      · exact runAlt_within rs _ (by split <;> omega) hs.2 hw h
theorem maxWidthAlt_le : ∀ (rs : List Re) (t : Int), 0 ≤ t → RepSafeList rs = true → maxWidthAlt rs t ≠ -1 →
    t ≤ maxWidthAlt rs t
  | [], t, _, _, _ => by simp [maxWidthAlt]
  | r :: rs, t, ht, hs, hw => by
    simp only [RepSafeList, Bool.and_eq_true] at hs
    have hge := maxWidth_ge r hs.1
    simp only [maxWidthAlt] at hw ⊢
    split at hw
    · exact absurd rfl hw
    · rename_i hr
      rw [if_neg hr]
      have := maxWidthAlt_le rs (if maxWidth r > t then maxWidth r else t) (by split <;> omega) hs.2 hw
      have h2 : t ≤ if maxWidth r > t then maxWidth r else t := by split <;> omega
      omega
end

end Verif.Hre
