import Verif.Proofs.RegexpParse
import Verif.Spec.Regex

/-! The matcher reads exactly the texts of the language of an expression. -/

namespace Verif.Rx

open Verif.Spec

/-- The text read from `s` to `s'` is `u`. -/
def Reads (u : List Rune) (s s' : St) : Prop := ∃ l, s.rest = l ++ s'.rest ∧ l.map Prod.fst = u

theorem Reads.refl (s : St) : Reads [] s s := ⟨[], rfl, rfl⟩

theorem Reads.trans {u v : List Rune} {s t w : St} (h1 : Reads u s t) (h2 : Reads v t w) : Reads (u ++ v) s w := by
  obtain ⟨a, h1, rfl⟩ := h1
  obtain ⟨b, h2, rfl⟩ := h2
  exact ⟨a ++ b, by simp [h1, h2], by simp⟩

theorem Reads.congr {u : List Rune} {s s' t t' : St} (h : Reads u s s') (h1 : t.rest = s.rest) (h2 : t'.rest = s'.rest) :
    Reads u t t' := by
  obtain ⟨l, h3, h4⟩ := h
  exact ⟨l, by rw [h1, h2, h3], h4⟩

theorem one_reads {p : Rune → Bool} {s s' : St} (h : s' ∈ one p s) : ∃ c, p c = true ∧ Reads [c] s s' := by
  obtain ⟨c, n, t, h1, h2, rfl⟩ := one_mem h
  exact ⟨c, h2, [(c, n)], h1, rfl⟩

theorem lits_reads {rs : List Rune} {s s' : St} (h : s' ∈ lits rs s) : Reads rs s s' := by
  induction rs generalizing s with
  | nil => simp [lits] at h; subst h; exact .refl _
  | cons r rs ih =>
    simp only [lits, List.mem_flatMap] at h
    obtain ⟨t, ht, h⟩ := h
    obtain ⟨c, hc, hr⟩ := one_reads ht
    have : c = r := by simpa using hc
    subst this
    exact hr.trans (ih h)

theorem cls_iff {neg : Bool} {ranges : List (Nat × Nat)} {c : Rune} :
    (inRanges ranges c != neg) = true ↔ ((∃ p ∈ ranges, p.1 ≤ c ∧ c ≤ p.2) ↔ neg = false) := by
  have : inRanges ranges c = true ↔ ∃ p ∈ ranges, p.1 ≤ c ∧ c ≤ p.2 := by simp [inRanges]
  rw [← this]
  cases neg <;> cases inRanges ranges c <;> simp

variable {L : List Rune → Prop} {f : St → List St}

theorem plusLoop_reads (hf : ∀ s s', s' ∈ f s → ∃ u, L u ∧ Reads u s s') {g : Bool} {fuel : Nat} {s s' : St}
    (h : s' ∈ plusLoop g f fuel s) : ∃ us : List (List Rune), us ≠ [] ∧ (∀ u ∈ us, L u) ∧ Reads us.flatten s s' := by
  induction fuel generalizing s with
  | zero =>
    obtain ⟨u, hu, hr⟩ := hf _ _ h
    exact ⟨[u], by simp, by simpa using hu, by simpa using hr⟩
  | succ fuel ih =>
    simp only [plusLoop, List.mem_flatMap] at h
    obtain ⟨t, ht, h⟩ := h
    obtain ⟨u, hu, hr⟩ := hf _ _ ht
    have key : s' = t ∨ s' ∈ plusLoop g f fuel t := by
      split at h
      · exact quest_mem h
      · exact .inl (by simpa using h)
    rcases key with rfl | h
    · exact ⟨[u], by simp, by simpa using hu, by simpa using hr⟩
    · obtain ⟨us, _, h1, h2⟩ := ih h
      exact ⟨u :: us, by simp, by simpa using ⟨hu, h1⟩, by simpa using hr.trans h2⟩

theorem starLoop_reads (hf : ∀ s s', s' ∈ f s → ∃ u, L u ∧ Reads u s s') {g : Bool} {s s' : St}
    (h : s' ∈ starLoop g f s) : ∃ us : List (List Rune), (∀ u ∈ us, L u) ∧ Reads us.flatten s s' := by
  rcases quest_mem h with rfl | h
  · exact ⟨[], by simp, .refl _⟩
  · obtain ⟨us, _, h⟩ := plusLoop_reads hf h
    exact ⟨us, h⟩

theorem times_reads (hf : ∀ s s', s' ∈ f s → ∃ u, L u ∧ Reads u s s') {n : Nat} {s s' : St}
    (h : s' ∈ times f n s) : ∃ us : List (List Rune), us.length = n ∧ (∀ u ∈ us, L u) ∧ Reads us.flatten s s' := by
  induction n generalizing s with
  | zero => simp [times] at h; subst h; exact ⟨[], rfl, by simp, .refl _⟩
  | succ n ih =>
    simp only [times, List.mem_flatMap] at h
    obtain ⟨t, ht, h⟩ := h
    obtain ⟨u, hu, hr⟩ := hf _ _ ht
    obtain ⟨us, h0, h1, h2⟩ := ih h
    exact ⟨u :: us, by simp [h0], by simpa using ⟨hu, h1⟩, by simpa using hr.trans h2⟩

theorem upTo_reads (hf : ∀ s s', s' ∈ f s → ∃ u, L u ∧ Reads u s s') {g : Bool} {n : Nat} {s s' : St}
    (h : s' ∈ upTo g f n s) : ∃ us : List (List Rune), us.length ≤ n ∧ (∀ u ∈ us, L u) ∧ Reads us.flatten s s' := by
  induction n generalizing s with
  | zero => simp [upTo] at h; subst h; exact ⟨[], by simp, by simp, .refl _⟩
  | succ n ih =>
    unfold upTo at h
    rcases quest_mem h with rfl | h
    · exact ⟨[], by simp, by simp, .refl _⟩
    · obtain ⟨t, ht, h⟩ := List.mem_flatMap.1 h
      obtain ⟨u, hu, hr⟩ := hf _ _ ht
      obtain ⟨us, h0, h1, h2⟩ := ih h
      exact ⟨u :: us, by simpa using h0, by simpa using ⟨hu, h1⟩, by simpa using hr.trans h2⟩

theorem repLoop_reads (hf : ∀ s s', s' ∈ f s → ∃ u, L u ∧ Reads u s s') {g : Bool} {mn : Nat} {mx : Option Nat}
    (hm : ∀ m, mx = some m → mn ≤ m) {s s' : St} (h : s' ∈ repLoop mn mx g f s) :
    ∃ us : List (List Rune), mn ≤ us.length ∧ (∀ m, mx = some m → us.length ≤ m) ∧ (∀ u ∈ us, L u) ∧ Reads us.flatten s s' := by
  unfold repLoop at h
  split at h
  · rename_i m
    have := hm m rfl
    obtain ⟨t, ht, h⟩ := List.mem_flatMap.1 h
    obtain ⟨us, h0, h1, h2⟩ := times_reads hf ht
    obtain ⟨vs, k0, k1, k2⟩ := upTo_reads hf h
    refine ⟨us ++ vs, by simp [h0], ?_, ?_, by simpa using h2.trans k2⟩
    · intro m' hm'; cases hm'; simp; omega
    · intro u hu
      rcases List.mem_append.1 hu with hu | hu
      · exact h1 u hu
      · exact k1 u hu
  · split at h
    · obtain ⟨us, h1, h2⟩ := starLoop_reads hf h
      exact ⟨us, Nat.zero_le _, by simp, h1, h2⟩
    · rename_i k
      obtain ⟨t, ht, h⟩ := List.mem_flatMap.1 h
      obtain ⟨us, h0, h1, h2⟩ := times_reads hf ht
      obtain ⟨vs, k0, k1, k2⟩ := plusLoop_reads hf h
      have : 0 < vs.length := List.length_pos_iff.2 k0
      refine ⟨us ++ vs, by simp [h0]; omega, by simp, ?_, by simpa using h2.trans k2⟩
      intro u hu
      rcases List.mem_append.1 hu with hu | hu
      · exact h1 u hu
      · exact k1 u hu

mutual
/-- What is read belongs to the language. -/
theorem run_reads : ∀ (r : Re), Plain r = true → ∀ s s', s' ∈ run r s → ∃ u, Lang r u ∧ Reads u s s'
  | .noMatch, _, s, s', h => by simp [run] at h
  | .empty, _, s, s', h => by simp [run] at h; subst h; exact ⟨[], .empty, .refl _⟩
  | .lit rs, _, s, s', h => ⟨rs, .lit rs, lits_reads (by simpa [run] using h)⟩
  | .cls _ _, _, s, s', h => by
    obtain ⟨c, hc, hr⟩ := one_reads (by simpa only [run] using h)
    exact ⟨_, .cls (cls_iff.1 hc), hr⟩
  | .anyNotNL, _, s, s', h => by
    obtain ⟨c, hc, hr⟩ := one_reads (by simpa only [run] using h)
    exact ⟨_, .anyNotNL (by simpa using hc), hr⟩
  | .any, _, s, s', h => by
    obtain ⟨c, hc, hr⟩ := one_reads (by simpa only [run] using h)
    exact ⟨_, .any c, hr⟩
  | .beginLine, hp, _, _, _ | .endLine, hp, _, _, _ | .beginText, hp, _, _, _ | .endText, hp, _, _, _
  | .wordB, hp, _, _, _ | .noWordB, hp, _, _, _ => by simp [Plain] at hp
  | .cap i r, hp, s, s', h => by
    rw [run, List.mem_map] at h
    obtain ⟨t, ht, rfl⟩ := h
    obtain ⟨u, hu, hr⟩ := run_reads r (by simpa [Plain] using hp) _ _ ht
    exact ⟨u, .cap hu, hr.congr rfl rfl⟩
  | .star g r, hp, s, s', h => by
    obtain ⟨us, h1, h2⟩ := starLoop_reads (run_reads r (by simpa [Plain] using hp)) (by simpa only [run] using h)
    exact ⟨_, .star us h1, h2⟩
  | .plus g r, hp, s, s', h => by
    obtain ⟨us, h0, h1, h2⟩ := plusLoop_reads (run_reads r (by simpa [Plain] using hp)) (by simpa only [run] using h)
    exact ⟨_, .plus us h0 h1, h2⟩
  | .quest g r, hp, s, s', h => by
    rw [run] at h
    rcases quest_mem h with rfl | h
    · exact ⟨[], .skip, .refl _⟩
    · obtain ⟨u, hu, hr⟩ := run_reads r (by simpa [Plain] using hp) _ _ h
      exact ⟨u, .quest hu, hr⟩
  | .rep mn mx g r, hp, s, s', h => by
    simp only [Plain, Bool.and_eq_true] at hp
    obtain ⟨us, h0, h1, h2, h3⟩ := repLoop_reads (mn := mn) (mx := mx) (run_reads r hp.1)
      (by intro m hm; subst hm; simpa using hp.2) (by simpa only [run] using h)
    exact ⟨_, .rep us h0 h1 h2, h3⟩
  | .cat rs, hp, s, s', h => runCat_reads rs (by simpa [Plain] using hp) s s' (by simpa only [run] using h)
  | .alt rs, hp, s, s', h => by
    obtain ⟨r, hr, u, hu, hd⟩ := runAlt_reads rs (by simpa [Plain] using hp) s s' (by simpa only [run] using h)
    exact ⟨u, .alt hr hu, hd⟩
theorem runCat_reads : ∀ (rs : List Re), PlainList rs = true → ∀ s s', s' ∈ runCat rs s →
    ∃ u, Lang (.cat rs) u ∧ Reads u s s'
  | [], _, s, s', h => by simp [runCat] at h; subst h; exact ⟨[], .nil, .refl _⟩
  | r :: rs, hp, s, s', h => by
    simp only [PlainList, Bool.and_eq_true] at hp
    simp only [runCat, List.mem_flatMap] at h
    obtain ⟨t, ht, h⟩ := h
    obtain ⟨u, hu, hr⟩ := run_reads r hp.1 _ _ ht
    obtain ⟨v, hv, hs⟩ := runCat_reads rs hp.2 _ _ h
    exact ⟨u ++ v, .cons hu hv, hr.trans hs⟩
theorem runAlt_reads : ∀ (rs : List Re), PlainList rs = true → ∀ s s', s' ∈ runAlt rs s →
    ∃ r ∈ rs, ∃ u, Lang r u ∧ Reads u s s'
  | [], _, s, s', h => by simp [runAlt] at h
  | r :: rs, hp, s, s', h => by
    simp only [PlainList, Bool.and_eq_true] at hp
    simp only [runAlt, List.mem_append] at h
    rcases h with h | h
    · obtain ⟨u, hu, hr⟩ := run_reads r hp.1 _ _ h
      exact ⟨r, by simp, u, hu, hr⟩
    · obtain ⟨r', hr', u, hu, hr⟩ := runAlt_reads rs hp.2 _ _ h
      exact ⟨r', by simp [hr'], u, hu, hr⟩
end

/-! ## Every text of the language is read -/

/-- The function reads every text of `L` from every state. -/
def Covers (L : List Rune → Prop) (f : St → List St) : Prop :=
  ∀ u, L u → ∀ (s : St) l t, s.rest = l ++ t → l.map Prod.fst = u → ∃ s' ∈ f s, s'.rest = t

theorem one_covers {p : Rune → Bool} {c : Rune} (hc : p c = true) {s : St} {l t : List (Rune × Nat)}
    (h : s.rest = l ++ t) (hl : l.map Prod.fst = [c]) : ∃ s' ∈ one p s, s'.rest = t := by
  obtain ⟨⟨d, n⟩, l, rfl⟩ : ∃ a l', l = a :: l' := by cases l <;> simp at hl; exact ⟨_, _, rfl⟩
  simp at hl
  obtain ⟨rfl, rfl⟩ := hl
  refine ⟨{ s with prev := some d, pos := s.pos + n, rest := t }, ?_, rfl⟩
  simp only [List.cons_append, List.nil_append] at h
  simp [one, h, hc]

theorem lits_covers {rs : List Rune} {s : St} {l t : List (Rune × Nat)} (h : s.rest = l ++ t)
    (hl : l.map Prod.fst = rs) : ∃ s' ∈ lits rs s, s'.rest = t := by
  induction rs generalizing s l with
  | nil => simp at hl; subst hl; exact ⟨s, by simp [lits], by simpa using h⟩
  | cons r rs ih =>
    obtain ⟨a, l, rfl⟩ : ∃ a l', l = a :: l' := by cases l <;> simp at hl; exact ⟨_, _, rfl⟩
    simp only [List.map_cons, List.cons.injEq] at hl
    obtain ⟨s1, h1, h2⟩ := one_covers (p := (· == r)) (c := r) (by simp) (s := s) (l := [a]) (t := l ++ t)
      (by simpa using h) (by simp [hl.1])
    obtain ⟨s2, h3, h4⟩ := ih h2 hl.2
    exact ⟨s2, by simp only [lits, List.mem_flatMap]; exact ⟨s1, h1, h3⟩, h4⟩

theorem mem_greedy {g : Bool} {l : List St} {s s' : St} (h : s' = s ∨ s' ∈ l) :
    s' ∈ (if g then l ++ [s] else s :: l) := by
  split
  · rcases h with rfl | h <;> simp [*]
  · rcases h with rfl | h <;> simp [*]

theorem split_text {a b : List Rune} {l : List (Rune × Nat)} (h : l.map Prod.fst = a ++ b) :
    ∃ l1 l2, l = l1 ++ l2 ∧ l1.map Prod.fst = a ∧ l2.map Prod.fst = b := by
  obtain ⟨l1, l2, h1, h2, h3⟩ := List.map_eq_append_iff.1 h
  exact ⟨l1, l2, h1, h2, h3⟩

theorem plusLoop_covers_aux (hf : Covers L f) {g : Bool} : ∀ (us : List (List Rune)), us ≠ [] → (∀ u ∈ us, L u ∧ u ≠ []) →
    ∀ (fuel : Nat), us.length ≤ fuel + 1 → ∀ (s : St) l t, s.rest = l ++ t → l.map Prod.fst = us.flatten →
    ∃ s' ∈ plusLoop g f fuel s, s'.rest = t
  | [], h, _, _, _, _, _, _, _, _ => absurd rfl h
  | [u], _, hu, fuel, _, s, l, t, h, hl => by
    obtain ⟨s', h1, h2⟩ := hf u (hu u (by simp)).1 s l t h (by simpa using hl)
    refine ⟨s', ?_, h2⟩
    cases fuel with
    | zero => exact h1
    | succ fuel =>
      simp only [plusLoop, List.mem_flatMap]
      refine ⟨s', h1, ?_⟩
      split
      · exact mem_greedy (.inl rfl)
      · simp
  | u :: u' :: us, _, hu, fuel, hfl, s, l, t, h, hl => by
    obtain ⟨fuel, rfl⟩ : ∃ k, fuel = k + 1 := ⟨fuel - 1, by simp at hfl; omega⟩
    rw [List.flatten_cons] at hl
    obtain ⟨l1, l2, rfl, hl1, hl2⟩ := split_text hl
    obtain ⟨s1, h1, h2⟩ := hf u (hu u (by simp)).1 s l1 (l2 ++ t) (by simpa using h) hl1
    obtain ⟨s', h3, h4⟩ := plusLoop_covers_aux hf (g := g) (u' :: us) (by simp) (fun v hv => hu v (by simp at hv ⊢; exact .inr hv)) fuel
      (by simpa using hfl) s1 l2 t h2 hl2
    refine ⟨s', ?_, h4⟩
    simp only [plusLoop, List.mem_flatMap]
    refine ⟨s1, h1, ?_⟩
    have hlt : s1.rest.length < s.rest.length := by
      have hne : l1 ≠ [] := by
        intro h0; subst h0
        exact (hu u (by simp)).2 (by simpa using hl1.symm)
      have := List.length_pos_iff.2 hne
      rw [h2, h]; simp; omega
    rw [if_pos hlt]
    exact mem_greedy (.inr h3)

theorem length_le_flatten : ∀ (us : List (List Rune)), (∀ u ∈ us, u ≠ []) → us.length ≤ us.flatten.length
  | [], _ => by simp
  | u :: us, h => by
    have h1 := length_le_flatten us (fun v hv => h v (by simp [hv]))
    have h2 := List.length_pos_iff.2 (h u (by simp))
    simp only [List.length_cons, List.flatten_cons, List.length_append]
    omega

theorem flatten_filter (us : List (List Rune)) : (us.filter (fun u => !u.isEmpty)).flatten = us.flatten := by
  induction us with
  | nil => rfl
  | cons u us ih =>
    cases u with
    | nil => simpa using ih
    | cons a u => simp [ih]

theorem plusLoop_covers (hf : Covers L f) {g : Bool} {us : List (List Rune)} (h0 : us ≠ []) (h1 : ∀ u ∈ us, L u)
    {s : St} {l t : List (Rune × Nat)} (h : s.rest = l ++ t) (hl : l.map Prod.fst = us.flatten) :
    ∃ s' ∈ plusLoop g f s.rest.length s, s'.rest = t := by
  by_cases hn : us.filter (fun u => !u.isEmpty) = []
  · have hfl : us.flatten = [] := by rw [← flatten_filter, hn]; rfl
    rw [hfl] at hl
    simp at hl
    subst hl
    obtain ⟨u, us', rfl⟩ := List.exists_cons_of_ne_nil h0
    have hu : u = [] := by simp at hfl; exact hfl.1
    subst hu
    obtain ⟨s', k1, k2⟩ := hf [] (h1 [] (by simp)) s [] t (by simpa using h) rfl
    refine ⟨s', ?_, k2⟩
    cases s.rest.length with
    | zero => exact k1
    | succ fuel =>
      simp only [plusLoop, List.mem_flatMap]
      refine ⟨s', k1, ?_⟩
      split
      · exact mem_greedy (.inl rfl)
      · simp
  · refine plusLoop_covers_aux hf _ hn ?_ _ ?_ s l t h (by rw [flatten_filter]; exact hl)
    · intro u hu
      simp only [List.mem_filter, Bool.not_eq_true', List.isEmpty_eq_false_iff] at hu
      exact ⟨h1 u hu.1, hu.2⟩
    · have := length_le_flatten (us.filter (fun u => !u.isEmpty)) (by
        intro u hu
        simp only [List.mem_filter, Bool.not_eq_true', List.isEmpty_eq_false_iff] at hu
        exact hu.2)
      rw [flatten_filter, ← hl] at this
      rw [h]
      simp at this ⊢
      omega

theorem starLoop_covers (hf : Covers L f) {g : Bool} {us : List (List Rune)} (h1 : ∀ u ∈ us, L u)
    {s : St} {l t : List (Rune × Nat)} (h : s.rest = l ++ t) (hl : l.map Prod.fst = us.flatten) :
    ∃ s' ∈ starLoop g f s, s'.rest = t := by
  unfold starLoop
  by_cases h0 : us = []
  · subst h0
    simp at hl
    subst hl
    exact ⟨s, mem_greedy (.inl rfl), by simpa using h⟩
  · obtain ⟨s', k1, k2⟩ := plusLoop_covers hf (g := g) h0 h1 h hl
    exact ⟨s', mem_greedy (.inr k1), k2⟩

theorem times_covers (hf : Covers L f) : ∀ (us : List (List Rune)), (∀ u ∈ us, L u) →
    ∀ {s : St} {l t : List (Rune × Nat)}, s.rest = l ++ t → l.map Prod.fst = us.flatten →
    ∃ s' ∈ times f us.length s, s'.rest = t
  | [], _, s, l, t, h, hl => by simp at hl; subst hl; exact ⟨s, by simp [times], by simpa using h⟩
  | u :: us, hu, s, l, t, h, hl => by
    rw [List.flatten_cons] at hl
    obtain ⟨l1, l2, rfl, hl1, hl2⟩ := split_text hl
    obtain ⟨s1, h1, h2⟩ := hf u (hu u (by simp)) s l1 (l2 ++ t) (by simpa using h) hl1
    obtain ⟨s', h3, h4⟩ := times_covers hf us (fun v hv => hu v (by simp [hv])) h2 hl2
    exact ⟨s', by simp only [List.length_cons, times, List.mem_flatMap]; exact ⟨s1, h1, h3⟩, h4⟩

theorem upTo_covers (hf : Covers L f) {g : Bool} : ∀ (us : List (List Rune)) (n : Nat), us.length ≤ n → (∀ u ∈ us, L u) →
    ∀ {s : St} {l t : List (Rune × Nat)}, s.rest = l ++ t → l.map Prod.fst = us.flatten →
    ∃ s' ∈ upTo g f n s, s'.rest = t
  | [], n, _, _, s, l, t, h, hl => by
    simp at hl; subst hl
    refine ⟨s, ?_, by simpa using h⟩
    cases n with
    | zero => simp [upTo]
    | succ n => unfold upTo; exact mem_greedy (.inl rfl)
  | u :: us, n, hn, hu, s, l, t, h, hl => by
    obtain ⟨n, rfl⟩ : ∃ k, n = k + 1 := ⟨n - 1, by simp at hn; omega⟩
    rw [List.flatten_cons] at hl
    obtain ⟨l1, l2, rfl, hl1, hl2⟩ := split_text hl
    obtain ⟨s1, h1, h2⟩ := hf u (hu u (by simp)) s l1 (l2 ++ t) (by simpa using h) hl1
    obtain ⟨s', h3, h4⟩ := upTo_covers hf (g := g) us n (by simpa using hn) (fun v hv => hu v (by simp [hv])) h2 hl2
    refine ⟨s', ?_, h4⟩
    unfold upTo
    exact mem_greedy (.inr (List.mem_flatMap.2 ⟨s1, h1, h3⟩))

theorem repLoop_covers (hf : Covers L f) {g : Bool} {mn : Nat} {mx : Option Nat} {us : List (List Rune)}
    (h0 : mn ≤ us.length) (hm : ∀ m, mx = some m → us.length ≤ m) (hu : ∀ u ∈ us, L u)
    {s : St} {l t : List (Rune × Nat)} (h : s.rest = l ++ t) (hl : l.map Prod.fst = us.flatten) :
    ∃ s' ∈ repLoop mn mx g f s, s'.rest = t := by
  have cut : ∀ k, k ≤ us.length → ∃ l1 l2, l = l1 ++ l2 ∧ l1.map Prod.fst = (us.take k).flatten ∧
      l2.map Prod.fst = (us.drop k).flatten := by
    intro k _
    refine split_text ?_
    rw [hl, ← List.flatten_append, List.take_append_drop]
  unfold repLoop
  split
  · rename_i m
    obtain ⟨l1, l2, rfl, hl1, hl2⟩ := cut mn h0
    obtain ⟨s1, h1, h2⟩ := times_covers hf (us.take mn) (fun u h => hu u (List.mem_of_mem_take h)) (s := s) (l := l1)
      (t := l2 ++ t) (by simpa using h) hl1
    rw [List.length_take, Nat.min_eq_left h0] at h1
    obtain ⟨s', h3, h4⟩ := upTo_covers hf (g := g) (us.drop mn) (m - mn) (by have := hm m rfl; simp; omega)
      (fun u h => hu u (List.mem_of_mem_drop h)) h2 hl2
    exact ⟨s', List.mem_flatMap.2 ⟨s1, h1, h3⟩, h4⟩
  · split
    · exact starLoop_covers hf hu h hl
    · rename_i k
      obtain ⟨l1, l2, rfl, hl1, hl2⟩ := cut k (by omega)
      obtain ⟨s1, h1, h2⟩ := times_covers hf (us.take k) (fun u h => hu u (List.mem_of_mem_take h)) (s := s) (l := l1)
        (t := l2 ++ t) (by simpa using h) hl1
      rw [List.length_take, Nat.min_eq_left (by omega)] at h1
      have hne : us.drop k ≠ [] := by
        intro hd
        have := List.drop_eq_nil_iff.1 hd
        omega
      obtain ⟨s', h3, h4⟩ := plusLoop_covers hf (g := g) hne (fun u h => hu u (List.mem_of_mem_drop h)) h2 hl2
      exact ⟨s', List.mem_flatMap.2 ⟨s1, h1, h3⟩, h4⟩

/-- Every text of the language is read, wherever it stands. -/
theorem run_covers {r : Re} {u : List Rune} (h : Lang r u) : ∀ (s : St) l t, s.rest = l ++ t → l.map Prod.fst = u →
    ∃ s' ∈ run r s, s'.rest = t := by
  induction h with
  | empty => intro s l t h hl; simp at hl; subst hl; exact ⟨s, by simp [run], by simpa using h⟩
  | lit rs => intro s l t h hl; simpa [run] using lits_covers h hl
  | cls hc => intro s l t h hl; simpa only [run] using one_covers (cls_iff.2 hc) h hl
  | anyNotNL hc => intro s l t h hl; simpa only [run] using one_covers (by simpa using hc) h hl
  | any c => intro s l t h hl; simpa only [run] using one_covers (p := fun _ => true) rfl h hl
  | @cap i r u _ ih =>
    intro s l t h hl
    obtain ⟨s', h1, h2⟩ := ih (setCap (2 * i) s) l t h hl
    exact ⟨setCap (2 * i + 1) s', by rw [run, List.mem_map]; exact ⟨s', h1, rfl⟩, h2⟩
  | star us hu ih =>
    intro s l t h hl
    rw [run]
    exact starLoop_covers (L := fun u => u ∈ us) (fun u hu s l t => ih u hu s l t) (fun u hu => hu) h hl
  | plus us h0 hu ih =>
    intro s l t h hl
    rw [run]
    exact plusLoop_covers (L := fun u => u ∈ us) (fun u hu s l t => ih u hu s l t) h0 (fun u hu => hu) h hl
  | quest _ ih =>
    intro s l t h hl
    obtain ⟨s', h1, h2⟩ := ih s l t h hl
    exact ⟨s', by rw [run]; exact mem_greedy (.inr h1), h2⟩
  | skip =>
    intro s l t h hl
    simp at hl
    subst hl
    exact ⟨s, by rw [run]; exact mem_greedy (.inl rfl), by simpa using h⟩
  | rep us h0 h1 hu ih =>
    intro s l t h hl
    rw [run]
    exact repLoop_covers (L := fun u => u ∈ us) (fun u hu s l t => ih u hu s l t) h0 h1 (fun u hu => hu) h hl
  | nil => intro s l t h hl; simp at hl; subst hl; exact ⟨s, by simp [run, runCat], by simpa using h⟩
  | cons _ _ ih1 ih2 =>
    intro s l t h hl
    obtain ⟨l1, l2, rfl, hl1, hl2⟩ := split_text hl
    obtain ⟨s1, k1, k2⟩ := ih1 s l1 (l2 ++ t) (by simpa using h) hl1
    obtain ⟨s2, k3, k4⟩ := ih2 s1 l2 t k2 hl2
    rw [run] at k3
    exact ⟨s2, by rw [run, runCat, List.mem_flatMap]; exact ⟨s1, k1, k3⟩, k4⟩
  | @alt r rs u hr _ ih =>
    intro s l t h hl
    obtain ⟨s', h1, h2⟩ := ih s l t h hl
    refine ⟨s', ?_, h2⟩
    rw [run]
    clear ih h
    induction rs with
    | nil => simp at hr
    | cons r' rs ih =>
      rw [runAlt, List.mem_append]
      rcases List.mem_cons.1 hr with rfl | hr
      · exact .inl h1
      · exact .inr (ih hr)

/-! ## The language does not depend on the numbers of the groups -/

theorem lang_star_iff {g : Bool} {r : Re} {u : List Rune} :
    Lang (.star g r) u ↔ ∃ us : List (List Rune), u = us.flatten ∧ ∀ v ∈ us, Lang r v :=
  ⟨fun h => by cases h with | star us h => exact ⟨us, rfl, h⟩, fun ⟨us, h1, h2⟩ => h1 ▸ .star us h2⟩

theorem lang_plus_iff {g : Bool} {r : Re} {u : List Rune} :
    Lang (.plus g r) u ↔ ∃ us : List (List Rune), us ≠ [] ∧ u = us.flatten ∧ ∀ v ∈ us, Lang r v :=
  ⟨fun h => by cases h with | plus us h0 h => exact ⟨us, h0, rfl, h⟩, fun ⟨us, h0, h1, h2⟩ => h1 ▸ .plus us h0 h2⟩

theorem lang_rep_iff {mn : Nat} {mx : Option Nat} {g : Bool} {r : Re} {u : List Rune} :
    Lang (.rep mn mx g r) u ↔ ∃ us : List (List Rune), mn ≤ us.length ∧ (∀ m, mx = some m → us.length ≤ m) ∧
      u = us.flatten ∧ ∀ v ∈ us, Lang r v :=
  ⟨fun h => by cases h with | rep us h0 h1 h => exact ⟨us, h0, h1, rfl, h⟩,
    fun ⟨us, h0, h1, h2, h3⟩ => h2 ▸ .rep us h0 h1 h3⟩

theorem lang_quest_iff {g : Bool} {r : Re} {u : List Rune} : Lang (.quest g r) u ↔ u = [] ∨ Lang r u := by
  constructor
  · intro h
    cases h with
    | quest h => exact .inr h
    | skip => exact .inl rfl
  · rintro (rfl | h)
    · exact .skip
    · exact .quest h

theorem lang_cap_iff {i : Nat} {r : Re} {u : List Rune} : Lang (.cap i r) u ↔ Lang r u :=
  ⟨fun h => by cases h with | cap h => exact h, .cap⟩

theorem lang_cat_nil {u : List Rune} : Lang (.cat []) u ↔ u = [] :=
  ⟨fun h => by cases h; rfl, fun h => h ▸ .nil⟩

theorem lang_cat_cons {r : Re} {rs : List Re} {u : List Rune} :
    Lang (.cat (r :: rs)) u ↔ ∃ v w, u = v ++ w ∧ Lang r v ∧ Lang (.cat rs) w :=
  ⟨fun h => by cases h with | cons h hs => exact ⟨_, _, rfl, h, hs⟩, fun ⟨_, _, h, h1, h2⟩ => h ▸ .cons h1 h2⟩

theorem lang_cat_append {as bs : List Re} {u : List Rune} :
    Lang (.cat (as ++ bs)) u ↔ ∃ v w, u = v ++ w ∧ Lang (.cat as) v ∧ Lang (.cat bs) w := by
  induction as generalizing u with
  | nil =>
    constructor
    · intro h; exact ⟨[], u, rfl, .nil, h⟩
    · rintro ⟨v, w, rfl, h1, h2⟩
      rw [lang_cat_nil] at h1
      subst h1
      exact h2
  | cons a as ih =>
    rw [List.cons_append, lang_cat_cons]
    constructor
    · rintro ⟨v, w, rfl, h1, h2⟩
      obtain ⟨x, y, rfl, h3, h4⟩ := ih.1 h2
      exact ⟨v ++ x, y, by simp, .cons h1 h3, h4⟩
    · rintro ⟨v, w, rfl, h1, h2⟩
      obtain ⟨x, y, rfl, h3, h4⟩ := lang_cat_cons.1 h1
      exact ⟨x, y ++ w, by simp, h3, ih.2 ⟨y, w, rfl, h4, h2⟩⟩

theorem lang_alt_iff {rs : List Re} {u : List Rune} : Lang (.alt rs) u ↔ ∃ r ∈ rs, Lang r u :=
  ⟨fun h => by cases h with | alt hr h => exact ⟨_, hr, h⟩, fun ⟨_, hr, h⟩ => .alt hr h⟩

mutual
theorem lang_shift {k : Nat} : ∀ (r : Re) {u : List Rune}, Lang (shiftCap k r) u ↔ Lang r u
  | .noMatch, _ | .empty, _ | .lit _, _ | .cls _ _, _ | .anyNotNL, _ | .any, _ | .beginLine, _ | .endLine, _
  | .beginText, _ | .endText, _ | .wordB, _ | .noWordB, _ => Iff.rfl
  | .cap i r, u => by simp only [shiftCap, lang_cap_iff, lang_shift r]
  | .star g r, u => by simp only [shiftCap, lang_star_iff, lang_shift r]
  | .plus g r, u => by simp only [shiftCap, lang_plus_iff, lang_shift r]
  | .quest g r, u => by simp only [shiftCap, lang_quest_iff, lang_shift r]
  | .rep mn mx g r, u => by simp only [shiftCap, lang_rep_iff, lang_shift r]
  | .cat rs, u => by simp only [shiftCap]; exact langCat_shift rs
  | .alt rs, u => by simp only [shiftCap, lang_alt_iff]; exact langAlt_shift rs
theorem langCat_shift {k : Nat} : ∀ (rs : List Re) {u : List Rune}, Lang (.cat (shiftCapList k rs)) u ↔ Lang (.cat rs) u
  | [], u => Iff.rfl
  | r :: rs, u => by simp only [shiftCapList, lang_cat_cons, lang_shift r, langCat_shift rs]
theorem langAlt_shift {k : Nat} : ∀ (rs : List Re) {u : List Rune}, (∃ r ∈ shiftCapList k rs, Lang r u) ↔ ∃ r ∈ rs, Lang r u
  | [], u => by simp [shiftCapList]
  | r :: rs, u => by simp only [shiftCapList, List.mem_cons, exists_eq_or_imp, lang_shift r, langAlt_shift rs]
end

theorem lang_mkCat {l : List Re} {u : List Rune} : Lang (mkCat l) u ↔ Lang (.cat l.reverse) u := by
  match l with
  | [] => exact ⟨fun h => by cases h; exact .nil, fun h => by rw [lang_cat_nil.1 h]; exact .empty⟩
  | [r] =>
    simp only [mkCat, List.reverse_singleton, lang_cat_cons, lang_cat_nil]
    exact ⟨fun h => ⟨u, [], by simp, h, rfl⟩, fun ⟨v, w, h, h1, h2⟩ => by subst h2; simpa [h] using h1⟩
  | a :: b :: l => simp only [mkCat]

mutual
theorem plain_shift {k : Nat} : ∀ (r : Re), Plain (shiftCap k r) = Plain r
  | .noMatch | .empty | .lit _ | .cls _ _ | .anyNotNL | .any | .beginLine | .endLine
  | .beginText | .endText | .wordB | .noWordB => rfl
  | .cap i r => by simp only [shiftCap, Plain, plain_shift r]
  | .star g r => by simp only [shiftCap, Plain, plain_shift r]
  | .plus g r => by simp only [shiftCap, Plain, plain_shift r]
  | .quest g r => by simp only [shiftCap, Plain, plain_shift r]
  | .rep mn mx g r => by simp only [shiftCap, Plain, plain_shift r]
  | .cat rs => by simp only [shiftCap, Plain, plainList_shift rs]
  | .alt rs => by simp only [shiftCap, Plain, plainList_shift rs]
theorem plainList_shift {k : Nat} : ∀ (rs : List Re), PlainList (shiftCapList k rs) = PlainList rs
  | [] => rfl
  | r :: rs => by simp only [shiftCapList, PlainList, plain_shift r, plainList_shift rs]
end

theorem plainList_all {rs : List Re} : PlainList rs = true ↔ ∀ r ∈ rs, Plain r = true := by
  induction rs with
  | nil => simp [PlainList]
  | cons r rs ih => simp [PlainList, ih]

theorem plain_mkCat {l : List Re} (h : Plain (mkCat l) = true) : PlainList l.reverse = true := by
  match l with
  | [] => rfl
  | [r] => simpa [mkCat, PlainList] using h
  | a :: b :: l => simpa only [mkCat, Plain] using h

end Verif.Rx
