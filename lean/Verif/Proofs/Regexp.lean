import Verif.Go.Regexp

/-!
# Lemmas about the regular expression matcher
-/

namespace Verif.Rx

/-! ## A relation that holds along every run -/

mutual
/-- A capturing group with index `i` occurs. -/
def HasCap (i : Nat) : Re → Bool
  | .cap j r => j == i || HasCap i r
  | .star _ r | .plus _ r | .quest _ r | .rep _ _ _ r => HasCap i r
  | .cat rs | .alt rs => HasCapList i rs
  | _ => false
def HasCapList (i : Nat) : List Re → Bool
  | [] => false
  | r :: rs => HasCap i r || HasCapList i rs
end

/-- A preorder on states that contains every step consuming a rune. -/
structure Along (R : St → St → Prop) : Prop where
  refl : ∀ s, R s s
  trans : ∀ {s t u}, R s t → R t u → R s u
  one : ∀ {p s s'}, s' ∈ one p s → R s s'

variable {R : St → St → Prop}

theorem lits_rel (h : Along R) {rs : List Rune} {s s' : St} (hm : s' ∈ lits rs s) : R s s' := by
  induction rs generalizing s with
  | nil => simp [lits] at hm; subst hm; exact h.refl _
  | cons r rs ih =>
    simp only [lits, List.mem_flatMap] at hm
    obtain ⟨t, ht, hm⟩ := hm
    exact h.trans (h.one ht) (ih hm)

theorem check_mem {b : Bool} {s s' : St} (hm : s' ∈ check b s) : s' = s ∧ b = true := by
  unfold check at hm
  split at hm
  · simp at hm; exact ⟨hm, ‹_›⟩
  · simp at hm

theorem check_rel (h : Along R) {b : Bool} {s s' : St} (hm : s' ∈ check b s) : R s s' := by
  rw [(check_mem hm).1]; exact h.refl _

theorem plusLoop_rel (h : Along R) {g : Bool} {f : St → List St}
    (hf : ∀ s s', s' ∈ f s → R s s') {fuel : Nat} {s s' : St} (hm : s' ∈ plusLoop g f fuel s) :
    R s s' := by
  induction fuel generalizing s with
  | zero => exact hf _ _ hm
  | succ n ih =>
    simp only [plusLoop, List.mem_flatMap] at hm
    obtain ⟨t, ht, hm⟩ := hm
    refine h.trans (hf _ _ ht) ?_
    split at hm
    · split at hm
      · rcases List.mem_append.1 hm with hm | hm
        · exact ih hm
        · simp at hm; subst hm; exact h.refl _
      · rcases List.mem_cons.1 hm with hm | hm
        · subst hm; exact h.refl _
        · exact ih hm
    · simp at hm; subst hm; exact h.refl _

theorem times_rel (h : Along R) {f : St → List St}
    (hf : ∀ s s', s' ∈ f s → R s s') {n : Nat} {s s' : St} (hm : s' ∈ times f n s) : R s s' := by
  induction n generalizing s with
  | zero => simp [times] at hm; subst hm; exact h.refl _
  | succ n ih =>
    simp only [times, List.mem_flatMap] at hm
    obtain ⟨t, ht, hm⟩ := hm
    exact h.trans (hf _ _ ht) (ih hm)

theorem upTo_rel (h : Along R) {g : Bool} {f : St → List St}
    (hf : ∀ s s', s' ∈ f s → R s s') {n : Nat} {s s' : St} (hm : s' ∈ upTo g f n s) : R s s' := by
  induction n generalizing s with
  | zero => simp [upTo] at hm; subst hm; exact h.refl _
  | succ n ih =>
    have key : s' = s ∨ ∃ t ∈ f s, s' ∈ upTo g f n t := by
      simp only [upTo] at hm
      split at hm
      · rcases List.mem_append.1 hm with hm | hm
        · exact .inr (List.mem_flatMap.1 hm)
        · exact .inl (by simpa using hm)
      · rcases List.mem_cons.1 hm with hm | hm
        · exact .inl hm
        · exact .inr (List.mem_flatMap.1 hm)
    rcases key with rfl | ⟨t, ht, hm⟩
    · exact h.refl _
    · exact h.trans (hf _ _ ht) (ih hm)

theorem starLoop_mem {g : Bool} {f : St → List St} {s s' : St} (hm : s' ∈ starLoop g f s) :
    s' = s ∨ s' ∈ plusLoop g f s.rest.length s := by
  unfold starLoop at hm
  split at hm
  · rcases List.mem_append.1 hm with hm | hm
    · exact .inr hm
    · exact .inl (by simpa using hm)
  · rcases List.mem_cons.1 hm with hm | hm
    · exact .inl hm
    · exact .inr hm

theorem starLoop_rel (h : Along R) {g : Bool} {f : St → List St}
    (hf : ∀ s s', s' ∈ f s → R s s') {s s' : St} (hm : s' ∈ starLoop g f s) : R s s' := by
  rcases starLoop_mem hm with rfl | hm
  · exact h.refl _
  · exact plusLoop_rel h hf hm

theorem repLoop_rel (h : Along R) {mn : Nat} {mx : Option Nat} {g : Bool} {f : St → List St}
    (hf : ∀ s s', s' ∈ f s → R s s') {s s' : St} (hm : s' ∈ repLoop mn mx g f s) : R s s' := by
  unfold repLoop at hm
  cases mx with
  | some m =>
    simp only [List.mem_flatMap] at hm
    obtain ⟨t, ht, hm⟩ := hm
    exact h.trans (times_rel h hf ht) (upTo_rel h hf hm)
  | none =>
    cases mn with
    | zero => exact starLoop_rel h hf hm
    | succ k =>
      simp only [List.mem_flatMap] at hm
      obtain ⟨t, ht, hm⟩ := hm
      exact h.trans (times_rel h hf ht) (plusLoop_rel h hf hm)

theorem quest_mem {g : Bool} {l : List St} {s s' : St}
    (hm : s' ∈ if g then l ++ [s] else s :: l) : s' = s ∨ s' ∈ l := by
  split at hm
  · rcases List.mem_append.1 hm with hm | hm
    · exact .inr hm
    · exact .inl (by simpa using hm)
  · exact List.mem_cons.1 hm

mutual
/-- A relation closed under rune steps and under recording the captures of `r` holds between the start
and every result of `r`. -/
theorem run_rel (h : Along R) : ∀ (r : Re)
    (_ : ∀ i, HasCap i r = true → ∀ s, R s (setCap (2 * i) s) ∧ R s (setCap (2 * i + 1) s))
    {s s' : St}, s' ∈ run r s → R s s'
  | .noMatch, _, _, _, hm => by simp [run] at hm
  | .empty, _, _, _, hm => by simp [run] at hm; subst hm; exact h.refl _
  | .lit _, _, _, _, hm => lits_rel h (by simpa [run] using hm)
  | .cls _ _, _, _, _, hm => h.one (by simpa only [run] using hm)
  | .anyNotNL, _, _, _, hm => h.one (by simpa only [run] using hm)
  | .any, _, _, _, hm => h.one (by simpa only [run] using hm)
  | .beginLine, _, _, _, hm => check_rel h (by simpa only [run] using hm)
  | .endLine, _, _, _, hm => check_rel h (by simpa only [run] using hm)
  | .beginText, _, _, _, hm => check_rel h (by simpa only [run] using hm)
  | .endText, _, _, _, hm => check_rel h (by simpa only [run] using hm)
  | .wordB, _, _, _, hm => check_rel h (by simpa only [run] using hm)
  | .noWordB, _, _, _, hm => check_rel h (by simpa only [run] using hm)
  | .cap i r, hc, s, s', hm => by
      simp only [run, List.mem_map] at hm
      obtain ⟨t, ht, rfl⟩ := hm
      have hi := hc i (by simp [HasCap])
      have hr := run_rel h r (fun j hj => hc j (by simp [HasCap, hj])) ht
      exact h.trans (h.trans (hi s).1 hr) (hi t).2
  | .star g r, hc, s, s', hm => by
      simp only [run] at hm
      exact starLoop_rel h (fun s s' hm => run_rel h r (fun j hj => hc j (by simpa [HasCap] using hj)) hm) hm
  | .plus g r, hc, s, s', hm => by
      simp only [run] at hm
      exact plusLoop_rel h (fun s s' hm => run_rel h r (fun j hj => hc j (by simpa [HasCap] using hj)) hm) hm
  | .quest g r, hc, s, s', hm => by
      simp only [run] at hm
      rcases quest_mem hm with rfl | hm
      · exact h.refl _
      · exact run_rel h r (fun j hj => hc j (by simpa [HasCap] using hj)) hm
  | .rep mn mx g r, hc, s, s', hm => by
      simp only [run] at hm
      exact repLoop_rel h (fun s s' hm => run_rel h r (fun j hj => hc j (by simpa [HasCap] using hj)) hm) hm
  | .cat rs, hc, s, s', hm => by
      simp only [run] at hm
      exact runCat_rel h rs (fun j hj => hc j (by simpa [HasCap] using hj)) hm
  | .alt rs, hc, s, s', hm => by
      simp only [run] at hm
      exact runAlt_rel h rs (fun j hj => hc j (by simpa [HasCap] using hj)) hm
theorem runCat_rel (h : Along R) : ∀ (rs : List Re)
    (_ : ∀ i, HasCapList i rs = true → ∀ s, R s (setCap (2 * i) s) ∧ R s (setCap (2 * i + 1) s))
    {s s' : St}, s' ∈ runCat rs s → R s s'
  | [], _, _, _, hm => by simp [runCat] at hm; subst hm; exact h.refl _
  | r :: rs, hc, s, s', hm => by
      simp only [runCat, List.mem_flatMap] at hm
      obtain ⟨t, ht, hm⟩ := hm
      exact h.trans (run_rel h r (fun j hj => hc j (by simp [HasCapList, hj])) ht)
        (runCat_rel h rs (fun j hj => hc j (by simp [HasCapList, hj])) hm)
theorem runAlt_rel (h : Along R) : ∀ (rs : List Re)
    (_ : ∀ i, HasCapList i rs = true → ∀ s, R s (setCap (2 * i) s) ∧ R s (setCap (2 * i + 1) s))
    {s s' : St}, s' ∈ runAlt rs s → R s s'
  | [], _, _, _, hm => by simp [runAlt] at hm
  | r :: rs, hc, s, s', hm => by
      simp only [runAlt, List.mem_append] at hm
      rcases hm with hm | hm
      · exact run_rel h r (fun j hj => hc j (by simp [HasCapList, hj])) hm
      · exact runAlt_rel h rs (fun j hj => hc j (by simp [HasCapList, hj])) hm
end

theorem one_mem {p : Rune → Bool} {s s' : St} (hm : s' ∈ one p s) :
    ∃ r n t, s.rest = (r, n) :: t ∧ p r = true ∧
      s' = { s with prev := some r, pos := s.pos + n, rest := t } := by
  unfold one at hm
  split at hm
  · rename_i r n t hs
    split at hm
    · simp at hm
      exact ⟨r, n, t, hs, ‹_›, hm⟩
    · simp at hm
  · simp at hm

/-! ## Positions -/

/-- The bytes of decoded runes. -/
def width (l : List (Rune × Nat)) : Nat := (l.map (·.2)).sum

@[simp] theorem width_nil : width [] = 0 := rfl
@[simp] theorem width_cons (a : Rune × Nat) (l : List (Rune × Nat)) :
    width (a :: l) = a.2 + width l := by simp [width]
@[simp] theorem width_append (a b : List (Rune × Nat)) : width (a ++ b) = width a + width b := by
  simp [width]

/-- The previous rune after consuming `u`. -/
def prevAfter (prev : Option Rune) : List (Rune × Nat) → Option Rune
  | [] => prev
  | (r, _) :: t => prevAfter (some r) t

theorem prevAfter_append (prev : Option Rune) (u v : List (Rune × Nat)) :
    prevAfter prev (u ++ v) = prevAfter (prevAfter prev u) v := by
  induction u generalizing prev with
  | nil => rfl
  | cons a u ih => obtain ⟨r, n⟩ := a; simp [prevAfter, ih]

/-- The text read between two states, and the captures are as many. -/
def Adv (s s' : St) : Prop :=
  s'.caps.length = s.caps.length ∧ ∃ u, s.rest = u ++ s'.rest ∧ s'.pos = s.pos + width u ∧
    s'.prev = prevAfter s.prev u

theorem adv_along : Along Adv where
  refl s := ⟨rfl, [], by simp [prevAfter]⟩
  trans := by
    rintro s t u ⟨h1, a, h2, h3, h4⟩ ⟨k1, b, k2, k3, k4⟩
    refine ⟨k1.trans h1, a ++ b, ?_, ?_, ?_⟩
    · simp [h2, k2]
    · simp [k3, h3]; omega
    · rw [prevAfter_append, ← h4, k4]
  one := by
    intro p s s' hm
    obtain ⟨r, n, t, h1, _, rfl⟩ := one_mem hm
    exact ⟨rfl, [(r, n)], by simp [h1, prevAfter]⟩

theorem adv_setCap (i : Nat) (s : St) : Adv s (setCap i s) :=
  ⟨by simp [setCap], [], by simp [setCap, prevAfter]⟩

theorem run_adv {r : Re} {s s' : St} (hm : s' ∈ run r s) : Adv s s' :=
  run_rel adv_along r (fun _ _ s => ⟨adv_setCap _ s, adv_setCap _ s⟩) hm

theorem runCat_adv {rs : List Re} {s s' : St} (hm : s' ∈ runCat rs s) : Adv s s' :=
  runCat_rel adv_along rs (fun _ _ s => ⟨adv_setCap _ s, adv_setCap _ s⟩) hm

theorem Adv.pos_le {s s' : St} (h : Adv s s') : s.pos ≤ s'.pos := by
  obtain ⟨_, u, _, h, _⟩ := h; omega

theorem Adv.rest_le {s s' : St} (h : Adv s s') : s'.rest.length ≤ s.rest.length := by
  obtain ⟨_, u, h, _⟩ := h; rw [h]; simp

theorem Adv.end_eq {s s' : St} (h : Adv s s') : s'.pos + width s'.rest = s.pos + width s.rest := by
  obtain ⟨_, u, h1, h2, _⟩ := h; rw [h1, h2]; simp; omega

/-! ## Captures -/

/-- A capture slot is unchanged. -/
def Keeps (i : Nat) (s s' : St) : Prop := s'.caps[i]? = s.caps[i]?

theorem keeps_along (i : Nat) : Along (Keeps i) where
  refl _ := rfl
  trans h k := Eq.trans k h
  one := by
    intro p s s' hm
    obtain ⟨r, n, t, _, _, rfl⟩ := one_mem hm
    rfl

theorem keeps_setCap {i j : Nat} (h : i ≠ j) (s : St) : Keeps i s (setCap j s) := by
  simp only [Keeps, setCap]
  rw [List.getElem?_set_ne (Ne.symm h)]

theorem run_keeps {r : Re} {i : Nat} (h : HasCap i r = false) {s s' : St} (hm : s' ∈ run r s) :
    Keeps (2 * i) s s' ∧ Keeps (2 * i + 1) s s' := by
  constructor
  · refine run_rel (keeps_along _) r (fun j hj s => ?_) hm
    have : j ≠ i := by rintro rfl; simp [h] at hj
    exact ⟨keeps_setCap (by omega) s, keeps_setCap (by omega) s⟩
  · refine run_rel (keeps_along _) r (fun j hj s => ?_) hm
    have : j ≠ i := by rintro rfl; simp [h] at hj
    exact ⟨keeps_setCap (by omega) s, keeps_setCap (by omega) s⟩

theorem runCat_keeps {rs : List Re} {i : Nat} (h : HasCapList i rs = false) {s s' : St}
    (hm : s' ∈ runCat rs s) : Keeps (2 * i) s s' ∧ Keeps (2 * i + 1) s s' := by
  constructor
  · refine runCat_rel (keeps_along _) rs (fun j hj s => ?_) hm
    have : j ≠ i := by rintro rfl; simp [h] at hj
    exact ⟨keeps_setCap (by omega) s, keeps_setCap (by omega) s⟩
  · refine runCat_rel (keeps_along _) rs (fun j hj s => ?_) hm
    have : j ≠ i := by rintro rfl; simp [h] at hj
    exact ⟨keeps_setCap (by omega) s, keeps_setCap (by omega) s⟩

/-- A capture slot is unchanged, or was set between the two positions. -/
def Between (i : Nat) (s s' : St) : Prop :=
  s.pos ≤ s'.pos ∧
    (s'.caps[i]? = s.caps[i]? ∨ ∃ p, s'.caps[i]? = some (some p) ∧ s.pos ≤ p ∧ p ≤ s'.pos)

theorem between_along (i : Nat) : Along (Between i) where
  refl s := ⟨Nat.le_refl _, .inl rfl⟩
  trans := by
    rintro s t u ⟨h1, h2⟩ ⟨k1, k2⟩
    refine ⟨by omega, ?_⟩
    rcases k2 with k2 | ⟨p, k2, k3, k4⟩
    · rcases h2 with h2 | ⟨p, h2, h3, h4⟩
      · exact .inl (k2.trans h2)
      · exact .inr ⟨p, k2.trans h2, h3, by omega⟩
    · exact .inr ⟨p, k2, by omega, k4⟩
  one := by
    intro p s s' hm
    obtain ⟨r, n, t, _, _, rfl⟩ := one_mem hm
    exact ⟨by simp, .inl rfl⟩

theorem between_setCap (i j : Nat) (s : St) : Between i s (setCap j s) := by
  refine ⟨Nat.le_refl _, ?_⟩
  simp only [setCap, List.getElem?_set]
  split
  · subst_vars
    split
    · exact .inr ⟨s.pos, rfl, Nat.le_refl _, Nat.le_refl _⟩
    · left; rw [eq_comm, List.getElem?_eq_none_iff]; omega
  · exact .inl rfl

theorem run_between {r : Re} (i : Nat) {s s' : St} (hm : s' ∈ run r s) : Between i s s' :=
  run_rel (between_along i) r (fun _ _ s => ⟨between_setCap _ _ s, between_setCap _ _ s⟩) hm

theorem runCat_between {rs : List Re} (i : Nat) {s s' : St} (hm : s' ∈ runCat rs s) : Between i s s' :=
  runCat_rel (between_along i) rs (fun _ _ s => ⟨between_setCap _ _ s, between_setCap _ _ s⟩) hm

/-- A capture slot is unchanged, or was set at a character between the two states. -/
def Marks (i : Nat) (s s' : St) : Prop :=
  Adv s s' ∧ (s'.caps[i]? = s.caps[i]? ∨
    ∃ u v, s.rest = u ++ v ++ s'.rest ∧ s'.caps[i]? = some (some (s.pos + width u)))

theorem marks_along (i : Nat) : Along (Marks i) where
  refl s := ⟨adv_along.refl s, .inl rfl⟩
  trans := by
    rintro s t u ⟨h1, h2⟩ ⟨k1, k2⟩
    refine ⟨adv_along.trans h1 k1, ?_⟩
    rcases k2 with k2 | ⟨a, b, k2, k3⟩
    · rcases h2 with h2 | ⟨a, b, h2, h3⟩
      · exact .inl (k2.trans h2)
      · obtain ⟨_, c, hc, _⟩ := k1
        exact .inr ⟨a, b ++ c, by rw [h2, hc]; simp, k2.trans h3⟩
    · obtain ⟨_, c, hc, hp, _⟩ := h1
      exact .inr ⟨c ++ a, b, by rw [hc, k2]; simp, by rw [k3, hp]; simp [Nat.add_assoc]⟩
  one := by
    intro p s s' hm
    refine ⟨adv_along.one hm, ?_⟩
    obtain ⟨r, n, t, _, _, rfl⟩ := one_mem hm
    exact .inl rfl

theorem marks_setCap (i j : Nat) (s : St) : Marks i s (setCap j s) := by
  refine ⟨adv_setCap _ _, ?_⟩
  simp only [setCap, List.getElem?_set]
  split
  · subst_vars
    split
    · exact .inr ⟨[], [], by simp, by simp⟩
    · left; rw [eq_comm, List.getElem?_eq_none_iff]; omega
  · exact .inl rfl

theorem run_marks {r : Re} (i : Nat) {s s' : St} (hm : s' ∈ run r s) : Marks i s s' :=
  run_rel (marks_along i) r (fun _ _ s => ⟨marks_setCap _ _ s, marks_setCap _ _ s⟩) hm

/-! ## Order of two groups -/

mutual
/-- Group `a` always ends before group `b` starts, as far as the shape of the expression shows. -/
def ordOk (a b : Nat) : Re → Bool
  | .cat rs => !HasCapList a rs || !HasCapList b rs || ordOkCat a b rs
  | .alt rs => !HasCapList a rs || !HasCapList b rs || ordOkAlt a b rs
  | .quest _ r => ordOk a b r
  | .cap i r =>
    !(i == a || HasCap a r) || !(i == b || HasCap b r) || (i != a && i != b && ordOk a b r)
  | .star _ r | .plus _ r | .rep _ _ _ r => !HasCap a r || !HasCap b r
  | _ => true
def ordOkCat (a b : Nat) : List Re → Bool
  | [] => true
  | r :: rs => if HasCap b r then ordOk a b r && !HasCapList a rs else ordOkCat a b rs
def ordOkAlt (a b : Nat) : List Re → Bool
  | [] => true
  | r :: rs => ordOk a b r && ordOkAlt a b rs
end

/-- Group `a` is closed no later than the current position. -/
def Closed (a : Nat) (s : St) : Prop := ∀ e, s.caps[2 * a + 1]? = some (some e) → e ≤ s.pos

/-- Group `a` is closed before group `b` starts. -/
def Ordered (a b : Nat) (s : St) : Prop :=
  ∀ e st, s.caps[2 * a + 1]? = some (some e) → s.caps[2 * b]? = some (some st) → e ≤ st

theorem closed_of_between {a : Nat} {s s' : St} (h : Between (2 * a + 1) s s') (hc : Closed a s) :
    Closed a s' := by
  intro e he
  rcases h.2 with h2 | ⟨p, h2, h3, h4⟩
  · have := hc e (h2 ▸ he); have := h.1; omega
  · rw [h2] at he; simp at he; omega

theorem not_setB {b : Nat} {s : St} (h : ∀ st, s.caps[2 * b]? ≠ some (some st)) (a : Nat) :
    Ordered a b s := fun _ st _ h2 => absurd h2 (h st)

/-- Without group `a` in it, an expression leaves the order intact. -/
theorem ordered_noA {a b : Nat} {s s' : St} (hk : Keeps (2 * a + 1) s s') (hb : Between (2 * b) s s')
    (hc : Closed a s) (ho : Ordered a b s) : Ordered a b s' := by
  intro e st he hst
  have he' := hk ▸ he
  rcases hb.2 with h2 | ⟨p, h2, h3, h4⟩
  · exact ho e st (hk ▸ he) (h2 ▸ hst)
  · rw [h2] at hst; simp at hst
    have := hc e (hk ▸ he); omega

theorem ordered_noB {a b : Nat} {s s' : St} (hk : Keeps (2 * b) s s')
    (hn : ∀ st, s.caps[2 * b]? ≠ some (some st)) : Ordered a b s' :=
  not_setB (fun st => by rw [hk]; exact hn st) a

theorem hasCap_false {b : Bool} (h : (!b) = true) : b = false := by simpa using h

mutual
theorem run_ordered {a b : Nat} : ∀ (r : Re), ordOk a b r = true → ∀ {s s' : St}, s' ∈ run r s →
    Closed a s → (∀ st, s.caps[2 * b]? ≠ some (some st)) → Ordered a b s'
  | .cat rs, ho, s, s', hm, hc, hn => by
      simp only [ordOk, Bool.or_eq_true] at ho
      have hm0 := hm
      simp only [run] at hm
      rcases ho with (ho | ho) | ho
      · exact ordered_noA (runCat_keeps (hasCap_false ho) hm).2 (runCat_between _ hm) hc (not_setB hn a)
      · exact ordered_noB (runCat_keeps (hasCap_false ho) hm).1 hn
      · exact runCat_ordered rs ho hm hc hn
  | .alt rs, ho, s, s', hm, hc, hn => by
      simp only [ordOk, Bool.or_eq_true] at ho
      rcases ho with (ho | ho) | ho
      · exact ordered_noA (run_keeps (r := .alt rs) (by simpa [HasCap] using ho) hm).2
          (run_between _ hm) hc (not_setB hn a)
      · exact ordered_noB (run_keeps (r := .alt rs) (by simpa [HasCap] using ho) hm).1 hn
      · simp only [run] at hm
        exact runAlt_ordered rs ho hm hc hn
  | .quest g r, ho, s, s', hm, hc, hn => by
      simp only [run] at hm
      simp only [ordOk] at ho
      rcases quest_mem hm with rfl | hm
      · exact not_setB hn a
      · exact run_ordered r ho hm hc hn
  | .cap i r, ho, s, s', hm, hc, hn => by
      simp only [ordOk, Bool.or_eq_true] at ho
      rcases ho with (ho | ho) | ho
      · exact ordered_noA (run_keeps (r := .cap i r) (by simpa [HasCap] using ho) hm).2
          (run_between _ hm) hc (not_setB hn a)
      · exact ordered_noB (run_keeps (r := .cap i r) (by simpa [HasCap] using ho) hm).1 hn
      · simp only [Bool.and_eq_true, bne_iff_ne] at ho
        simp only [run, List.mem_map] at hm
        obtain ⟨t, ht, rfl⟩ := hm
        have k1 : Keeps (2 * b) s (setCap (2 * i) s) := keeps_setCap (by omega) s
        have hcl : Closed a (setCap (2 * i) s) :=
          closed_of_between (between_setCap (2 * a + 1) _ s) hc
        have := run_ordered r ho.2 ht hcl (fun st => by rw [k1]; exact hn st)
        intro e st he hst
        refine this e st ?_ ?_
        · rw [← keeps_setCap (i := 2 * a + 1) (j := 2 * i + 1) (by omega) t]; exact he
        · rw [← keeps_setCap (i := 2 * b) (j := 2 * i + 1) (by omega) t]; exact hst
  | .star g r, ho, s, s', hm, hc, hn => by
      simp only [ordOk, Bool.or_eq_true] at ho
      rcases ho with ho | ho
      · exact ordered_noA (run_keeps (r := .star g r) (by simpa [HasCap] using ho) hm).2
          (run_between _ hm) hc (not_setB hn a)
      · exact ordered_noB (run_keeps (r := .star g r) (by simpa [HasCap] using ho) hm).1 hn
  | .plus g r, ho, s, s', hm, hc, hn => by
      simp only [ordOk, Bool.or_eq_true] at ho
      rcases ho with ho | ho
      · exact ordered_noA (run_keeps (r := .plus g r) (by simpa [HasCap] using ho) hm).2
          (run_between _ hm) hc (not_setB hn a)
      · exact ordered_noB (run_keeps (r := .plus g r) (by simpa [HasCap] using ho) hm).1 hn
  | .rep mn mx g r, ho, s, s', hm, hc, hn => by
      simp only [ordOk, Bool.or_eq_true] at ho
      rcases ho with ho | ho
      · exact ordered_noA (run_keeps (r := .rep mn mx g r) (by simpa [HasCap] using ho) hm).2
          (run_between _ hm) hc (not_setB hn a)
      · exact ordered_noB (run_keeps (r := .rep mn mx g r) (by simpa [HasCap] using ho) hm).1 hn
  | .noMatch, _, s, s', hm, _, hn => ordered_noB (run_keeps (r := .noMatch) rfl hm).1 hn
  | .empty, _, s, s', hm, _, hn => ordered_noB (run_keeps (r := .empty) rfl hm).1 hn
  | .lit l, _, s, s', hm, _, hn => ordered_noB (run_keeps (r := .lit l) rfl hm).1 hn
  | .cls n l, _, s, s', hm, _, hn => ordered_noB (run_keeps (r := .cls n l) rfl hm).1 hn
  | .anyNotNL, _, s, s', hm, _, hn => ordered_noB (run_keeps (r := .anyNotNL) rfl hm).1 hn
  | .any, _, s, s', hm, _, hn => ordered_noB (run_keeps (r := .any) rfl hm).1 hn
  | .beginLine, _, s, s', hm, _, hn => ordered_noB (run_keeps (r := .beginLine) rfl hm).1 hn
  | .endLine, _, s, s', hm, _, hn => ordered_noB (run_keeps (r := .endLine) rfl hm).1 hn
  | .beginText, _, s, s', hm, _, hn => ordered_noB (run_keeps (r := .beginText) rfl hm).1 hn
  | .endText, _, s, s', hm, _, hn => ordered_noB (run_keeps (r := .endText) rfl hm).1 hn
  | .wordB, _, s, s', hm, _, hn => ordered_noB (run_keeps (r := .wordB) rfl hm).1 hn
  | .noWordB, _, s, s', hm, _, hn => ordered_noB (run_keeps (r := .noWordB) rfl hm).1 hn
theorem runCat_ordered {a b : Nat} : ∀ (rs : List Re), ordOkCat a b rs = true → ∀ {s s' : St},
    s' ∈ runCat rs s → Closed a s → (∀ st, s.caps[2 * b]? ≠ some (some st)) → Ordered a b s'
  | [], _, s, s', hm, _, hn => by simp [runCat] at hm; subst hm; exact not_setB hn a
  | r :: rs, ho, s, s', hm, hc, hn => by
      simp only [runCat, List.mem_flatMap] at hm
      obtain ⟨t, ht, hm⟩ := hm
      simp only [ordOkCat] at ho
      have hct := closed_of_between (run_between _ ht) hc
      split at ho
      · simp only [Bool.and_eq_true] at ho
        have h1 := run_ordered r ho.1 ht hc hn
        exact ordered_noA (runCat_keeps (hasCap_false ho.2) hm).2 (runCat_between _ hm) hct h1
      · rename_i hb
        have hk := (run_keeps (by simpa using hb) ht).1
        exact runCat_ordered rs ho hm hct (fun st => by rw [hk]; exact hn st)
theorem runAlt_ordered {a b : Nat} : ∀ (rs : List Re), ordOkAlt a b rs = true → ∀ {s s' : St},
    s' ∈ runAlt rs s → Closed a s → (∀ st, s.caps[2 * b]? ≠ some (some st)) → Ordered a b s'
  | [], _, s, s', hm, _, hn => by simp [runAlt] at hm
  | r :: rs, ho, s, s', hm, hc, hn => by
      simp only [runAlt, List.mem_append] at hm
      simp only [ordOkAlt, Bool.and_eq_true] at ho
      rcases hm with hm | hm
      · exact run_ordered r ho.1 hm hc hn
      · exact runAlt_ordered rs ho.2 hm hc hn
end

/-! ## Searching -/

/-- A found match is a result of `run` at some position of the text. -/
theorem searchFrom_some {r : Re} {rest : List (Rune × Nat)} {prev : Option Rune} {pos p : Nat} {s : St}
    (h : searchFrom r rest prev pos = some (p, s)) :
    ∃ u v, rest = u ++ v ∧ p = pos + width u ∧ s ∈ run r (start r (prevAfter prev u) p v) := by
  induction rest generalizing prev pos with
  | nil =>
    simp only [searchFrom, Option.map_eq_some_iff] at h
    obtain ⟨s', hs, h⟩ := h
    cases h
    exact ⟨[], [], rfl, by simp, by simpa [prevAfter] using List.mem_of_mem_head? hs⟩
  | cons a t ih =>
    obtain ⟨c, n⟩ := a
    simp only [searchFrom] at h
    split at h
    · rename_i s' l hr
      cases h
      exact ⟨[], (c, n) :: t, rfl, by simp, by simp [prevAfter, hr]⟩
    · obtain ⟨u, v, h1, h2, h3⟩ := ih h
      exact ⟨(c, n) :: u, v, by simp [h1], by simp [h2]; omega, by simpa [prevAfter] using h3⟩

/-- Nothing is found iff there is no match at any position. -/
theorem searchFrom_none {r : Re} {rest : List (Rune × Nat)} {prev : Option Rune} {pos : Nat} :
    searchFrom r rest prev pos = none ↔
      ∀ u v, rest = u ++ v → run r (start r (prevAfter prev u) (pos + width u) v) = [] := by
  induction rest generalizing prev pos with
  | nil =>
    simp only [searchFrom, Option.map_eq_none_iff, List.head?_eq_none_iff]
    constructor
    · intro h u v huv
      have := List.nil_eq_append_iff.1 huv
      simp [this.1, this.2, prevAfter, h]
    · intro h; simpa [prevAfter] using h [] [] rfl
  | cons a t ih =>
    obtain ⟨c, n⟩ := a
    simp only [searchFrom]
    split
    · rename_i s' l hr
      simp only [reduceCtorEq, false_iff]
      intro h
      have := h [] ((c, n) :: t) rfl
      simp [prevAfter, hr] at this
    · rename_i hr
      rw [ih]
      constructor
      · intro h u v huv
        cases u with
        | nil =>
          simp at huv
          subst huv
          simpa [prevAfter] using hr
        | cons b u =>
          simp only [List.cons_append, List.cons.injEq] at huv
          obtain ⟨rfl, huv⟩ := huv
          have := h u v huv
          simpa [prevAfter, Nat.add_assoc] using this
      · intro h u v huv
        have := h ((c, n) :: u) v (by simp [huv])
        simpa [prevAfter, Nat.add_assoc] using this

end Verif.Rx
