import Verif.Proofs.Hre
import Verif.Spec.Check

/-!
# Expressions on which `Find` returns

Between the group before the core and the group after it at least one character is read.
-/

namespace Verif.Rx

/-- After `k` characters at least. -/
def Read (k : Nat) (s s' : St) : Prop := s'.rest.length + k ≤ s.rest.length

theorem plusLoop_read {k : Nat} {g : Bool} {f : St → List St} (hf : ∀ s s', s' ∈ f s → Read k s s') :
    ∀ {fuel : Nat} {s s' : St}, s' ∈ plusLoop g f fuel s → Read k s s' := by
  intro fuel
  induction fuel with
  | zero => intro s s' h; exact hf _ _ h
  | succ n ih =>
    intro s s' h
    simp only [plusLoop, List.mem_flatMap] at h
    obtain ⟨t, h1, h2⟩ := h
    have h3 := hf _ _ h1
    unfold Read at *
    split at h2
    · rename_i hlt
      have : s' ∈ plusLoop g f n t ∨ s' = t := by
        split at h2
        · simpa using h2
        · rw [List.mem_cons] at h2; exact h2.symm
      rcases this with h | rfl
      · have := ih h; omega
      · exact h3
    · simp at h2; subst h2; exact h3

theorem times_read {k : Nat} {f : St → List St} (hf : ∀ s s', s' ∈ f s → Read k s s') :
    ∀ {n : Nat} {s s' : St}, s' ∈ times f n s → Read (n * k) s s' := by
  intro n
  induction n with
  | zero => intro s s' h; simp [times] at h; subst h; simp [Read]
  | succ n ih =>
    intro s s' h
    simp only [times, List.mem_flatMap] at h
    obtain ⟨t, h1, h2⟩ := h
    have := hf _ _ h1
    have := ih h2
    unfold Read at *
    rw [Nat.succ_mul]; omega

theorem one_read {p : Rune → Bool} {s s' : St} (h : s' ∈ one p s) : Read 1 s s' := by
  unfold one at h
  split at h
  · rename_i hr
    split at h
    · simp at h; subst h; simp [Read, hr]
    · simp at h
  · simp at h

theorem lits_read {rs : List Rune} {s s' : St} (h : s' ∈ lits rs s) : Read rs.length s s' := by
  induction rs generalizing s with
  | nil => simp [lits] at h; subst h; simp [Read]
  | cons c rs ih =>
    simp only [lits, List.mem_flatMap] at h
    obtain ⟨t, h1, h2⟩ := h
    have h3 := ih h2
    have h4 := one_read h1
    simp only [Read, List.length_cons] at *; omega

mutual
theorem run_read : ∀ (r : Re) {s s' : St}, s' ∈ run r s → Read (minW r) s s'
  | .lit rs, s, s', h => by
    simp only [run] at h
    exact lits_read h
  | .cls n rg, s, s', h => one_read h
  | .anyNotNL, s, s', h => one_read h
  | .any, s, s', h => one_read h
  | .cap i r, s, s', h => by
    simp only [run, List.mem_map] at h
    obtain ⟨t, h1, rfl⟩ := h
    have := run_read r h1
    simpa [Read, setCap, minW] using this
  | .plus g r, s, s', h => by
    simp only [run] at h
    exact plusLoop_read (fun _ _ h => run_read r h) h
  | .rep mn mx g r, s, s', h => by
    simp only [run] at h
    simp only [minW]
    unfold repLoop at h
    split at h
    · rw [List.mem_flatMap] at h
      obtain ⟨t, h1, h2⟩ := h
      have h3 := times_read (fun _ _ h => run_read r h) h1
      have h4 : Adv t s' := upTo_rel adv_along (fun _ _ h => run_adv h) h2
      have := h4.rest_le
      unfold Read at *; omega
    · split at h
      · have := (run_adv (r := .star g r) (by simpa [run] using h)).rest_le
        simp [Read]; exact this
      · rename_i k
        rw [List.mem_flatMap] at h
        obtain ⟨t, h1, h2⟩ := h
        have h3 := times_read (fun _ _ h => run_read r h) h1
        have h4 := plusLoop_read (fun _ _ h => run_read r h) h2
        unfold Read at *
        rw [Nat.succ_mul]; omega
  | .cat rs, s, s', h => by simp only [run] at h; exact runCat_read rs h
  | .alt rs, s, s', h => by simp only [run] at h; exact runAlt_read rs h
  | .noMatch, s, s', h | .empty, s, s', h | .beginLine, s, s', h | .endLine, s, s', h | .beginText, s, s', h
  | .endText, s, s', h | .wordB, s, s', h | .noWordB, s, s', h | .star g r, s, s', h | .quest g r, s, s', h => by
    have := (run_adv h).rest_le
    simpa [Read, minW] using this
theorem runCat_read : ∀ (rs : List Re) {s s' : St}, s' ∈ runCat rs s → Read (minWCat rs) s s'
  | [], s, s', h => by simp [runCat] at h; subst h; simp [Read, minWCat]
  | r :: rs, s, s', h => by
    simp only [runCat, List.mem_flatMap] at h
    obtain ⟨t, h1, h2⟩ := h
    have := run_read r h1
    have := runCat_read rs h2
    simp only [Read, minWCat] at *; omega
theorem runAlt_read : ∀ (rs : List Re) {s s' : St}, s' ∈ runAlt rs s → Read (minWAlt rs) s s'
  | [], s, s', h => by simp [runAlt] at h
  | [r], s, s', h => by
    simp only [runAlt, List.append_nil] at h
    exact run_read r h
  | r :: q :: rs, s, s', h => by
    rw [runAlt, List.mem_append] at h
    rcases h with h | h
    · have := run_read r h; simp only [Read, minWAlt] at *; omega
    · have := runAlt_read (q :: rs) h; simp only [Read, minWAlt] at *; omega
end

theorem run_items (r : Re) (s : St) : run r s = runCat (items r) s := by
  cases r <;> simp [items, run, runCat]

theorem mem_runAlt {rs : List Re} {s s' : St} (h : s' ∈ runAlt rs s) : ∃ r ∈ rs, s' ∈ run r s := by
  induction rs with
  | nil => simp [runAlt] at h
  | cons r rs ih =>
    rw [runAlt, List.mem_append] at h
    rcases h with h | h
    · exact ⟨r, by simp, h⟩
    · obtain ⟨q, h1, h2⟩ := ih h; exact ⟨q, by simp [h1], h2⟩

/-- Every character is at least one byte wide. -/
def Wide (l : List (Rune × Nat)) : Prop := ∀ x ∈ l, 1 ≤ x.2

theorem Wide.width {l : List (Rune × Nat)} (h : Wide l) : l.length ≤ Rx.width l := by
  induction l with
  | nil => simp
  | cons a l ih =>
    have := h a (by simp)
    have := ih fun x hx => h x (by simp [hx])
    simp; omega

theorem Adv.wide {s s' : St} (h : Adv s s') (hw : Wide s.rest) : Wide s'.rest := by
  obtain ⟨_, u, h1, _⟩ := h
  intro x hx
  exact hw x (by rw [h1]; simp [hx])

theorem Read.pos {k : Nat} {s s' : St} (h : Read k s s') (ha : Adv s s') (hw : Wide s.rest) : s.pos + k ≤ s'.pos := by
  obtain ⟨_, u, h1, h2, _⟩ := ha
  have : Wide u := fun x hx => hw x (by rw [h1]; simp [hx])
  have := this.width
  simp only [Read, h1, List.length_append] at h
  omega

/-- Where a group begins or ends, or the default if it takes no part. -/
def mark (s : St) (i p : Nat) : Nat := ((s.caps[i]?).getD none).getD p

theorem Keeps.mark {s s' : St} {i : Nat} (h : Keeps i s s') (p : Nat) : Rx.mark s' i p = Rx.mark s i p := by
  unfold Keeps at h; unfold Rx.mark; rw [h]

theorem mark_setCap {s : St} {i : Nat} (h : i < s.caps.length) (p : Nat) : mark (setCap i s) i p = s.pos := by
  simp [mark, setCap, h]

theorem hasCap_cap {i a : Nat} {r : Re} (h : i ≠ a) (hr : HasCap a r = false) : HasCap a (.cap i r) = false := by
  simp [HasCap, hr]; omega

/-- What the check means. -/
theorem gapCat_sound {a b : Nat} (hab : a ≠ b) {p : Nat} : ∀ (rs : List Re) (acc : Nat), gapCat a b acc rs = true →
    ∀ {s s' : St}, s' ∈ runCat rs s → Wide s.rest → 2 * a + 1 < s.caps.length → 2 * b < s.caps.length →
      s.caps[2 * b]? = some none → mark s (2 * a + 1) p + acc ≤ s.pos →
      mark s' (2 * a + 1) p < mark s' (2 * b) s'.pos := by
  intro rs
  induction rs with
  | nil =>
    intro acc h s s' hs hw la lb hb hp
    simp [runCat] at hs; subst hs
    simp [gapCat] at h
    have : mark s' (2 * b) s'.pos = s'.pos := by simp [mark, hb]
    omega
  | cons r rs ih =>
    intro acc h s s' hs hw la lb hb hp
    rw [runCat, List.mem_flatMap] at hs
    obtain ⟨t, h1, h2⟩ := hs
    have ha := run_adv h1
    have hr := run_read r h1
    have lt : t.caps.length = s.caps.length := ha.1
    -- an element which has neither group
    have other : HasCap a r = false → HasCap b r = false → gapCat a b (acc + minW r) rs = true →
        mark s' (2 * a + 1) p < mark s' (2 * b) s'.pos := by
      intro na nb h
      have ka := run_keeps (i := a) na h1
      have kb := run_keeps (i := b) nb h1
      refine ih _ h h2 (ha.wide hw) (by omega) (by omega) ?_ ?_
      · rw [← hb]; exact kb.1
      · rw [Keeps.mark ka.2]
        have := hr.pos ha hw
        omega
    by_cases hc : ∃ i q, r = .cap i q
    · obtain ⟨i, q, rfl⟩ := hc
      simp only [gapCat, Bool.and_eq_true, Bool.not_eq_true'] at h
      obtain ⟨⟨na, nb⟩, h⟩ := h
      simp only [run, List.mem_map] at h1
      obtain ⟨t0, h1', rfl⟩ := h1
      have ka := run_keeps (i := a) na h1'
      have kb := run_keeps (i := b) nb h1'
      have l0 : t0.caps.length = s.caps.length := by
        have := (run_adv h1').1
        simpa [setCap] using this
      by_cases e1 : i = a
      · subst e1
        rw [if_pos rfl] at h
        refine ih _ h h2 (ha.wide hw) (by omega) (by omega) ?_ ?_
        · have k1 := keeps_setCap (i := 2 * b) (j := 2 * i + 1) (by omega) t0
          have k2 := keeps_setCap (i := 2 * b) (j := 2 * i) (by omega) s
          rw [← hb]
          exact k1.trans (kb.1.trans k2)
        · rw [mark_setCap (by omega)]
          simp [setCap]
      · rw [if_neg e1] at h
        by_cases e2 : i = b
        · subst e2
          rw [if_pos rfl] at h
          simp only [Bool.and_eq_true, decide_eq_true_eq, Bool.not_eq_true'] at h
          obtain ⟨⟨h0, ma⟩, mb⟩ := h
          have ja := runCat_keeps ma h2
          have jb := runCat_keeps mb h2
          have m1 : mark s' (2 * a + 1) p = mark s (2 * a + 1) p := by
            rw [ja.2.mark, (keeps_setCap (i := 2 * a + 1) (j := 2 * i + 1) (by omega) t0).mark, ka.2.mark,
              (keeps_setCap (i := 2 * a + 1) (j := 2 * i) (by omega) s).mark]
          have m2 : mark s' (2 * i) s'.pos = s.pos := by
            rw [jb.1.mark, (keeps_setCap (i := 2 * i) (j := 2 * i + 1) (by omega) t0).mark, kb.1.mark,
              mark_setCap (by omega)]
          omega
        · rw [if_neg e2] at h
          exact other (hasCap_cap e1 na) (hasCap_cap e2 nb) h
    · have : gapCat a b acc (r :: rs) = (!HasCap a r && !HasCap b r && gapCat a b (acc + minW r) rs) := by
        cases r <;> first | rfl | exact absurd ⟨_, _, rfl⟩ hc
      rw [this] at h
      simp only [Bool.and_eq_true, Bool.not_eq_true'] at h
      exact other h.1.1 h.1.2 h.2

theorem gap_sound {a b : Nat} (hab : a ≠ b) {r : Re} (h : gap a b r = true) {p : Nat} {s s' : St} (hs : s' ∈ run r s)
    (hw : Wide s.rest) (la : 2 * a + 1 < s.caps.length) (lb : 2 * b < s.caps.length) (hb : s.caps[2 * b]? = some none)
    (hp : mark s (2 * a + 1) p ≤ s.pos) : mark s' (2 * a + 1) p < mark s' (2 * b) s'.pos := by
  by_cases hc : ∃ rs, r = .alt rs
  · obtain ⟨rs, rfl⟩ := hc
    simp only [gap, List.all_eq_true] at h
    simp only [run] at hs
    obtain ⟨q, h1, h2⟩ := mem_runAlt hs
    rw [run_items] at h2
    exact gapCat_sound hab _ _ (h q h1) h2 hw la lb hb hp
  · have : gap a b r = gapCat a b 0 (items r) := by
      cases r <;> first | rfl | exact absurd ⟨_, rfl⟩ hc
    rw [this] at h
    rw [run_items] at hs
    exact gapCat_sound hab _ _ h hs hw la lb hb hp

end Verif.Rx

namespace Verif.Hre

open Verif.Rx Verif.Spec.Hre

theorem decode_wide (w : Bytes) : Wide (decode w) := fun x hx => decode_width_pos w x hx

theorem firm_core {p : Pattern} (h : firm p = true) {prev : Option Rune} {pos : Nat} {rest : List (Rune × Nat)}
    (hw : Wide rest) {s : St} (hs : s ∈ run p.re (start p.re prev pos rest)) :
    4 ≤ numCap p.re ∧ coreStart pos s < coreStop (numCap p.re) s := by
  simp only [firm, Bool.and_eq_true, decide_eq_true_eq] at h
  obtain ⟨h4, h⟩ := h
  refine ⟨h4, ?_⟩
  have := gap_sound (by omega) h (p := pos) hs hw (by simp [start]; omega) (by simp [start]; omega)
    (by simp only [start]; rw [List.getElem?_replicate, if_pos (by omega)])
    (by
      have : mark (start p.re prev pos rest) (2 * 2 + 1) pos = pos := by
        simp only [mark, start, List.getElem?_replicate]; split <;> rfl
      rw [this]; simp [start])
  exact this

/-- One round of `Find` returns and moves forward. -/
theorem firm_step {p : Pattern} (h : firm p = true) (word : Bytes) {offset : Nat} (hb : Boundary word offset) :
    findStep p word offset = .ok none ∨ ∃ o' x, findStep p word offset = .ok (some (o', x)) ∧ offset < o' ∧
      o' ≤ word.length ∧ Boundary word o' ∧ ∀ m, x = some m → ∃ (a : Nat) (groups : List Int),
        m = (a : Int) :: (o' : Int) :: groups ∧ offset ≤ a ∧ a < o' ∧ Boundary word a := by
  cases hf : findSubmatch p.re (word.drop offset) with
  | none => left; unfold findStep; rw [hf]
  | some m₀ =>
    right
    obtain ⟨u, v, s, h1, h2, rfl⟩ := findSubmatch_some hf
    have hw : Wide v := fun x hx => decode_wide (word.drop offset) x (by rw [h1]; simp [hx])
    obtain ⟨hk, hlt⟩ := firm_core h hw h2
    have hl : (subs (width u) s).length = 2 * (numCap p.re + 1) := subs_length h2
    have hmap : (fun i : Int => if i ≠ -1 then i + (offset : Int) else i) = shift offset := by
      funext i; rfl
    obtain ⟨k1, k2, k3⟩ := pickStartStop_subs (offset := offset) h2 hk
    have hok : ∃ o' x, findStep p word offset = .ok (some (o', x)) := by
      unfold findStep
      rw [hf]
      simp only [hmap]
      rw [if_neg (by simp [hl]; omega), k1]
      simp only [Go.bind_ok]
      rw [if_neg (by omega), k2, k3]
      simp only [Go.bind_ok, Go.pure_eq]
      split <;> exact ⟨_, _, rfl⟩
    obtain ⟨o', x, hok⟩ := hok
    refine ⟨o', x, hok, ?_⟩
    obtain ⟨u, v, s, h1, h2, hk, rfl, hne, hx⟩ := (findStep_some hok).found
    have hw : Wide v := fun x hx => decode_wide (word.drop offset) x (by rw [h1]; simp [hx])
    obtain ⟨_, hlt⟩ := firm_core h hw h2
    obtain ⟨a, b, e1, e2, e3⟩ := coreStart_spec h2
    obtain ⟨c, d, f1, f2, f3⟩ := coreStop_spec (k := numCap p.re) h2
    have bstop : Boundary (word.drop offset) (coreStop (numCap p.re) s) :=
      ⟨u ++ c, d ++ s.rest, by rw [h1, f1]; simp, by rw [f2]; simp [width]⟩
    have bstart : Boundary (word.drop offset) (coreStart (width u) s) :=
      ⟨u ++ a, b ++ s.rest, by rw [h1, e1]; simp, by rw [e2]; simp [width]⟩
    have b1 := boundary_drop hb bstop
    refine ⟨by omega, boundary_le b1, b1, ?_⟩
    intro m hm
    obtain ⟨_, _, hm⟩ := hx m hm
    exact ⟨_, _, hm, by omega, by omega, boundary_drop hb bstart⟩

theorem firm_loop {p : Pattern} (h : firm p = true) (word : Bytes) (n : Int) : ∀ (fuel offset count : Nat),
    Boundary word offset → word.length < fuel + offset →
      ∃ ms, findLoop p word n fuel offset count = .ok ms ∧ ProperMatches word offset ms := by
  intro fuel
  induction fuel with
  | zero => intro offset count hb hf; have := boundary_le hb; omega
  | succ fuel ih =>
    intro offset count hb hf
    rw [findLoop]
    split
    · rcases firm_step h word hb with hs | ⟨o', x, hs, h1, h2, h3, h4⟩
      · rw [hs]; exact ⟨[], rfl, trivial⟩
      · rw [hs]
        simp only [Go.bind_ok]
        cases x with
        | none =>
          obtain ⟨ms, k1, k2⟩ := ih o' count h3 (by omega)
          refine ⟨ms, k1, ?_⟩
          cases ms with
          | nil => trivial
          | cons m ms =>
            obtain ⟨a, b, g, e, l1, l2⟩ := k2
            exact ⟨a, b, g, e, by omega, l2⟩
        | some m =>
          obtain ⟨ms, k1, k2⟩ := ih o' (count + 1) h3 (by omega)
          obtain ⟨a, g, e, l1, l2, l3⟩ := h4 m rfl
          exact ⟨m :: ms, by simp [k1], a, o', g, e, l1, l2, h2, l3, h3, k2⟩
    · exact ⟨[], rfl, trivial⟩

/-- `Find` returns proper matches for every word. -/
theorem find_firm {p : Pattern} (h : firm p = true) (word : Bytes) (n : Int) :
    ∃ ms, find p word n = .ok ms ∧ ProperMatches word 0 ms := by
  unfold find
  refine firm_loop h word n _ 0 0 (boundary_zero word) ?_
  have : word.length + 1 ≤ (word.length + 1) * (n.toNat + 1) := Nat.le_mul_of_pos_right _ (by omega)
  omega

end Verif.Hre
