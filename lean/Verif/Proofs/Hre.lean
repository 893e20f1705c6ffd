import Verif.Model.Hre
import Verif.Spec.Hre
import Verif.Proofs.Regexp
import Verif.Proofs.Utf8
import Verif.Proofs.Subword

/-!
# Lemmas about HRE patterns
-/

namespace Verif.Hre

open Verif.Rx Verif.Spec.Hre

/-- Dropping whole characters drops them from the decoded text. -/
theorem decode_drop {w : Bytes} {u v : List (Rune × Nat)} (h : decode w = u ++ v) :
    decode (w.drop (width u)) = v := by
  induction u generalizing w with
  | nil => simpa using h
  | cons a u ih =>
    cases w with
    | nil => simp [decode_nil] at h
    | cons b t =>
      have hw : 1 ≤ (decodeRune b t).2 := decode_width_pos (b :: t) (decodeRune b t) (by simp [decode_cons])
      rw [decode_cons] at h
      simp only [List.cons_append, List.cons.injEq] at h
      obtain ⟨rfl, h⟩ := h
      have := ih h
      rw [List.drop_drop] at this
      rw [← this]
      congr 1
      rw [width_cons, show (decodeRune b t).2 + width u = ((decodeRune b t).2 - 1 + width u) + 1 by omega,
        List.drop_succ_cons]

theorem decode_width (w : Bytes) : width (decode w) = w.length := decode_width_sum w

theorem boundary_zero (w : Bytes) : Boundary w 0 := ⟨[], decode w, by simp⟩

theorem boundary_length (w : Bytes) : Boundary w w.length :=
  ⟨decode w, [], by simp, (decode_width w).symm⟩

theorem boundary_le {w : Bytes} {i : Nat} (h : Boundary w i) : i ≤ w.length := by
  obtain ⟨u, v, h, rfl⟩ := h
  have := decode_width w
  rw [h, width_append] at this
  simp only [width] at this ⊢; omega

/-- A boundary of the rest of a word from a boundary on. -/
theorem boundary_drop {w : Bytes} {i j : Nat} (hi : Boundary w i) (hj : Boundary (w.drop i) j) :
    Boundary w (j + i) := by
  obtain ⟨u, v, h, rfl⟩ := hi
  obtain ⟨a, b, h2, rfl⟩ := hj
  have := decode_drop h
  rw [width] at this
  rw [this] at h2
  exact ⟨u ++ a, b, by rw [h, h2]; simp, by simp; omega⟩

/-- What a found match is. -/
theorem findSubmatch_some {r : Re} {w : Bytes} {m : List Int} (h : findSubmatch r w = some m) :
    ∃ u v s, decode w = u ++ v ∧ s ∈ run r (start r (prevAfter none u) (width u) v) ∧
      m = subs (width u) s := by
  simp only [findSubmatch, Option.map_eq_some_iff, Prod.exists] at h
  obtain ⟨p, s, h, rfl⟩ := h
  obtain ⟨u, v, h1, h2, h3⟩ := searchFrom_some h
  simp at h2
  subst h2
  exact ⟨u, v, s, h1, h3, rfl⟩

theorem start_caps (r : Re) (prev : Option Rune) (pos : Nat) (rest : List (Rune × Nat)) (i : Nat)
    (x : Option Nat) (h : (start r prev pos rest).caps[i]? = some x) : x = none := by
  simp only [start, List.getElem?_replicate] at h
  split at h <;> simp_all

/-- The captures of a match from a fresh start: as many as the expression has. -/
theorem run_start_length {r : Re} {prev : Option Rune} {pos : Nat} {rest : List (Rune × Nat)} {s : St}
    (h : s ∈ run r (start r prev pos rest)) : s.caps.length = 2 * (numCap r + 1) := by
  have := (run_adv h).1
  rw [this]; simp [start]

theorem run_start_cap {r : Re} {prev : Option Rune} {pos : Nat} {rest : List (Rune × Nat)} {s : St}
    (h : s ∈ run r (start r prev pos rest)) {i p : Nat} (hp : s.caps[i]? = some (some p)) :
    ∃ u v, rest = u ++ v ++ s.rest ∧ p = pos + width u ∧ s.pos = pos + width u + width v := by
  obtain ⟨ha, hm⟩ := run_marks i h
  rcases hm with hm | ⟨u, v, h1, h2⟩
  · rw [hp] at hm
    exact absurd (start_caps _ _ _ _ _ _ hm.symm) (by simp)
  · rw [hp] at h2
    simp [start] at h1 h2
    refine ⟨u, v, by simp [h1], h2, ?_⟩
    have := ha.end_eq
    simp [start, h1] at this
    omega

/-- The number at a slot of the submatch list, shifted by the offset of the search. -/
def shift (offset : Nat) (i : Int) : Int := if i ≠ -1 then i + (offset : Int) else i

/-- The bounds of a match: the start is the end of group 2 if that took part, the stop is the start of
the last but one group if that took part. -/
def coreStart (p : Nat) (s : St) : Nat := ((s.caps[5]?).getD none).getD p
def coreStop (k : Nat) (s : St) : Nat := ((s.caps[2 * (k - 1)]?).getD none).getD s.pos

theorem subs_length {r : Re} {prev : Option Rune} {pos : Nat} {rest : List (Rune × Nat)} {s : St}
    (h : s ∈ run r (start r prev pos rest)) : (subs pos s).length = 2 * (numCap r + 1) := by
  simp only [subs, List.length_cons, List.length_map, List.length_drop]
  rw [run_start_length h]; omega

theorem subs_getElem {p : Nat} {s : St} {i : Nat} (h : i + 2 < s.caps.length) :
    (subs p s)[i + 2]? = some (toInt ((s.caps[i + 2]?).getD none)) := by
  simp only [subs, List.getElem?_cons_succ, List.getElem?_map, List.getElem?_drop]
  rw [Nat.add_comm 2 i, List.getElem?_eq_getElem h]
  rfl

theorem shift_toInt (offset : Nat) (o : Option Nat) :
    shift offset (toInt o) = match o with | some n => ((n + offset : Nat) : Int) | none => -1 := by
  cases o <;> simp [shift, toInt]

theorem index_ok {α : Type} {l : List α} {i : Nat} {a : α} (h : l[i]? = some a) : index l i = .ok a := by
  simp [index, h]

/-- `pickStartStop` on the shifted submatches. -/
theorem pickStartStop_subs {r : Re} {prev : Option Rune} {pos offset : Nat} {rest : List (Rune × Nat)}
    {s : St} (h : s ∈ run r (start r prev pos rest)) (hk : 4 ≤ numCap r) :
    pickStartStop ((subs pos s).map (shift offset)) =
      .ok (((coreStart pos s + offset : Nat) : Int), ((coreStop (numCap r) s + offset : Nat) : Int)) ∧
    index ((subs pos s).map (shift offset)) (((subs pos s).map (shift offset)).length - 4) =
      .ok (shift offset (toInt ((s.caps[2 * (numCap r - 1)]?).getD none))) ∧
    index ((subs pos s).map (shift offset)) 5 =
      .ok (shift offset (toInt ((s.caps[5]?).getD none))) := by
  have hlen := run_start_length h
  have hl : (subs pos s).length = 2 * (numCap r + 1) := subs_length h
  have e5 : ((subs pos s).map (shift offset))[5]? = some (shift offset (toInt ((s.caps[5]?).getD none))) := by
    rw [List.getElem?_map, subs_getElem (i := 3) (by omega)]; rfl
  have e4 : ((subs pos s).map (shift offset))[2 * (numCap r + 1) - 4]? =
      some (shift offset (toInt ((s.caps[2 * (numCap r - 1)]?).getD none))) := by
    rw [List.getElem?_map, show 2 * (numCap r + 1) - 4 = (2 * (numCap r - 1) - 2) + 2 by omega,
      subs_getElem (by omega), show 2 * (numCap r - 1) - 2 + 2 = 2 * (numCap r - 1) by omega]
    rfl
  have e0 : ((subs pos s).map (shift offset))[0]? = some ((pos + offset : Nat) : Int) := by
    simp only [subs, List.map_cons, List.getElem?_cons_zero]
    have := shift_toInt offset (some pos)
    simpa [toInt] using this
  have e1 : ((subs pos s).map (shift offset))[1]? = some ((s.pos + offset : Nat) : Int) := by
    simp only [subs, List.map_cons, List.getElem?_cons_succ, List.getElem?_cons_zero]
    have := shift_toInt offset (some s.pos)
    simpa [toInt] using this
  refine ⟨?_, ?_, index_ok e5⟩
  · unfold pickStartStop
    simp only [List.length_map, hl]
    simp only [index_ok e5, index_ok e0, index_ok e4, index_ok e1, Go.bind_ok, Go.pure_eq,
      coreStart, coreStop, shift_toInt]
    congr 2
    · cases hx : (s.caps[5]?).getD none with
      | none => simp
      | some a => simp; omega
    · cases hx : (s.caps[2 * (numCap r - 1)]?).getD none with
      | none => simp
      | some a => simp; omega
  · simp only [List.length_map, hl]
    exact index_ok e4

/-- The order of the two middle groups is fixed by the shape of the expression. -/
def WellShaped (p : Pattern) : Prop := ordOk 2 (numCap p.re - 1) p.re = true

instance (p : Pattern) : Decidable (WellShaped p) := by unfold WellShaped; infer_instance

theorem getD_some {o : Option (Option Nat)} {a : Nat} (h : o.getD none = some a) : o = some (some a) := by
  cases o with
  | none => simp at h
  | some x => simp at h; rw [h]

theorem coreStart_spec {r : Re} {prev : Option Rune} {pos : Nat} {rest : List (Rune × Nat)} {s : St}
    (h : s ∈ run r (start r prev pos rest)) :
    ∃ u v, rest = u ++ v ++ s.rest ∧ coreStart pos s = pos + width u ∧ s.pos = pos + width u + width v := by
  unfold coreStart
  cases hx : (s.caps[5]?).getD none with
  | some a =>
    obtain ⟨u, v, h1, h2, h3⟩ := run_start_cap h (getD_some hx)
    exact ⟨u, v, h1, by simpa using h2, h3⟩
  | none =>
    obtain ⟨_, u, h1, h2, _⟩ := run_adv h
    simp [start] at h1 h2
    exact ⟨[], u, by simp [h1], by simp, by simp [h2]⟩

theorem coreStop_spec {r : Re} {prev : Option Rune} {pos k : Nat} {rest : List (Rune × Nat)} {s : St}
    (h : s ∈ run r (start r prev pos rest)) :
    ∃ u v, rest = u ++ v ++ s.rest ∧ coreStop k s = pos + width u ∧ s.pos = pos + width u + width v := by
  unfold coreStop
  cases hx : (s.caps[2 * (k - 1)]?).getD none with
  | some a =>
    obtain ⟨u, v, h1, h2, h3⟩ := run_start_cap h (getD_some hx)
    exact ⟨u, v, h1, by simpa using h2, h3⟩
  | none =>
    obtain ⟨_, u, h1, h2, _⟩ := run_adv h
    simp [start] at h1 h2
    exact ⟨u, [], by simp [h1], by simpa using h2, by simp [h2]⟩

theorem core_le {r : Re} {prev : Option Rune} {pos : Nat} {rest : List (Rune × Nat)} {s : St}
    (ho : ordOk 2 (numCap r - 1) r = true)
    (h : s ∈ run r (start r prev pos rest)) : coreStart pos s ≤ coreStop (numCap r) s := by
  obtain ⟨u, v, _, h2, h3⟩ := coreStart_spec h
  obtain ⟨u', v', _, h2', h3'⟩ := coreStop_spec (k := numCap r) h
  have hord := run_ordered r ho h
    (fun e he => absurd (start_caps _ _ _ _ _ _ he) (by simp))
    (fun st hst => absurd (start_caps _ _ _ _ _ _ hst) (by simp))
  cases hx : (s.caps[5]?).getD none with
  | none =>
    have : coreStart pos s = pos := by simp [coreStart, hx]
    omega
  | some a =>
    cases hy : (s.caps[2 * (numCap r - 1)]?).getD none with
    | none =>
      have : coreStop (numCap r) s = s.pos := by simp [coreStop, hy]
      omega
    | some b =>
      have e1 : coreStart pos s = a := by simp [coreStart, hx]
      have e2 : coreStop (numCap r) s = b := by simp [coreStop, hy]
      have := hord a b (getD_some hx) (getD_some hy)
      omega

/-- What one iteration of the loop of `Find` does, if it finds something: a match of the regular
expression in the rest of the word, starting and stopping at characters. -/
structure StepInfo (p : Pattern) (word : Bytes) (offset : Nat) (o' : Nat) (x : Option (List Int)) : Prop where
  intro ::
  /-- the match found in the rest of the word -/
  found : ∃ u v s, decode (word.drop offset) = u ++ v ∧
    s ∈ run p.re (start p.re (prevAfter none u) (width u) v) ∧
    4 ≤ numCap p.re ∧
    o' = coreStop (numCap p.re) s + offset ∧
    coreStart (width u) s ≠ coreStop (numCap p.re) s ∧
    (∀ m, x = some m →
      hitsAhead p word (shift offset (toInt ((s.caps[2 * (numCap p.re - 1)]?).getD none))) = false ∧
      hitsBehind p word (shift offset (toInt ((s.caps[5]?).getD none))) = false ∧
      m = ((coreStart (width u) s + offset : Nat) : Int) :: ((coreStop (numCap p.re) s + offset : Nat) : Int) ::
        ((((subs (width u) s).map (shift offset)).drop 6).take (2 * (numCap p.re + 1) - 4 - 6)))

theorem findStep_some {p : Pattern} {word : Bytes} {offset o' : Nat} {x : Option (List Int)}
    (h : findStep p word offset = .ok (some (o', x))) : StepInfo p word offset o' x := by
  unfold findStep at h
  split at h
  · simp at h
  · rename_i m₀ hm₀
    obtain ⟨u, v, s, h1, h2, rfl⟩ := findSubmatch_some hm₀
    have hmap : (fun i : Int => if i ≠ -1 then i + (offset : Int) else i) = shift offset := by
      funext i; rfl
    simp only [hmap] at h
    have hl : (subs (width u) s).length = 2 * (numCap p.re + 1) := subs_length h2
    split at h
    · simp at h
    · rename_i hlen
      have hk : 4 ≤ numCap p.re := by simp [hl] at hlen; omega
      obtain ⟨k1, k2, k3⟩ := pickStartStop_subs (offset := offset) h2 hk
      rw [k1] at h
      simp only [Go.bind_ok] at h
      split at h
      · simp at h
      · rename_i hne
        rw [k2, k3] at h
        simp only [Go.bind_ok, Go.pure_eq] at h
        split at h
        · simp only [Go.ok.injEq, Option.some.injEq, Prod.mk.injEq, Int.toNat_natCast] at h
          obtain ⟨rfl, rfl⟩ := h
          exact ⟨u, v, s, h1, h2, hk, rfl, by omega, by simp⟩
        · rename_i hno
          simp only [Bool.or_eq_true, not_or, Bool.not_eq_true] at hno
          simp only [Go.ok.injEq, Option.some.injEq, Prod.mk.injEq, Int.toNat_natCast] at h
          obtain ⟨rfl, rfl⟩ := h
          refine ⟨u, v, s, h1, h2, hk, rfl, by omega, ?_⟩
          intro m hm
          simp only [Option.some.injEq] at hm
          refine ⟨hno.1, hno.2, ?_⟩
          rw [← hm, List.length_map, hl]

theorem findStep_no_hang (p : Pattern) (word : Bytes) (offset : Nat) :
    findStep p word offset ≠ .hang := by
  intro hx
  unfold findStep at hx
  split at hx
  · simp at hx
  · rename_i m₀ hm₀
    obtain ⟨u, v, s, h1, h2, rfl⟩ := findSubmatch_some hm₀
    have hmap : (fun i : Int => if i ≠ -1 then i + (offset : Int) else i) = shift offset := by
      funext i; rfl
    simp only [hmap] at hx
    have hl : (subs (width u) s).length = 2 * (numCap p.re + 1) := subs_length h2
    split at hx
    · simp at hx
    · rename_i hlen
      have hk : 4 ≤ numCap p.re := by simp [hl] at hlen; omega
      obtain ⟨k1, k2, k3⟩ := pickStartStop_subs (offset := offset) h2 hk
      rw [k1] at hx
      simp only [Go.bind_ok] at hx
      split at hx
      · simp at hx
      · rw [k2, k3] at hx
        simp only [Go.bind_ok, Go.pure_eq] at hx
        split at hx <;> simp at hx

/-- An iteration of `Find` on a well-shaped pattern moves forward over whole characters. -/
theorem StepInfo.progress {p : Pattern} {word : Bytes} {offset o' : Nat} {x : Option (List Int)}
    (hp : WellShaped p) (hb : Boundary word offset) (h : StepInfo p word offset o' x) :
    offset < o' ∧ o' ≤ word.length ∧ Boundary word o' ∧
      ∀ m, x = some m → ∃ (a : Nat) (groups : List Int), m = (a : Int) :: (o' : Int) :: groups ∧
        offset ≤ a ∧ a < o' ∧ Boundary word a := by
  obtain ⟨u, v, s, h1, h2, hk, rfl, hne, hx⟩ := h.found
  have hle := core_le hp h2
  obtain ⟨a, b, e1, e2, e3⟩ := coreStart_spec h2
  obtain ⟨c, d, f1, f2, f3⟩ := coreStop_spec (k := numCap p.re) h2
  have bstop : Boundary (word.drop offset) (coreStop (numCap p.re) s) :=
    ⟨u ++ c, d ++ s.rest, by rw [h1, f1]; simp, by rw [f2]; simp [width]⟩
  have bstart : Boundary (word.drop offset) (coreStart (width u) s) :=
    ⟨u ++ a, b ++ s.rest, by rw [h1, e1]; simp, by rw [e2]; simp [width]⟩
  have b1 := boundary_drop hb bstop
  refine ⟨by omega, boundary_le b1, b1, ?_⟩
  intro m hm
  obtain ⟨_, _, hm⟩ := hx m hm
  exact ⟨_, _, hm, by omega, by omega, boundary_drop hb bstart⟩

/-- The loop of `Find` on a well-shaped pattern reports proper matches. -/
theorem findLoop_proper {p : Pattern} (hp : WellShaped p) (word : Bytes) (n : Int) (fuel : Nat) :
    ∀ (offset count : Nat) (ms : List (List Int)), Boundary word offset →
      findLoop p word n fuel offset count = .ok ms → ProperMatches word offset ms := by
  induction fuel with
  | zero => intro offset count ms _ h; simp [findLoop] at h
  | succ fuel ih =>
    intro offset count ms hb h
    unfold findLoop at h
    split at h
    · rw [Go.bind_eq_ok] at h
      obtain ⟨x, hx, h⟩ := h
      split at h
      · simp at h; subst h; trivial
      · rename_i o'
        obtain ⟨h1, h2, h3, _⟩ := (findStep_some hx).progress hp hb
        have := ih _ _ _ h3 h
        cases ms with
        | nil => trivial
        | cons m ms =>
          obtain ⟨a, b, g, e, l1, l2⟩ := this
          exact ⟨a, b, g, e, by omega, l2⟩
      · rename_i o' m
        rw [Go.bind_eq_ok] at h
        obtain ⟨ms', h, hms⟩ := h
        simp at hms
        subst hms
        obtain ⟨h1, h2, h3, h4⟩ := (findStep_some hx).progress hp hb
        obtain ⟨a, g, e, l1, l2, l3⟩ := h4 m rfl
        exact ⟨a, o', g, e, l1, l2, h2, l3, h3, ih _ _ _ h3 h⟩
    · simp at h; subst h; trivial

/-- At most `n` matches. -/
theorem findLoop_count (p : Pattern) (word : Bytes) (n : Int) (fuel : Nat) :
    ∀ (offset count : Nat) (ms : List (List Int)), 0 ≤ n → (count : Int) ≤ n →
      findLoop p word n fuel offset count = .ok ms → (count : Int) + ms.length ≤ n := by
  induction fuel with
  | zero => intro offset count ms _ _ h; simp [findLoop] at h
  | succ fuel ih =>
    intro offset count ms hn hc h
    unfold findLoop at h
    split at h
    · rename_i hcond
      rw [Go.bind_eq_ok] at h
      obtain ⟨x, hx, h⟩ := h
      split at h
      · simp at h; subst h; simpa using hc
      · exact ih _ _ _ hn hc h
      · rw [Go.bind_eq_ok] at h
        obtain ⟨ms', h, hms⟩ := h
        simp at hms
        subst hms
        have := ih _ _ _ hn (by omega) h
        simp at this ⊢; omega
    · simp at h; subst h; simpa using hc

/-- The loop ends: every iteration moves forward. -/
theorem findLoop_no_hang {p : Pattern} (hp : WellShaped p) (word : Bytes) (n : Int) (fuel : Nat) :
    ∀ (offset count : Nat), Boundary word offset → word.length < fuel + offset →
      findLoop p word n fuel offset count ≠ .hang := by
  induction fuel with
  | zero => intro offset count hb hf; have := boundary_le hb; omega
  | succ fuel ih =>
    intro offset count hb hf h
    unfold findLoop at h
    split at h
    · cases hx : findStep p word offset with
      | ok x =>
        rw [hx] at h
        simp only [Go.bind_ok] at h
        split at h
        · simp at h
        · rename_i o'
          obtain ⟨h1, h2, h3, _⟩ := (findStep_some hx).progress hp hb
          exact ih _ _ h3 (by omega) h
        · rename_i o' m
          obtain ⟨h1, h2, h3, _⟩ := (findStep_some hx).progress hp hb
          cases hl : findLoop p word n fuel o' (count + 1) with
          | hang => exact ih _ _ h3 (by omega) hl
          | ok _ => rw [hl] at h; simp at h
          | err _ => rw [hl] at h; simp at h
          | panic => rw [hl] at h; simp at h
      | err e => rw [hx] at h; simp at h
      | panic => rw [hx] at h; simp at h
      | hang => exact findStep_no_hang p word offset hx
    · simp at h

end Verif.Hre
