import Verif.Proofs.LaidPieces
import Verif.Props.Scan

/-! `Find` with patterns that have bars outside of groups, but no lookarounds and no edges. -/

namespace Verif.Hre

open Verif.Rx Verif.Spec Verif.Spec.Hre

private theorem mem_runAlt {rs : List Re} {s s' : St} (h : s' ∈ runAlt rs s) : ∃ r ∈ rs, s' ∈ run r s := by
  induction rs with
  | nil => simp [runAlt] at h
  | cons r rs ih =>
    simp only [runAlt, List.mem_append] at h
    rcases h with h | h
    · exact ⟨r, by simp, h⟩
    · obtain ⟨q, h1, h2⟩ := ih h
      exact ⟨q, by simp [h1], h2⟩

/-- `()()a|b|c()()`, with `k` groups in the core. -/
structure Bars (p : Pattern) (first : List Re) (mid : List Re) (last : List Re) (k : Nat) : Prop where
  re : p.re = .alt (.cat ([.cap 1 .empty, .cap 2 .empty] ++ first) :: (mid ++
    [.cat (last ++ [.cap (k + 3) .empty, .cap (k + 4) .empty])]))
  num : numCap p.re = k + 4
  first : ∀ i, HasCapList i first = true → 3 ≤ i ∧ i ≤ k + 2
  mid : ∀ i, HasCapList i mid = true → 3 ≤ i ∧ i ≤ k + 2
  last : ∀ i, HasCapList i last = true → 3 ≤ i ∧ i ≤ k + 2

/-- The core is the whole match. -/
theorem Bars.bounds {p : Pattern} {first mid last : List Re} {k : Nat} (h : Bars p first mid last k)
    {prev : Option Rune} {pos : Nat} {rest : List (Rune × Nat)} {s : St}
    (hs : s ∈ run p.re (start p.re prev pos rest)) :
    coreStart pos s = pos ∧ coreStop (numCap p.re) s = s.pos := by
  have hl : s.caps.length = 2 * (numCap p.re + 1) := run_start_length hs
  have hnum := h.num
  rw [hnum] at hl
  have e : numCap p.re - 1 = k + 3 := by omega
  have no : ∀ {l : List Re} {i : Nat}, (∀ i, HasCapList i l = true → 3 ≤ i ∧ i ≤ k + 2) → i < 3 ∨ k + 2 < i →
      HasCapList i l = false := by
    intro l i hl hi
    rw [Bool.eq_false_iff]
    intro hc
    have := hl _ hc
    omega
  have st : ∀ i, i < 2 * (k + 5) → (start p.re prev pos rest).caps[i]? = some none := by
    intro i hi
    simp only [start, hnum]
    rw [List.getElem?_replicate, if_pos (by omega)]
  have unset1 : s.caps[5]? = some none → coreStart pos s = pos := by
    intro h; simp [coreStart, h]
  have unset2 : s.caps[2 * (k + 3)]? = some none → coreStop (numCap p.re) s = s.pos := by
    intro h; simp [coreStop, e, h]
  rw [h.re, run, ← h.re] at hs
  obtain ⟨r, hr, hs⟩ := mem_runAlt hs
  simp only [List.mem_cons, List.mem_append, List.not_mem_nil, or_false] at hr
  rcases hr with rfl | hr | rfl
  · refine ⟨?_, unset2 ?_⟩
    · simp only [run, List.cons_append, List.nil_append, runCat, List.mem_flatMap, List.mem_map, List.mem_singleton] at hs
      obtain ⟨_, ⟨_, rfl, rfl⟩, _, ⟨_, rfl, rfl⟩, hs⟩ := hs
      have q := (runCat_keeps (i := 2) (no h.first (by omega)) hs).2
      have : s.caps[5]? = some (some pos) := by
        rw [show (5 : Nat) = 2 * 2 + 1 from rfl, q]
        simp only [setCap, start]
        rw [List.getElem?_set_self (by simp [hnum]; omega)]
      simp [coreStart, this]
    · rw [(run_keeps (i := k + 3) (by
        rw [HasCap, List.cons_append, List.cons_append, List.nil_append, HasCapList, HasCapList]
        simp [HasCap, no h.first (i := k + 3) (by omega)]) hs).1]
      exact st _ (by omega)
  · have hc : ∀ i, i < 3 ∨ k + 2 < i → HasCap i r = false := by
      intro i hi
      rw [Bool.eq_false_iff]
      intro hc
      have := h.mid i (hasCapList_iff.2 ⟨r, hr, hc⟩)
      omega
    refine ⟨unset1 ?_, unset2 ?_⟩
    · rw [show (5 : Nat) = 2 * 2 + 1 from rfl, (run_keeps (hc 2 (by omega)) hs).2]
      exact st _ (by omega)
    · rw [(run_keeps (hc (k + 3) (by omega)) hs).1]
      exact st _ (by omega)
  · refine ⟨unset1 ?_, ?_⟩
    · rw [show (5 : Nat) = 2 * 2 + 1 from rfl, (run_keeps (i := 2) (by
        rw [HasCap, hasCapList_append, no h.last (by omega)]
        simp [HasCapList, HasCap]) hs).2]
      exact st _ (by omega)
    · rw [run, runCat_append, List.mem_flatMap] at hs
      obtain ⟨s3, h3, hs⟩ := hs
      simp only [run, runCat, List.mem_flatMap, List.mem_map, List.mem_singleton] at hs
      obtain ⟨_, ⟨_, rfl, rfl⟩, _, ⟨_, rfl, rfl⟩, rfl⟩ := hs
      have l3 : s3.caps.length = 2 * (k + 5) := by
        rw [(runCat_adv h3).1]
        simp [start, hnum]
      simp only [coreStop, e, setCap]
      rw [List.getElem?_set_ne (by omega), List.getElem?_set_ne (by omega), List.getElem?_set_ne (by omega),
        List.getElem?_set_self (by omega)]
      simp

/-- A pattern whose core is the whole match, without a veto. -/
structure Bare (p : Pattern) (rc : Re) : Prop where
  bounds : ∀ {prev : Option Rune} {pos : Nat} {rest : List (Rune × Nat)} {s : St},
    s ∈ run p.re (start p.re prev pos rest) → coreStart pos s = pos ∧ coreStop (numCap p.re) s = s.pos
  lang : ∀ b u a, Match p.re b u a ↔ Match rc b u a
  bounded : Bounded p.re = true
  negA : p.negA = none
  negB : p.negB = none

theorem occursFrom_bare {rc : Re} {word : Bytes} {o i j k : Nat} :
    OccursFrom 0 .empty rc .empty 0 word o i j k ↔ ∃ w y t, decode (word.drop o) = w ++ (y ++ t) ∧ i = o + bytes w ∧
      j = i ∧ k = j + bytes y ∧ Match rc (chars w) (chars y) (chars t) := by
  have emp : ∀ {b u a}, Match .empty b u a ↔ u = [] := ⟨fun h => by cases h; rfl, fun h => h ▸ .empty⟩
  have le : ∀ {b u}, LeftEdge 0 b u ↔ u = [] := by intro b u; simp [LeftEdge]
  have re : ∀ {u a}, RightEdge 0 u a ↔ u = [] := by intro u a; simp [RightEdge]
  have cn : ∀ {l : List (Rune × Nat)}, chars l = [] ↔ l = [] := by intro l; simp [chars]
  unfold OccursFrom
  simp only [emp, le, re, cn]
  constructor
  · rintro ⟨w, e, x, y, z, f, t, h1, h2, h3, h4, rfl, rfl, h7, rfl, rfl⟩
    exact ⟨w, y, t, by simpa using h1, h2, by simpa [bytes] using h3, h4, by simpa using h7⟩
  · rintro ⟨w, y, t, h1, h2, h3, h4, h7⟩
    exact ⟨w, [], [], y, [], [], t, by simpa using h1, h2, by simpa [bytes] using h3, h4, rfl, rfl, by simpa using h7, rfl, rfl⟩

theorem Bare.run_ne {p : Pattern} {rc : Re} (h : Bare p rc) {w y t : List (Rune × Nat)}
    (m : Match rc (chars w) (chars y) (chars t)) (pos : Nat) :
    run p.re (start p.re (prevAfter none w) pos (y ++ t)) ≠ [] := by
  obtain ⟨s', h1, _⟩ := run_coversIn ((h.lang _ _ _).2 m) (start p.re (prevAfter none w) pos (y ++ t)) y t (by
      have := prevAfter_getLast (b := []) w
      simpa [start] using this) (by simp [start]) rfl rfl
  exact List.ne_nil_of_mem h1

theorem Bare.vetoes {p : Pattern} {rc : Re} (h : Bare p rc) (word : Bytes) (i j : Int) :
    (hitsAhead p word i || hitsBehind p word j) = false := by
  simp [hitsAhead, hitsBehind, h.negA, h.negB]

theorem Bare.step {p : Pattern} {rc : Re} (h : Bare p rc) {word : Bytes} {o o' : Nat} (hb : Boundary word o)
    {x : Option (List Int)} (hs : findStep p word o = .ok (some (o', x))) :
    ∃ i j k, OccursFrom 0 .empty rc .empty 0 word o i j k ∧ o ≤ i ∧ j < k ∧
      Nothing (OccursFrom 0 .empty rc .empty 0 word o) o i ∧ o' = k ∧ Boundary word k ∧
      ∃ g, x = some ((j : Int) :: (k : Int) :: g) := by
  obtain ⟨pos, s, h1, h2, h3, h4⟩ := findStep_search hs
  obtain ⟨u, v, k1, k2, k3, k4⟩ := searchFrom_first h1
  simp only [Nat.zero_add] at k2
  subst k2
  have hmem : s ∈ run p.re (start p.re (prevAfter none u) (width u) v) := List.mem_of_mem_head? k3
  obtain ⟨b1, b2⟩ := h.bounds hmem
  obtain ⟨d, hd, ho⟩ := boundary_split hb
  have hprev : (start p.re (prevAfter none u) (width u) v).prev = (chars u).getLast? := by
    have := prevAfter_getLast (b := []) u
    simpa [start] using this
  obtain ⟨uy, ay, my, ry⟩ := run_match p.re h.bounded _ _ _ hprev hmem
  obtain ⟨ly, ey, cy, wy, rfl, py⟩ := readsIn_width ry (run_adv hmem)
  subst cy
  have hst : (start p.re (prevAfter none u) (width u) v).rest = v := rfl
  have hpo : (start p.re (prevAfter none u) (width u) v).pos = width u := rfl
  rw [hst] at ey
  rw [hpo] at wy
  have hdrop : decode (word.drop o) = u ++ (ly ++ s.rest) := by rw [k1, ey]
  rw [b1, b2] at h3 h4
  rw [b2] at h2
  have hlt : width u < s.pos := by omega
  refine ⟨o + width u, o + width u, s.pos + o, ?_, by omega, by omega, ?_, by omega, ?_, ?_⟩
  · refine occursFrom_bare.2 ⟨u, ly, s.rest, hdrop, rfl, rfl, ?_, (h.lang _ _ _).1 my⟩
    rw [bytes_eq, wy]; omega
  · intro i j k hi hi' hocc
    obtain ⟨w0, y0, t0, q1, q2, q3, q4, q5⟩ := occursFrom_bare.1 hocc
    have q10 : w0.length < u.length := by
      rw [bytes_eq] at q2
      obtain ⟨e', h5, h6⟩ := prefix_of_width q1 k1 (by omega)
      rw [h5]
      have := List.length_pos_iff.2 h6
      simp; omega
    exact h.run_ne q5 _ (k4 w0 _ q1 q10)
  · refine ⟨d ++ u ++ ly, s.rest, by rw [hd, hdrop]; simp, ?_⟩
    have : width (d ++ u ++ ly) = s.pos + o := by
      simp only [width_append]; rw [wy, ← ho]; omega
    exact this.symm
  · rw [h.vetoes] at h4
    rcases h4 with ⟨_, h6⟩ | ⟨_, h6⟩
    · simp at h6
    · exact ⟨_, by rw [h6, Nat.add_comm (width u) o]⟩

theorem Bare.scan {p : Pattern} {rc : Re} (h : Bare p rc) {word : Bytes} :
    ∀ {fuel o count : Nat} {ms : List (List Int)}, Boundary word o → findLoop p word (-1) fuel o count = .ok ms →
    Scan (OccursFrom 0 .empty rc .empty 0 word) (Hre.vetoes p word) word.length o ms := by
  have nv : ∀ j k, ¬ Hre.vetoes p word j k := by
    intro j k
    simp [Hre.vetoes, h.vetoes]
  intro fuel
  induction fuel with
  | zero => intro o count ms _ hf; simp [findLoop] at hf
  | succ fuel ih =>
    intro o count ms hb hf
    unfold findLoop at hf
    split at hf
    · rw [Go.bind_eq_ok] at hf
      obtain ⟨x, hx, hf⟩ := hf
      split at hf
      · simp at hf
        subst hf
        refine .done ?_
        have h1 := searchFrom_none.1 (findStep_none hx)
        intro i j k hi hi' hocc
        obtain ⟨w0, y0, t0, q1, q2, q3, q4, q5⟩ := occursFrom_bare.1 hocc
        exact h.run_ne q5 _ (h1 w0 _ q1)
      · obtain ⟨i, j, k, h1, h2, h3, h4, rfl, h6, g, h7⟩ := h.step hb hx
        simp at h7
      · rename_i o' m
        rw [Go.bind_eq_ok] at hf
        obtain ⟨ms', hf, hms⟩ := hf
        simp at hms
        subst hms
        obtain ⟨i, j, k, h1, h2, h3, h4, rfl, h6, g, h8⟩ := h.step hb hx
        simp at h8
        subst h8
        exact .found h1 h2 h3 h4 (nv _ _) (ih h6 hf)
    · rename_i hlt
      simp at hf
      subst hf
      refine .done ?_
      intro i j k hi hi'
      exact absurd ⟨by omega, .inl (by omega)⟩ hlt

/-- Such patterns with a bar. -/
theorem Shape.bare {x : Bytes} {p : Pattern} (sh : Shape x p) (h1 : sh.nb = 0) (h2 : sh.lookB = []) (h3 : sh.lookA = [])
    (h4 : sh.na = 0) {rc : Re} (hc : compile (expandEdges sh.core) = .ok rc) (hn : ¬ NoBar (expandEdges sh.core)) :
    Bare p rc := by
  have hre := sh.re
  have hA := sh.negA
  have hB := sh.negB
  have e0 : posLook [] = [] := by decide
  rw [h1, h2, h3, h4, e0] at hre
  rw [h3, h4] at hA
  rw [h1, h2] at hB
  simp only [List.replicate_zero, expandEdges_nil] at hre
  have hbd : Bounded p.re = true := Bounds.compile_bounded hre
  have hv := Laid.compile_valid hc
  rw [compile, if_pos hv] at hc
  obtain ⟨tm, fm, k, lm, hm, rfl⟩ := parseRunes_iff.1 hc
  have p0 : Parses [] [] ⟨none, [], []⟩ 0 false := ⟨rfl, rfl⟩
  obtain ⟨ts, f, l, hq, hf⟩ := parse_pieces p0 p0 hm p0 p0
  have hbody : p.re = f.body := by
    rw [compile, if_pos (Laid.compile_valid hre)] at hre
    have vo : ValidUtf8 [0x28] := ⟨[0x28], by decide, by decide⟩
    have vx : ValidUtf8 [0x29] := ⟨[0x29], by decide, by decide⟩
    have ro : runes [0x28] = [0x28] := by decide
    have rx : runes [0x29] = [0x29] := by decide
    have : runes (paren [] ++ (paren [] ++ (expandEdges sh.core ++ (paren [] ++ paren [])))) =
        pieces [] [] (runes (expandEdges sh.core)) [] [] := by
      simp only [paren, List.append_nil, List.append_assoc]
      simp only [runes_append vo, runes_append vx, runes_append hv, ro, rx, pieces]
      simp
    rw [this] at hre
    have := parseRunes_iff.2 ⟨ts, f, _, l, hq, rfl⟩
    rw [hre] at this
    simpa using this
  have hcaps : ∀ i, HasCapList i fm.alts = true ∨ HasCapList i fm.cat = true → 1 ≤ i ∧ i ≤ k := by
    intro i h
    rw [← hm.hasCap, Frame.body, hasCap_mkAlt, HasCapList, hasCap_mkCat, Bool.or_eq_true]
    exact h.symm
  have mid : ∀ l : List Re, (∀ i, HasCapList i l = true → 1 ≤ i ∧ i ≤ k) → ∀ i,
      HasCapList i ((l.map (shiftCap 2)).reverse) = true → 3 ≤ i ∧ i ≤ k + 2 := by
    intro l hl i hi
    rw [hasCapList_iff] at hi
    obtain ⟨x, hx, hi⟩ := hi
    simp only [List.mem_reverse, List.mem_map] at hx
    obtain ⟨y, hy, rfl⟩ := hx
    obtain ⟨h1, h2⟩ := hasCap_shift_iff.1 hi
    have := hl (i - 2) (hasCapList_iff.2 ⟨y, hy, h2⟩)
    omega
  rcases hf with ⟨h0, _⟩ | ⟨B, c1, hB1, hf⟩
  · exact absurd ⟨hv, tm, fm, k, lm, hm, h0⟩ hn
  have hbars : Bars p (c1.map (shiftCap 2)).reverse (B.map (shiftCap 2)).reverse (fm.cat.map (shiftCap 2)).reverse k := by
    have e1 : (⟨none, [], []⟩ : Frame).body = .empty := rfl
    rw [e1] at hf
    refine ⟨?_, ?_, mid _ ?_, mid _ ?_, mid _ ?_⟩
    · rw [hbody, hf]; rfl
    · rw [hbody, hq.numCap]
    · intro i hi
      refine hcaps i (.inl ?_)
      rw [hB1, hasCapList_append, HasCapList, hasCap_mkCat, hi]
      simp
    · intro i hi
      refine hcaps i (.inl ?_)
      rw [hB1, hasCapList_append, hi]
      simp
    · intro i hi
      exact hcaps i (.inr hi)
  have hcat : ∀ (l : List Re) b u a, Match (.cat (l.map (shiftCap 2)).reverse) b u a ↔ Match (mkCat l) b u a := by
    intro l b u a
    rw [← List.map_reverse, ← shiftCapList_eq, match_mkCat, matchCat_shift]
  have emp : ∀ {i b u a}, Match (.cap i .empty) b u a ↔ u = [] := by
    intro i b u a
    rw [match_cap_iff]
    exact ⟨fun h => by cases h; rfl, fun h => h ▸ .empty⟩
  refine ⟨fun hs => hbars.bounds hs, ?_, hbd, ?_, ?_⟩
  · intro b u a
    have hmk : fm.body = .alt (mkCat c1 :: (B.reverse ++ [mkCat fm.cat])) := by
      rw [Frame.body, hB1]
      have : ∀ (x y : Re) (l : List Re), mkAlt (x :: (l ++ [y])) = .alt (y :: (l.reverse ++ [x])) := by
        intro x y l
        cases l <;> simp [mkAlt]
      exact this _ _ _
    rw [hbars.re, hmk, match_alt_iff, match_alt_iff]
    simp only [List.mem_cons, List.mem_append, List.not_mem_nil, or_false, or_and_right, exists_or, exists_eq_left]
    refine or_congr ?_ (or_congr ?_ ?_)
    · rw [← hcat]
      simp only [List.cons_append, List.nil_append, match_cat_cons, emp]
      constructor
      · rintro ⟨v, w, rfl, rfl, v', w', rfl, rfl, h⟩
        simpa using h
      · intro h
        exact ⟨[], u, rfl, rfl, [], u, rfl, rfl, by simpa using h⟩
    · constructor
      · rintro ⟨r, hr, h⟩
        simp only [List.mem_reverse, List.mem_map] at hr
        obtain ⟨q, hq, rfl⟩ := hr
        exact ⟨q, by simpa using hq, (match_shift q).1 h⟩
      · rintro ⟨q, hq, h⟩
        exact ⟨shiftCap 2 q, by simpa using ⟨q, by simpa using hq, rfl⟩, (match_shift q).2 h⟩
    · rw [← hcat, match_cat_append]
      simp only [match_cat_cons, match_cat_nil, emp]
      constructor
      · rintro ⟨v, w, rfl, h, v', w', rfl, rfl, v'', w'', rfl, rfl, rfl⟩
        simpa using h
      · intro h
        exact ⟨u, [], by simp, by simpa using h, [], [], rfl, rfl, [], [], rfl, rfl, rfl⟩
  · unfold NegOf at hA
    simp at hA
    exact hA.1
  · unfold NegOf at hB
    simp at hB
    exact hB.1

end Verif.Hre
