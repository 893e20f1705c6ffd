import Verif.Proofs.Leftmost
import Verif.Proofs.Context

/-! `Find` takes the leftmost matches and skips none: patterns with edges and assertions. -/

namespace Verif.Hre

open Verif.Rx Verif.Spec Verif.Spec.Hre

/-- `(?:^|\s+|{})` and `(?:$|\s+|{})` without their assertion. -/
def gap : List Re := [.plus true (.cls false spaceRanges), .cat [.lit [0x7B], .lit [0x7D]]]

theorem blank_iff {c : Rune} : (∃ p ∈ spaceRanges, p.1 ≤ c ∧ c ≤ p.2) ↔ Blank c := by
  simp only [spaceRanges, List.mem_cons, List.not_mem_nil, or_false, exists_eq_or_imp, exists_eq_left, Blank]
  omega

theorem flatten_map_single (u : List Rune) : (u.map fun c => [c]).flatten = u := by
  induction u with
  | nil => rfl
  | cons c u ih => simp [ih]

theorem gap_match {b u a : List Rune} :
    (∃ r ∈ gap, Match r b u a) ↔ (u ≠ [] ∧ ∀ c ∈ u, Blank c) ∨ u = [0x7B, 0x7D] := by
  simp only [gap, List.mem_cons, List.not_mem_nil, or_false, exists_eq_or_imp, exists_eq_left]
  apply or_congr
  · rw [match_plus_iff]
    constructor
    · rintro ⟨us, h0, rfl, h⟩
      have one : ∀ v ∈ us, ∃ c, v = [c] ∧ Blank c := by
        intro v hv
        obtain ⟨xs, ys, rfl⟩ := List.append_of_mem hv
        have := h xs v ys rfl
        cases this with
        | cls hb => exact ⟨_, rfl, blank_iff.1 (hb.2 rfl)⟩
      constructor
      · intro he
        obtain ⟨v, us', rfl⟩ := List.exists_cons_of_ne_nil h0
        obtain ⟨c, rfl, _⟩ := one v (by simp)
        simp at he
      · intro c hc
        obtain ⟨v, hv, hc⟩ := List.mem_flatten.1 hc
        obtain ⟨d, rfl, hd⟩ := one v hv
        simp at hc
        subst hc
        exact hd
    · rintro ⟨h0, h⟩
      refine ⟨u.map fun c => [c], by simpa using h0, (flatten_map_single u).symm, ?_⟩
      intro xs v ys he
      have : v ∈ u.map fun c => [c] := by rw [he]; simp
      simp only [List.mem_map] at this
      obtain ⟨c, hc, rfl⟩ := this
      exact .cls (by simpa using blank_iff.2 (h c hc))
  · constructor
    · intro h
      obtain ⟨v, w, rfl, h1, h2⟩ := match_cat_cons.1 h
      obtain ⟨v', w', rfl, h3, h4⟩ := match_cat_cons.1 h2
      rw [match_cat_nil] at h4
      subst h4
      cases h1
      cases h3
      rfl
    · rintro rfl
      exact .cons (u := [0x7B]) (v := [0x7D]) (.lit _) (.cons (u := [0x7D]) (v := []) (.lit _) .nil)

/-- What the left edge of a pattern is compiled to. -/
theorem leftEdge_match {n : Nat} {r : Re} (h : compile (expandEdges (List.replicate n 0x5E)) = .ok r) {b u a : List Rune} :
    Match r b u a ↔ LeftEdge n b u := by
  rw [expandEdges_carets] at h
  unfold LeftEdge
  split at h
  · subst_vars
    have : compile [] = .ok .empty := rfl
    rw [this] at h
    cases h
    constructor
    · intro h; cases h; simp
    · rintro (⟨_, rfl⟩ | ⟨h, _⟩ | ⟨h, _⟩)
      · exact .empty
      · omega
      · omega
  · split at h
    · subst_vars
      have : compile leftEdgeExpr = .ok (.alt (.beginText :: gap)) := by rfl
      rw [this] at h
      cases h
      rw [match_alt_iff]
      simp only [List.mem_cons, exists_eq_or_imp]
      rw [gap_match]
      constructor
      · rintro (h | h)
        · cases h; exact .inr (.inl ⟨by omega, rfl, rfl⟩)
        · exact .inr (.inr ⟨trivial, h⟩)
      · rintro (⟨h, _⟩ | ⟨_, rfl, rfl⟩ | ⟨_, h⟩)
        · omega
        · exact .inl .beginText
        · exact .inr h
    · have : compile [0x5E] = .ok .beginText := by rfl
      rw [this] at h
      cases h
      constructor
      · intro h; cases h; exact .inr (.inl ⟨by omega, rfl, rfl⟩)
      · rintro (⟨h, _⟩ | ⟨_, rfl, rfl⟩ | ⟨h, _⟩)
        · omega
        · exact .beginText
        · omega

theorem rightEdge_match {n : Nat} {r : Re} (h : compile (expandEdges (List.replicate n 0x24)) = .ok r) {b u a : List Rune} :
    Match r b u a ↔ RightEdge n u a := by
  rw [expandEdges_dollars] at h
  unfold RightEdge
  split at h
  · subst_vars
    have : compile [] = .ok .empty := rfl
    rw [this] at h
    cases h
    constructor
    · intro h; cases h; simp
    · rintro (⟨_, rfl⟩ | ⟨h, _⟩ | ⟨h, _⟩)
      · exact .empty
      · omega
      · omega
  · split at h
    · subst_vars
      have : compile rightEdgeExpr = .ok (.alt (.endText :: gap)) := by rfl
      rw [this] at h
      cases h
      rw [match_alt_iff]
      simp only [List.mem_cons, exists_eq_or_imp]
      rw [gap_match]
      constructor
      · rintro (h | h)
        · cases h; exact .inr (.inl ⟨by omega, rfl, rfl⟩)
        · exact .inr (.inr ⟨trivial, h⟩)
      · rintro (⟨h, _⟩ | ⟨_, rfl, rfl⟩ | ⟨_, h⟩)
        · omega
        · exact .inl .endText
        · exact .inr h
    · have : compile [0x24] = .ok .endText := by rfl
      rw [this] at h
      cases h
      constructor
      · intro h; cases h; exact .inr (.inl ⟨by omega, rfl, rfl⟩)
      · rintro (⟨h, _⟩ | ⟨_, rfl, rfl⟩ | ⟨h, _⟩)
        · omega
        · exact .endText
        · omega

/-- The parts of a pattern match one after another. -/
def Parts (e1 lb rc la e2 : Re) (word : Bytes) (o i j k : Nat) : Prop :=
  ∃ w e x y z f t, decode (word.drop o) = w ++ (e ++ (x ++ (y ++ (z ++ (f ++ t))))) ∧
    i = o + bytes w ∧ j = i + bytes e + bytes x ∧ k = j + bytes y ∧
    Match e1 (chars w) (chars e) (chars (x ++ y ++ z ++ f ++ t)) ∧
    Match lb (chars (w ++ e)) (chars x) (chars (y ++ z ++ f ++ t)) ∧
    Match rc (chars (w ++ e ++ x)) (chars y) (chars (z ++ f ++ t)) ∧
    Match la (chars (w ++ e ++ x ++ y)) (chars z) (chars (f ++ t)) ∧
    Match e2 (chars (w ++ e ++ x ++ y ++ z)) (chars f) (chars t)

variable {p : Pattern} {e1 lb la e2 : Re} {core : List Re} {c : Nat}

/-- An occurrence makes the search succeed where it begins. -/
theorem layout_run_parts (h : Layout p e1 lb core c la e2) {w e x y z f t : List (Rune × Nat)}
    (m1 : Match e1 (chars w) (chars e) (chars (x ++ y ++ z ++ f ++ t)))
    (m2 : Match lb (chars (w ++ e)) (chars x) (chars (y ++ z ++ f ++ t)))
    (m3 : Match (.cat core) (chars (w ++ e ++ x)) (chars y) (chars (z ++ f ++ t)))
    (m4 : Match la (chars (w ++ e ++ x ++ y)) (chars z) (chars (f ++ t)))
    (m5 : Match e2 (chars (w ++ e ++ x ++ y ++ z)) (chars f) (chars t)) (pos : Nat) :
    run p.re (start p.re (prevAfter none w) pos (e ++ (x ++ (y ++ (z ++ (f ++ t)))))) ≠ [] := by
  simp only [chars_append, List.append_assoc] at m1 m2 m3 m4 m5
  have hl : Match p.re (chars w) (chars (e ++ (x ++ (y ++ (z ++ f))))) (chars t) := by
    rw [h.re, List.append_assoc]
    simp only [chars_append]
    refine .cons (.cap (by simpa using m1)) (.cons (.cap (by simpa using m2)) ?_)
    show Match (.cat (core ++ [_, _])) _ _ _
    rw [match_cat_append]
    refine ⟨_, _, rfl, by simpa using m3, ?_⟩
    refine .cons (.cap (by simpa using m4)) ?_
    rw [← List.append_nil (chars f)]
    exact .cons (.cap (by simpa using m5)) .nil
  obtain ⟨s', h1, _⟩ := run_coversIn hl (start p.re (prevAfter none w) pos (e ++ (x ++ (y ++ (z ++ (f ++ t))))))
    (e ++ (x ++ (y ++ (z ++ f)))) t (by
      have := prevAfter_getLast (b := []) w
      simpa [start] using this) (by simp [start]) rfl rfl
  exact List.ne_nil_of_mem h1

theorem run_cap_match {i : Nat} {r : Re} (hp : Bounded r = true) {b : List Rune} {s s' : St} (hb : s.prev = b.getLast?)
    (h : s' ∈ run (.cap i r) s) : ∃ u a, Match r b u a ∧ ReadsIn b u a s s' := by
  obtain ⟨u, a, h1, h2⟩ := run_match (.cap i r) (by simpa [Bounded] using hp) b s s' hb h
  exact ⟨u, a, match_cap_iff.1 h1, h2⟩

theorem readsIn_width {b u a : List Rune} {s s' : St} (h : ReadsIn b u a s s') (ha : Adv s s') :
    ∃ l, s.rest = l ++ s'.rest ∧ chars l = u ∧ s'.pos = s.pos + width l ∧ a = chars s'.rest ∧
      s'.prev = (b ++ chars l).getLast? := by
  obtain ⟨_, h2, h3, h4⟩ := h
  obtain ⟨l, k1, k2, k3⟩ := reads_width h4 ha
  exact ⟨l, k1, k2, k3, h3.symm, by rw [h2, ← k2]; rfl⟩

theorem layout_step_parts (h : Layout p e1 lb core c la e2) {rc : Re}
    (hc : ∀ b u a, Match (.cat core) b u a ↔ Match rc b u a) (p0 : Bounded e1 = true) (p1 : Bounded lb = true)
    (p2 : BoundedList core = true) (p3 : Bounded la = true) (p4 : Bounded e2 = true) {word : Bytes} {o o' : Nat}
    (hb : Boundary word o) {x : Option (List Int)} (hs : findStep p word o = .ok (some (o', x))) :
    ∃ i j k, Parts e1 lb rc la e2 word o i j k ∧ o ≤ i ∧ j < k ∧ Nothing (Parts e1 lb rc la e2 word o) o i ∧ o' = k ∧
      Boundary word k ∧
      ((x = none ∧ vetoes p word j k) ∨ (¬ vetoes p word j k ∧ ∃ g, x = some ((j : Int) :: (k : Int) :: g))) := by
  obtain ⟨pos, s, h1, h2, h3, h4⟩ := findStep_search hs
  obtain ⟨u, v, k1, k2, k3, k4⟩ := searchFrom_first h1
  simp only [Nat.zero_add] at k2
  subst k2
  have hmem : s ∈ run p.re (start p.re (prevAfter none u) (width u) v) := List.mem_of_mem_head? k3
  obtain ⟨s1, s2, s3, s4, a1, a2, a3, a4, a5, b1, b2, b3, b4⟩ := h.path hmem
  obtain ⟨d, hd, ho⟩ := boundary_split hb
  have hprev : (start p.re (prevAfter none u) (width u) v).prev = (chars u).getLast? := by
    have := prevAfter_getLast (b := []) u
    simpa [start] using this
  obtain ⟨ue, ae, me, re⟩ := run_cap_match p0 hprev a1
  obtain ⟨le, ee, ce, we, rfl, pe⟩ := readsIn_width re (run_adv a1)
  subst ce
  obtain ⟨ux, ax, mx, rx⟩ := run_cap_match p1 pe a2
  obtain ⟨lx, ex, cx, wx, rfl, px⟩ := readsIn_width rx (run_adv a2)
  subst cx
  obtain ⟨uy, ay, my, ry⟩ := runCat_match core p2 _ _ _ px a3
  obtain ⟨ly, ey, cy, wy, rfl, py⟩ := readsIn_width ry (runCat_adv a3)
  subst cy
  obtain ⟨uz, az, mz, rz⟩ := run_cap_match p3 py a4
  obtain ⟨lz, ez, cz, wz, rfl, pz⟩ := readsIn_width rz (run_adv a4)
  subst cz
  obtain ⟨uf, af, mf, rf⟩ := run_cap_match p4 pz a5
  obtain ⟨lf, ef, cf, wf, rfl, pf⟩ := readsIn_width rf (run_adv a5)
  subst cf
  have hst : (start p.re (prevAfter none u) (width u) v).rest = v := rfl
  have hpo : (start p.re (prevAfter none u) (width u) v).pos = width u := rfl
  rw [hst] at ee
  rw [hpo] at we
  have hv : v = le ++ (lx ++ (ly ++ (lz ++ (lf ++ s.rest)))) := by
    rw [ee, ex, ey, ez, ef]
  have hdrop : decode (word.drop o) = u ++ (le ++ (lx ++ (ly ++ (lz ++ (lf ++ s.rest))))) := by rw [k1, hv]
  have hlt : s2.pos < s3.pos := by
    rw [b1, b2] at h3
    omega
  refine ⟨o + width u, s2.pos + o, s3.pos + o, ?_, by omega, by omega, ?_, ?_, ?_, ?_⟩
  · refine ⟨u, le, lx, ly, lz, lf, s.rest, hdrop, rfl, ?_, ?_, ?_, ?_, ?_, ?_, ?_⟩
    · rw [bytes_eq, bytes_eq, wx, we]; omega
    · rw [bytes_eq, wy]; omega
    · rw [ex, ey, ez, ef] at me
      simpa only [chars_append, List.append_assoc] using me
    · rw [ey, ez, ef] at mx
      simpa only [chars_append, List.append_assoc] using mx
    · rw [ez, ef] at my
      simpa only [chars_append, List.append_assoc] using (hc _ _ _).1 my
    · rw [ef] at mz
      simpa only [chars_append, List.append_assoc] using mz
    · simpa only [chars_append, List.append_assoc] using mf
  · rintro i j k hi hi' ⟨w0, e0, x0, y0, z0, f0, t0, q1, q2, q3, q4, q5, q6, q7, q8, q9⟩
    have q10 : w0.length < u.length := by
      rw [bytes_eq] at q2
      obtain ⟨e', h5, h6⟩ := prefix_of_width q1 k1 (by omega)
      rw [h5]
      have := List.length_pos_iff.2 h6
      simp; omega
    exact layout_run_parts h q5 q6 ((hc _ _ _).2 q7) q8 q9 _ (k4 w0 _ q1 q10)
  · rw [h2, b2]
  · refine ⟨d ++ u ++ le ++ lx ++ ly, lz ++ (lf ++ s.rest), by rw [hd, hdrop]; simp, ?_⟩
    have : width (d ++ u ++ le ++ lx ++ ly) = s3.pos + o := by
      simp only [width_append]; rw [wy, wx, we, ← ho]; omega
    exact this.symm
  · have f1 : shift o (toInt ((s.caps[2 * (numCap p.re - 1)]?).getD none)) = ((s3.pos + o : Nat) : Int) := by
      rw [b4, shift_toInt]; rfl
    have f2 : shift o (toInt ((s.caps[5]?).getD none)) = ((s2.pos + o : Nat) : Int) := by
      rw [b3, shift_toInt]; rfl
    rw [f1, f2, b1, b2] at h4
    unfold vetoes
    rcases h4 with ⟨h5, h6⟩ | ⟨h5, h6⟩
    · exact .inl ⟨h5, h6⟩
    · exact .inr ⟨by rw [h5]; simp, _, h6⟩

theorem layout_none_parts (h : Layout p e1 lb core c la e2) {rc : Re}
    (hc : ∀ b u a, Match (.cat core) b u a ↔ Match rc b u a) {word : Bytes} {o : Nat}
    (hs : findStep p word o = .ok none) {hi : Nat} : Nothing (Parts e1 lb rc la e2 word o) o hi := by
  have h1 := searchFrom_none.1 (findStep_none hs)
  rintro i j k hi hi' ⟨w0, e0, x0, y0, z0, f0, t0, q1, q2, q3, q4, q5, q6, q7, q8, q9⟩
  exact layout_run_parts h q5 q6 ((hc _ _ _).2 q7) q8 q9 _ (h1 w0 _ q1)

theorem layout_scan (h : Layout p e1 lb core c la e2) {rc : Re}
    (hc : ∀ b u a, Match (.cat core) b u a ↔ Match rc b u a) (p0 : Bounded e1 = true) (p1 : Bounded lb = true)
    (p2 : BoundedList core = true) (p3 : Bounded la = true) (p4 : Bounded e2 = true) {word : Bytes} :
    ∀ {fuel o count : Nat} {ms : List (List Int)}, Boundary word o →
    findLoop p word (-1) fuel o count = .ok ms →
    Scan (Parts e1 lb rc la e2 word) (vetoes p word) word.length o ms := by
  intro fuel
  induction fuel with
  | zero => intro o count ms _ hf; simp [findLoop] at hf
  | succ fuel ih =>
    intro o count ms hb hf
    unfold findLoop at hf
    split at hf
    · rw [Go.bind_eq_ok] at hf
      obtain ⟨x, hx, hf⟩ := hf
      split at hf
      · simp at hf; subst hf; exact .done (layout_none_parts h hc hx)
      · obtain ⟨i, j, k, h1, h2, h3, h4, rfl, h6, h7⟩ := layout_step_parts h hc p0 p1 p2 p3 p4 hb hx
        rcases h7 with ⟨_, h7⟩ | ⟨_, g, h7⟩
        · exact .vetoed h1 h2 h3 h4 h7 (ih h6 hf)
        · simp at h7
      · rename_i o' m
        rw [Go.bind_eq_ok] at hf
        obtain ⟨ms', hf, hms⟩ := hf
        simp at hms
        subst hms
        obtain ⟨i, j, k, h1, h2, h3, h4, rfl, h6, h7⟩ := layout_step_parts h hc p0 p1 p2 p3 p4 hb hx
        rcases h7 with ⟨h7, _⟩ | ⟨h7, g, h8⟩
        · simp at h7
        · simp at h8
          subst h8
          exact .found h1 h2 h3 h4 h7 (ih h6 hf)
    · rename_i hlt
      simp at hf
      subst hf
      refine .done ?_
      intro i j k hi hi'
      exact absurd ⟨by omega, .inl (by omega)⟩ hlt

/-- Scans of the same occurrences with vetoes that agree on them. -/
theorem scan_congr {occ occ' : Nat → Nat → Nat → Nat → Prop} {v v' : Nat → Nat → Prop} {len lo : Nat} {ms : List (List Int)}
    (ho : ∀ o i j k, occ o i j k ↔ occ' o i j k) (h : ∀ o i j k, occ o i j k → (v j k ↔ v' j k))
    (hl : Scan occ v len lo ms) : Scan occ' v' len lo ms := by
  have hn : ∀ {o lo hi}, Nothing (occ o) lo hi → Nothing (occ' o) lo hi := by
    intro o lo hi hn i j k h1 h2 h3
    exact hn i j k h1 h2 ((ho _ _ _ _).2 h3)
  induction hl with
  | done h => exact .done (hn h)
  | found h1 h2 h3 h4 h5 _ ih => exact .found ((ho _ _ _ _).1 h1) h2 h3 (hn h4) (fun hv => h5 ((h _ _ _ _ h1).2 hv)) ih
  | vetoed h1 h2 h3 h4 h5 _ ih => exact .vetoed ((ho _ _ _ _).1 h1) h2 h3 (hn h4) ((h _ _ _ _ h1).1 h5) ih

/-- The scan of a pattern without a top-level bar. -/
theorem Shape.scan {x : Bytes} {p : Pattern} (sh : Shape x p) {rb rc ra : Re}
    (hb : compile (expandEdges (posLook sh.lookB)) = .ok rb) (hn : NoBar (expandEdges sh.core))
    (hc : compile (expandEdges sh.core) = .ok rc) (ha : compile (expandEdges (posLook sh.lookA)) = .ok ra)
    {word : Bytes} {ms : List (List Int)} (hf : find p word (-1) = .ok ms) :
    Scan (OccursFrom sh.nb rb rc ra sh.na word) (vetoes p word) word.length 0 ms := by
  obtain ⟨r1, r2, core, k, k1, k2, hL, hm⟩ := sh.layout hb hn ha
  obtain ⟨l, rfl, rfl⟩ := hm rc hc
  have hmatch : ∀ b u a, Match (.cat (l.map (shiftCap 2)).reverse) b u a ↔ Match (mkCat l) b u a := by
    intro b u a
    rw [← List.map_reverse, ← shiftCapList_eq, match_mkCat, matchCat_shift]
  have hbound : BoundedList (l.map (shiftCap 2)).reverse = true := by
    rw [← List.map_reverse, ← shiftCapList_eq, boundedList_shift]
    exact bounded_mkCat (Bounds.compile_bounded hc)
  have := layout_scan hL hmatch (Bounds.compile_bounded k1) (Bounds.compile_bounded hb) hbound (Bounds.compile_bounded ha)
    (Bounds.compile_bounded k2) (boundary_zero word) hf
  refine scan_congr ?_ (fun _ _ _ _ _ => Iff.rfl) this
  intro o i j k
  unfold Parts OccursFrom
  simp only [leftEdge_match k1, rightEdge_match k2]

end Verif.Hre

namespace Verif.Hre

open Verif.Rx Verif.Spec Verif.Spec.Hre

/-! ## Patterns that do not look for a beginning -/

theorem match_before : ∀ {r : Re} {b u a : List Rune}, Match r b u a → Forward r = true → ∀ b', Match r b' u a := by
  intro r b u a h
  induction h with
  | empty => intro _ _; exact .empty
  | lit rs => intro _ _; exact .lit rs
  | cls h => intro _ _; exact .cls h
  | anyNotNL h => intro _ _; exact .anyNotNL h
  | any c => intro _ _; exact .any c
  | beginText | beginLine _ | wordB _ | noWordB _ => intro h; simp [Forward] at h
  | endText => intro _ _; exact .endText
  | endLine h => intro _ _; exact .endLine h
  | cap _ ih => intro h b'; exact .cap (ih (by simpa [Forward] using h) b')
  | star us _ ih => intro h b'; exact .star us fun xs u ys e => ih xs u ys e (by simpa [Forward] using h) _
  | plus us h0 _ ih => intro h b'; exact .plus us h0 fun xs u ys e => ih xs u ys e (by simpa [Forward] using h) _
  | quest _ ih => intro h b'; exact .quest (ih (by simpa [Forward] using h) b')
  | skip => intro _ _; exact .skip
  | rep us h0 h1 _ ih => intro h b'; exact .rep us h0 h1 fun xs u ys e => ih xs u ys e (by simpa [Forward] using h) _
  | nil => intro _ _; exact .nil
  | cons _ _ ih1 ih2 =>
    intro h b'
    simp only [Forward, ForwardList, Bool.and_eq_true] at h
    exact .cons (ih1 h.1 b') (ih2 (by simpa [Forward] using h.2) _)
  | @alt r rs _ _ _ hr _ ih =>
    intro h b'
    refine .alt hr (ih ?_ b')
    have : ∀ rs : List Re, ForwardList rs = true → r ∈ rs → Forward r = true := by
      intro rs
      induction rs with
      | nil => simp
      | cons x xs ih =>
        simp only [ForwardList, Bool.and_eq_true, List.mem_cons]
        rintro ⟨h1, h2⟩ (rfl | h3)
        · exact h1
        · exact ih h2 h3
    exact this rs (by simpa [Forward] using h) hr

/-- Where a pattern that does not look for a beginning occurs does not depend on where the search began. -/
theorem occursFrom_zero {rb rc ra : Re} (fb : Forward rb = true) (fc : Forward rc = true) (fa : Forward ra = true)
    {na : Nat} {word : Bytes} {o i j k : Nat} (hb : Boundary word o) (hi : o ≤ i) :
    OccursFrom 0 rb rc ra na word o i j k ↔ OccursFrom 0 rb rc ra na word 0 i j k := by
  obtain ⟨d, hd, ho⟩ := boundary_split hb
  have edge : ∀ b b' u, LeftEdge 0 b u → LeftEdge 0 b' u := by
    rintro b b' u (h | ⟨h, _⟩ | ⟨h, _⟩)
    · exact .inl h
    · omega
    · omega
  constructor
  · rintro ⟨w, e, x, y, z, f, t, q1, q2, q3, q4, q5, q6, q7, q8, q9⟩
    refine ⟨d ++ w, e, x, y, z, f, t, ?_, ?_, q3, q4, edge _ _ _ q5, match_before q6 fb _, match_before q7 fc _,
      match_before q8 fa _, q9⟩
    · rw [List.drop_zero, hd, q1, List.append_assoc]
    · rw [q2, bytes_eq, bytes_eq, width_append, ho]; omega
  · rintro ⟨w, e, x, y, z, f, t, q1, q2, q3, q4, q5, q6, q7, q8, q9⟩
    rw [List.drop_zero] at q1
    rw [bytes_eq, Nat.zero_add] at q2
    obtain ⟨w', rfl⟩ := prefix_of_width_le hd q1 (by omega)
    refine ⟨w', e, x, y, z, f, t, ?_, ?_, q3, q4, edge _ _ _ q5, match_before q6 fb _, match_before q7 fc _,
      match_before q8 fa _, q9⟩
    · rw [hd, List.append_assoc] at q1
      exact List.append_cancel_left q1
    · rw [q2, bytes_eq, width_append, ho]

/-- An occurrence ends between two characters. -/
theorem occursFrom_boundary {nb na : Nat} {rb rc ra : Re} {word : Bytes} {o i j k : Nat} (hb : Boundary word o)
    (h : OccursFrom nb rb rc ra na word o i j k) : Boundary word k ∧ j ≤ word.length := by
  obtain ⟨d, hd, ho⟩ := boundary_split hb
  obtain ⟨w, e, x, y, z, f, t, q1, q2, q3, q4, _⟩ := h
  have e1 : decode word = (d ++ w ++ e ++ x ++ y) ++ (z ++ (f ++ t)) := by rw [hd, q1]; simp
  have e2 : k = width (d ++ w ++ e ++ x ++ y) := by
    simp only [width_append]
    simp only [bytes_eq] at q2 q3 q4
    omega
  refine ⟨⟨_, _, e1, e2⟩, ?_⟩
  have : ((decode word).map Prod.snd).sum = word.length := decode_width_sum word
  rw [e1] at this
  have h2 : width (d ++ w ++ e ++ x ++ y) + width (z ++ (f ++ t)) = word.length := by
    rw [← width_append]; exact this
  simp only [bytes_eq] at q4
  omega

theorem scan_leftmost {rb rc ra : Re} (fb : Forward rb = true) (fc : Forward rc = true) (fa : Forward ra = true)
    {na : Nat} {word : Bytes} {veto : Nat → Nat → Prop} {len lo : Nat} {ms : List (List Int)} (hb : Boundary word lo)
    (h : Scan (OccursFrom 0 rb rc ra na word) veto len lo ms) :
    Leftmost (OccursFrom 0 rb rc ra na word 0) veto len lo ms := by
  have hn : ∀ {o hi}, Boundary word o → Nothing (OccursFrom 0 rb rc ra na word o) o hi →
      Nothing (OccursFrom 0 rb rc ra na word 0) o hi := by
    intro o hi hb hn i j k h1 h2 h3
    exact hn i j k h1 h2 ((occursFrom_zero fb fc fa hb h1).2 h3)
  induction h with
  | done h => exact .done (hn hb h)
  | found h1 h2 h3 h4 h5 _ ih =>
    exact .found ((occursFrom_zero fb fc fa hb h2).1 h1) h2 h3 (hn hb h4) h5 (ih (occursFrom_boundary hb h1).1)
  | vetoed h1 h2 h3 h4 h5 _ ih =>
    exact .vetoed ((occursFrom_zero fb fc fa hb h2).1 h1) h2 h3 (hn hb h4) h5 (ih (occursFrom_boundary hb h1).1)

/-- Scans with vetoes that agree on the occurrences. -/
theorem scan_veto {nb na : Nat} {rb rc ra : Re} {word : Bytes} {v v' : Nat → Nat → Prop} {len lo : Nat}
    {ms : List (List Int)} (hb : Boundary word lo) (h : ∀ j k, j ≤ word.length → (v j k ↔ v' j k))
    (hl : Scan (OccursFrom nb rb rc ra na word) v len lo ms) : Scan (OccursFrom nb rb rc ra na word) v' len lo ms := by
  induction hl with
  | done h => exact .done h
  | found h1 h2 h3 h4 h5 _ ih =>
    have := occursFrom_boundary hb h1
    exact .found h1 h2 h3 h4 (fun hv => h5 ((h _ _ this.2).2 hv)) (ih this.1)
  | vetoed h1 h2 h3 h4 h5 _ ih =>
    have := occursFrom_boundary hb h1
    exact .vetoed h1 h2 h3 h4 ((h _ _ this.2).1 h5) (ih this.1)

/-! ## The vetoes in all words -/

/-- A search succeeds if and only if a piece of the text matches where it stands. -/
theorem matchString_iff {r : Re} (hr : Bounded r = true) {w : Bytes} :
    matchString r w = true ↔ ∃ b u a, runes w = b ++ (u ++ a) ∧ Match r b u a := by
  unfold matchString
  constructor
  · intro h
    obtain ⟨⟨pos, s⟩, hs⟩ := Option.isSome_iff_exists.1 h
    obtain ⟨u, v, h1, h2, h3⟩ := searchFrom_some hs
    have hp : (start r (prevAfter none u) pos v).prev = (chars u).getLast? := by
      have := prevAfter_getLast (b := []) u
      simpa [start] using this
    obtain ⟨x, a, h4, h5⟩ := run_match r hr _ _ _ hp h3
    refine ⟨chars u, x, a, ?_, h4⟩
    have h6 := h5.2.2.2.chars
    rw [h5.2.2.1] at h6
    have h7 : (start r (prevAfter none u) pos v).rest = v := rfl
    rw [h7] at h6
    rw [← h6, ← chars_append, ← h1]
    rfl
  · rintro ⟨b, u, a, h1, h2⟩
    rw [Option.isSome_iff_ne_none]
    intro h3
    rw [searchFrom_none] at h3
    obtain ⟨l1, l, e, e1, e2⟩ := split_chars (l := decode w) (show chars (decode w) = b ++ (u ++ a) from h1)
    obtain ⟨l2, l3, rfl, e3, e4⟩ := split_chars e2
    obtain ⟨s', h4, _⟩ := run_coversIn h2 (start r (prevAfter none l1) (0 + width l1) (l2 ++ l3)) l2 l3 (by
      have := prevAfter_getLast (b := []) l1
      rw [e1] at this
      simpa [start] using this) rfl e3 e4
    rw [h3 l1 _ e] at h4
    simp at h4

theorem ahead_hits_match {re : Re} (hr : Bounded re = true) {w : Bytes} :
    matchString (.cat [.beginText, .cap 1 re]) w = true ↔ ∃ u a, runes w = u ++ a ∧ Match re [] u a := by
  rw [matchString_iff (by simpa [Bounded, BoundedList] using hr)]
  constructor
  · rintro ⟨b, u, a, h1, h2⟩
    obtain ⟨x, y, rfl, h3, h4⟩ := match_cat_cons.1 h2
    cases h3
    obtain ⟨x, z, rfl, h5, h6⟩ := match_cat_cons.1 h4
    rw [match_cat_nil] at h6
    subst h6
    exact ⟨x, a, by simpa using h1, by simpa using match_cap_iff.1 h5⟩
  · rintro ⟨u, a, h1, h2⟩
    refine ⟨[], u, a, by simpa using h1, ?_⟩
    rw [← List.nil_append u, ← List.append_nil u]
    exact .cons .beginText (.cons (.cap (by simpa using h2)) .nil)

theorem behind_hits_match {re : Re} (hr : Bounded re = true) {w : Bytes} :
    matchString (.cat [.cap 1 re, .endText]) w = true ↔ ∃ b u, runes w = b ++ u ∧ Match re b u [] := by
  rw [matchString_iff (by simpa [Bounded, BoundedList] using hr)]
  constructor
  · rintro ⟨b, u, a, h1, h2⟩
    obtain ⟨x, y, rfl, h3, h4⟩ := match_cat_cons.1 h2
    obtain ⟨x', z, rfl, h5, h6⟩ := match_cat_cons.1 h4
    rw [match_cat_nil] at h6
    subst h6
    cases h5
    exact ⟨b, x, by simpa using h1, by simpa using match_cap_iff.1 h3⟩
  · rintro ⟨b, u, h1, h2⟩
    refine ⟨b, u, [], by simpa using h1, ?_⟩
    rw [← List.append_nil u]
    exact .cons (.cap (by simpa using h2)) (.cons (u := []) (v := []) .endText .nil)

theorem hitsAhead_match {p : Pattern} {re : Re} (hn : p.negA = some (.cat [.beginText, .cap 1 re]))
    (hw : p.negAWidth = maxWidth re) (hr : RepSafe re = true) (hb : Bounded re = true) {word : Bytes} {i : Nat} :
    hitsAhead p word i = true ↔ ∃ u a, runes (windowAhead word i (maxWidth re)) = u ++ a ∧ Match re [] u a := by
  have hge := maxWidth_ge re hr
  have : substr word i (if p.negAWidth = -1 then (word.length : Int) else i + p.negAWidth) =
      windowAhead word i (maxWidth re) := by
    rw [hw, windowAhead]
    split
    · rw [substr_nat, List.take_of_length_le (by simp)]
    · rw [show (i : Int) + maxWidth re = ((i + (maxWidth re).toNat : Nat) : Int) by omega, substr_nat]
      congr 1
      omega
  unfold hitsAhead
  rw [hn]
  simp only [this]
  exact ahead_hits_match hb

theorem hitsBehind_match {p : Pattern} {re : Re} (hn : p.negB = some (.cat [.cap 1 re, .endText]))
    (hw : p.negBWidth = maxWidth re) (hr : RepSafe re = true) (hb : Bounded re = true) {word : Bytes} {i : Nat} :
    hitsBehind p word i = true ↔ ∃ b u, runes (windowBehind word i (maxWidth re)) = b ++ u ∧ Match re b u [] := by
  have hge := maxWidth_ge re hr
  have : substr word (if p.negBWidth = -1 then 0 else i - p.negBWidth) i = windowBehind word i (maxWidth re) := by
    rw [hw, windowBehind]
    split
    · rw [show (0 : Int) = ((0 : Nat) : Int) from rfl, substr_nat]
      simp
    · split
      · rw [show (i : Int) - maxWidth re = ((i - (maxWidth re).toNat : Nat) : Int) by omega, substr_nat, ← List.drop_take]
      · unfold substr
        rw [if_pos (by omega)]
  unfold hitsBehind
  rw [hn]
  simp only [this]
  exact behind_hits_match hb

end Verif.Hre
