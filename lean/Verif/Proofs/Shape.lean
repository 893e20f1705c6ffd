import Verif.Proofs.Expand
namespace Verif.Hre
open Verif.Rx Verif.Spec.Hre

/-! ## The shape of a pattern -/

/-- The expression never matches. -/
def Dead (p : Pattern) : Prop := ∀ s, run p.re s = []

/-- The text of a positive lookaround. -/
def posLook (look : Bytes) : Bytes := if look.head? = some 0x7E then [] else noCapture look

/-- The negative lookaround compiled from `{~...}`, absent for other lookarounds and beside an edge. -/
def NegOf (format : Bytes → Bytes) (look : Bytes) (edges : Nat) (neg : Option Re) (w : Int) : Prop :=
  if look.head? = some 0x7E ∧ edges = 0 then
    ∃ re, compile (format (noCapture look.tail)) = .ok re ∧ neg = some re ∧ w = maxWidth re
  else neg = none ∧ w = 0

/-- A pattern text read as `^^{lookB}core{lookA}$$`, with the expressions compiled from it. -/
structure Shape (x : Bytes) (p : Pattern) where
  nb : Nat
  lookB : Bytes
  core : Bytes
  lookA : Bytes
  na : Nat
  text : x = List.replicate nb 0x5E ++ (braced lookB ++ (core ++ (braced lookA ++ List.replicate na 0x24)))
  noB : 0x7D ∉ lookB
  noA : 0x7D ∉ lookA
  edgeB : nb ≠ 0 → posLook lookB = []
  edgeA : na ≠ 0 → posLook lookA = []
  re : compile (paren (expandEdges (List.replicate nb 0x5E)) ++ (paren (expandEdges (posLook lookB)) ++
    (expandEdges core ++ (paren (expandEdges (posLook lookA)) ++ paren (expandEdges (List.replicate na 0x24)))))) =
      .ok p.re
  negB : NegOf (fun e => paren e ++ [0x24]) lookB nb p.negB p.negBWidth
  negA : NegOf (fun e => [0x5E] ++ paren e) lookA na p.negA p.negAWidth

theorem noCapture_cons (c : UInt8) (t : Bytes) (h : c ≠ 0x28) : noCapture (c :: t) = c :: noCapture t := by
  simp [noCapture_eq, h]

theorem noCapture_nil : noCapture [] = [] := by simp [noCapture_eq]

theorem noCapture_replicate {c : UInt8} (h : c ≠ 0x28) (n : Nat) :
    noCapture (List.replicate n c) = List.replicate n c := by
  induction n with
  | zero => exact noCapture_nil
  | succ n ih => rw [List.replicate_succ, noCapture_cons _ _ h, ih]

theorem noCapture_not_mem {c : UInt8} (h1 : c ≠ 0x28) (h2 : c ≠ 0x3F) (h3 : c ≠ 0x3A) {x : Bytes} (h : c ∉ x) :
    c ∉ noCapture x := by
  rw [noCapture_eq, List.mem_flatMap]
  rintro ⟨a, ha, hc⟩
  split at hc
  · simp at hc; rcases hc with hc | hc | hc <;> contradiction
  · simp at hc; subst hc; exact h ha

theorem posLook_not_mem {c : UInt8} (h1 : c ≠ 0x28) (h2 : c ≠ 0x3F) (h3 : c ≠ 0x3A) {x : Bytes} (h : c ∉ x) :
    c ∉ posLook x := by
  unfold posLook
  split
  · simp
  · exact noCapture_not_mem h1 h2 h3 h

/-- What `dissolveLookaround` does with the text between the braces. -/
theorem dissolve_spec {format : Bytes → Bytes} {look : Bytes} {edges : Nat} {o : Option (Bytes × Bytes × Int)}
    (h : dissolveLookaround format (noCapture look) (decide (edges ≠ 0)) = .ok o) :
    (o = none) ∨ ∃ neg w, o = some (posLook look, neg, w) ∧ (edges ≠ 0 → posLook look = []) ∧
      ((look.head? = some 0x7E ∧ edges = 0 ∧ neg = format (noCapture look.tail) ∧
        ∃ re, compile neg = .ok re ∧ w = maxWidth re) ∨
       (¬ (look.head? = some 0x7E ∧ edges = 0) ∧ neg = [] ∧ w = 0)) := by
  cases look with
  | nil =>
    rw [noCapture_nil] at h
    simp only [dissolveLookaround, Go.ok.injEq] at h
    exact .inr ⟨[], 0, by simp [posLook, noCapture_nil, ← h], by simp [posLook, noCapture_nil], by simp⟩
  | cons c t =>
    by_cases hc : c = 0x7E
    · subst hc
      rw [noCapture_cons _ _ (by decide)] at h
      simp only [dissolveLookaround, if_true] at h
      by_cases he : edges = 0
      · simp only [he, ne_eq, not_true_eq_false, decide_false, Bool.false_eq_true, if_false] at h
        split at h
        · rename_i re hre
          simp at h
          refine .inr ⟨_, _, by rw [← h]; simp [posLook]; exact ⟨rfl, rfl⟩, by simp [he], .inl ?_⟩
          exact ⟨rfl, he, rfl, re, hre, rfl⟩
        · simp at h
        · simp at h; exact .inl h.symm
        · simp at h
        · simp at h
      · simp only [he, ne_eq, not_false_eq_true, decide_true, if_true, Go.ok.injEq] at h
        exact .inr ⟨[], 0, by simp [posLook, ← h], by simp [posLook], .inr ⟨by simp [he], rfl, rfl⟩⟩
    · have hne : ∃ d s, noCapture (c :: t) = d :: s ∧ d ≠ 0x7E := by
        by_cases h28 : c = 0x28
        · exact ⟨0x28, _, by rw [noCapture_eq, List.flatMap_cons, if_pos h28]; rfl, by decide⟩
        · exact ⟨c, _, noCapture_cons c t h28, hc⟩
      obtain ⟨d, s, hd, hd2⟩ := hne
      have hp : posLook (c :: t) = d :: s := by rw [posLook, if_neg (by simp [hc]), hd]
      rw [hd] at h
      simp only [dissolveLookaround, hd2, if_false] at h
      by_cases he : edges = 0
      · simp [he] at h
        refine .inr ⟨[], 0, by rw [hp, ← h], by simp [he], .inr ⟨by simp [hc], rfl, rfl⟩⟩
      · simp [he] at h
        exact .inl h.symm

theorem isEmpty_replicate (n : Nat) (c : UInt8) : (!(List.replicate n c).isEmpty) = decide (n ≠ 0) := by
  cases n <;> simp [List.replicate_succ]

theorem expandLookahead_spec {x : Bytes} {r : Bytes × Bytes × Int} (h : expandLookahead x = .ok r) :
    r = (neverExpr, [], 0) ∨ ∃ (other look : Bytes) (n : Nat), 0x7D ∉ look ∧
      x = other ++ (braced look ++ List.replicate n 0x24) ∧ (n ≠ 0 → posLook look = []) ∧
      r.1 = other ++ (paren (posLook look) ++ paren (List.replicate n 0x24)) ∧
      ((look.head? = some 0x7E ∧ n = 0 ∧ r.2.1 = [0x5E] ++ paren (noCapture look.tail) ∧
        ∃ re, compile r.2.1 = .ok re ∧ r.2.2 = maxWidth re) ∨
       (¬ (look.head? = some 0x7E ∧ n = 0) ∧ r.2.1 = [] ∧ r.2.2 = 0)) := by
  obtain ⟨m, hm⟩ := lookahead_matches x
  obtain ⟨other, look, n, h1, h2, h3, h4, h5⟩ := lookahead_split hm
  simp only [expandLookahead, hm, Option.getD_some, h3, h4, h5, Go.bind_ok,
    noCapture_replicate (c := 0x24) (by decide), isEmpty_replicate] at h
  rw [Go.bind_eq_ok] at h
  obtain ⟨o, ho, h⟩ := h
  rcases dissolve_spec ho with rfl | ⟨neg, w, rfl, k1, k2⟩
  · simp at h; exact .inl h.symm
  · simp at h
    refine .inr ⟨other, look, n, h1, h2, k1, ?_, ?_⟩
    · rw [← h]
      simp only
      rw [h2]; simp
    · rw [← h]; exact k2

theorem expandLookbehind_spec {x : Bytes} {r : Bytes × Bytes × Int} (h : expandLookbehind x = .ok r) :
    r = (neverExpr, [], 0) ∨ ∃ (other look : Bytes) (n : Nat), 0x7D ∉ look ∧
      x = List.replicate n 0x5E ++ (braced look ++ other) ∧ (n ≠ 0 → posLook look = []) ∧
      r.1 = paren (List.replicate n 0x5E) ++ (paren (posLook look) ++ other) ∧
      ((look.head? = some 0x7E ∧ n = 0 ∧ r.2.1 = paren (noCapture look.tail) ++ [0x24] ∧
        ∃ re, compile r.2.1 = .ok re ∧ r.2.2 = maxWidth re) ∨
       (¬ (look.head? = some 0x7E ∧ n = 0) ∧ r.2.1 = [] ∧ r.2.2 = 0)) := by
  obtain ⟨m, hm⟩ := lookbehind_matches x
  obtain ⟨other, look, n, h1, h2, h3, h4, h5⟩ := lookbehind_split hm
  simp only [expandLookbehind, hm, Option.getD_some, h3, h4, h5, Go.bind_ok,
    noCapture_replicate (c := 0x5E) (by decide), isEmpty_replicate] at h
  rw [Go.bind_eq_ok] at h
  obtain ⟨o, ho, h⟩ := h
  rcases dissolve_spec ho with rfl | ⟨neg, w, rfl, k1, k2⟩
  · simp at h; exact .inl h.symm
  · simp only [Go.pure_eq, Go.ok.injEq] at h
    refine .inr ⟨other, look, n, h1, h2, k1, ?_, ?_⟩
    · rw [← h]
      simp only
      rw [h2, ← List.append_assoc (List.replicate n 0x5E), Int.toNat_natCast, List.drop_left]
      simp
    · rw [← h]; exact k2

theorem expandEdges_paren (x y : Bytes) : expandEdges (paren x ++ y) = paren (expandEdges x) ++ expandEdges y := by
  have h1 := expandEdges_split (c := 0x28) (by decide) (by decide) [] (x ++ 0x29 :: y)
  have h2 := expandEdges_split (c := 0x29) (by decide) (by decide) x y
  simp only [paren, List.nil_append, List.cons_append, List.append_assoc, expandEdges_nil] at *
  rw [h1, h2]

theorem expandEdges_before_paren (z x y : Bytes) :
    expandEdges (z ++ (paren x ++ y)) = expandEdges z ++ expandEdges (paren x ++ y) := by
  have h1 := expandEdges_split (c := 0x28) (by decide) (by decide) z (x ++ 0x29 :: y)
  have h0 := expandEdges_split (c := 0x28) (by decide) (by decide) [] (x ++ 0x29 :: y)
  simp only [paren, List.nil_append, List.cons_append, List.append_assoc, expandEdges_nil] at *
  rw [h1, h0]

/-- The parts of a text inside which the braces of the lookbehind lie. -/
theorem braced_prefix {n : Nat} {look other core z : Bytes} (hz1 : 0x7D ∉ z) (hz2 : z.head? = some 0x28)
    (h : core ++ z = List.replicate n 0x5E ++ (braced look ++ other)) :
    ∃ core', core = List.replicate n 0x5E ++ (braced look ++ core') ∧ other = core' ++ z := by
  rw [← List.append_assoc] at h
  rcases List.append_eq_append_iff.1 h with ⟨a, ha, hb⟩ | ⟨a, ha, hb⟩
  · -- the braces reach into `z`
    by_cases hn : a = []
    · subst hn
      simp at ha hb
      exact ⟨[], by simp [← ha], by simp [hb]⟩
    · exfalso
      by_cases hl : look = []
      · subst hl
        cases a with
        | nil => exact hn rfl
        | cons c a =>
          rw [hb] at hz2
          simp at hz2
          subst hz2
          have : (0x28 : UInt8) ∈ List.replicate n (0x5E : UInt8) ++ braced [] := by rw [ha]; simp
          simp [braced] at this
      · have hlast : (List.replicate n (0x5E : UInt8) ++ braced look).getLast? = some 0x7D := by
          rw [braced, if_neg hl, ← List.append_assoc, List.getLast?_append]; simp
        rw [ha, List.getLast?_append] at hlast
        have : (0x7D : UInt8) ∈ a := by
          cases hx : a.getLast? with
          | none => exact absurd (List.getLast?_eq_none_iff.1 hx) hn
          | some y =>
            rw [hx] at hlast
            simp at hlast
            subst hlast
            exact List.mem_of_getLast? hx
        exact hz1 (by rw [hb]; simp [this])
  · exact ⟨a, by simpa using ha, hb⟩

theorem run_never (pre : List Re) (s : St) : run (.cat (pre ++ [.anyNotNL, .beginText])) s = [] := by
  rw [run]
  induction pre generalizing s with
  | nil =>
    simp only [List.nil_append, runCat, run, List.flatMap_eq_nil_iff]
    intro s1 h1 s2 h2
    obtain ⟨r, n, t, _, _, rfl⟩ := one_mem h1
    simp [check] at h2
  | cons r pre ih =>
    simp only [List.cons_append, runCat, List.flatMap_eq_nil_iff]
    intro s1 _
    exact ih s1

theorem compileOpt_nil : compileOpt [] = .ok none := rfl

theorem compileOpt_cons {x : Bytes} (h : x ≠ []) {o : Option Re} (ho : compileOpt x = .ok o) :
    ∃ re, compile x = .ok re ∧ o = some re := by
  unfold compileOpt at ho
  rw [if_neg (by simpa using h)] at ho
  simp only [Go.bind_eq_ok, Go.pure_eq, Go.ok.injEq] at ho
  obtain ⟨re, h1, h2⟩ := ho
  exact ⟨re, h1, h2.symm⟩

theorem newPattern_parts {expr : Bytes} {macros : List (Bytes × Bytes)} {vars : List (Bytes × List Bytes)}
    {p : Pattern} (h : newPattern expr macros vars = .ok p) :
    ∃ e, expandLookaround (expandVars (expandMacros expr macros) vars).1 = .ok e ∧
      compile (expandEdges e.pos) = .ok p.re ∧ compileOpt e.negA = .ok p.negA ∧
      compileOpt e.negB = .ok p.negB ∧ p.negAWidth = e.negAWidth ∧ p.negBWidth = e.negBWidth ∧
      p.usedVars = (expandVars (expandMacros expr macros) vars).2 := by
  unfold newPattern at h
  split at h
  · simp at h
  · simp only [Go.bind_eq_ok, Go.pure_eq, Go.ok.injEq] at h
    obtain ⟨e, h1, re, h2, nA, h3, nB, h4, rfl⟩ := h
    exact ⟨e, h1, h2, h3, h4, rfl, rfl, rfl⟩

/-- Every accepted pattern is one of two that never match or has the shape `^^{lookB}core{lookA}$$`, and no
lookaround is left in its core. -/
theorem newPattern_shape_clean {expr : Bytes} {macros : List (Bytes × Bytes)} {vars : List (Bytes × List Bytes)}
    {p : Pattern} (h : newPattern expr macros vars = .ok p) :
    (p.re = .cat [.anyNotNL, .beginText] ∨ p.re = .cat [.cap 1 .empty, .cap 2 .empty, .anyNotNL, .beginText]) ∨
      ∃ (sh : Shape (expandVars (expandMacros expr macros) vars).1 p) (a b : Bytes),
        matchString reZeroWidth (a ++ (sh.core ++ b)) = false := by
  obtain ⟨e, h1, h2, h3, h4, h5, h6, _⟩ := newPattern_parts h
  generalize (expandVars (expandMacros expr macros) vars).1 = x at h1 ⊢
  simp only [expandLookaround, Go.bind_eq_ok] at h1
  obtain ⟨ra, hA, rb, hB, h1⟩ := h1
  obtain ⟨posA, negA, wA⟩ := ra
  obtain ⟨posB, negB, wB⟩ := rb
  simp only at h1 hB
  split at h1
  · simp at h1
  rename_i hzero
  simp only [Go.pure_eq, Go.ok.injEq] at h1
  subst h1
  simp only at h2 h3 h4 h5 h6
  rcases expandLookbehind_spec hB with hB | ⟨other, lookB, nb, kb1, kb2, kb3, kb4, kb5⟩
  · simp only [Prod.mk.injEq] at hB
    obtain ⟨rfl, rfl, rfl⟩ := hB
    left
    have : compile (expandEdges neverExpr) = .ok (.cat [.anyNotNL, .beginText]) := by rfl
    rw [this] at h2
    simp at h2
    exact .inl h2.symm
  · simp only at kb4 kb5
    rcases expandLookahead_spec hA with hA | ⟨otherA, lookA, na, ka1, ka2, ka3, ka4, ka5⟩
    · simp only [Prod.mk.injEq] at hA
      obtain ⟨rfl, rfl, rfl⟩ := hA
      left
      have hB' : expandLookbehind neverExpr = .ok ([0x28, 0x29, 0x28, 0x29, 0x2E, 0x5E, 0x5E], [], 0) := by decide +kernel
      rw [hB'] at hB
      simp at hB
      rw [← hB.1] at h2
      have : compile (expandEdges [0x28, 0x29, 0x28, 0x29, 0x2E, 0x5E, 0x5E]) =
        .ok (.cat [.cap 1 .empty, .cap 2 .empty, .anyNotNL, .beginText]) := by rfl
      rw [this] at h2
      simp at h2
      exact .inr h2.symm
    · simp only at ka4 ka5
      rw [ka4] at kb2
      obtain ⟨core, hc1, hc2⟩ := braced_prefix (z := paren (posLook lookA) ++ paren (List.replicate na 0x24))
        (by simp [paren, posLook_not_mem (c := 0x7D) (by decide) (by decide) (by decide) ka1])
        (by simp [paren]) kb2
      right
      refine ⟨⟨nb, lookB, core, lookA, na, ?_, kb1, ka1, kb3, ka3, ?_, ?_, ?_⟩,
        paren (List.replicate nb 0x5E) ++ paren (posLook lookB), paren (posLook lookA) ++ paren (List.replicate na 0x24), ?_⟩
      · rw [ka2, hc1]; simp
      · rw [kb4, hc2, expandEdges_paren, expandEdges_paren, expandEdges_before_paren, expandEdges_paren] at h2
        have e := expandEdges_paren (List.replicate na 0x24) []
        rw [List.append_nil, expandEdges_nil, List.append_nil] at e
        rw [e] at h2
        exact h2
      · unfold NegOf
        rcases kb5 with ⟨q1, q2, q3, re, q4, q5⟩ | ⟨q1, q3, q4⟩
        · rw [if_pos ⟨q1, q2⟩]
          obtain ⟨re', r1, r2⟩ := compileOpt_cons (by rw [q3]; simp [paren]) h4
          rw [q4] at r1
          simp at r1
          subst r1
          exact ⟨re, by rw [q3] at q4; exact q4, r2, by rw [h6, q5]⟩
        · rw [if_neg q1]
          rw [q3, compileOpt_nil] at h4
          simp at h4
          exact ⟨h4.symm, by rw [h6, q4]⟩
      · unfold NegOf
        rcases ka5 with ⟨q1, q2, q3, re, q4, q5⟩ | ⟨q1, q3, q4⟩
        · rw [if_pos ⟨q1, q2⟩]
          obtain ⟨re', r1, r2⟩ := compileOpt_cons (by rw [q3]; simp) h3
          rw [q4] at r1
          simp at r1
          subst r1
          exact ⟨re, by rw [q3] at q4; exact q4, r2, by rw [h5, q5]⟩
        · rw [if_neg q1]
          rw [q3, compileOpt_nil] at h3
          simp at h3
          exact ⟨h3.symm, by rw [h5, q4]⟩
      · rw [kb4, hc2] at hzero
        simpa using hzero

/-- Every accepted pattern never matches or has the shape `^^{lookB}core{lookA}$$`. -/
theorem newPattern_shape {expr : Bytes} {macros : List (Bytes × Bytes)} {vars : List (Bytes × List Bytes)}
    {p : Pattern} (h : newPattern expr macros vars = .ok p) :
    Dead p ∨ Nonempty (Shape (expandVars (expandMacros expr macros) vars).1 p) := by
  rcases newPattern_shape_clean h with (h | h) | ⟨sh, _⟩
  · exact .inl fun s => by rw [h]; exact run_never [] s
  · exact .inl fun s => by rw [h]; exact run_never [.cap 1 .empty, .cap 2 .empty] s
  · exact .inr ⟨sh⟩

theorem expandEdges_carets (n : Nat) :
    expandEdges (List.replicate n 0x5E) = if n = 0 then [] else if n = 1 then leftEdgeExpr else [0x5E] := by
  rw [expandEdges_eq]
  have := mapRuns_replicate 0x5E (fun n => if n = 1 then leftEdgeExpr else [0x5E]) n 0 (y := []) (by simp)
  rw [List.append_nil] at this
  rw [this]
  split
  · simp_all [mapRuns]
  · split
    · simp_all [mapRuns]; decide +kernel
    · simp_all [mapRuns]

theorem expandEdges_dollars (n : Nat) :
    expandEdges (List.replicate n 0x24) = if n = 0 then [] else if n = 1 then rightEdgeExpr else [0x24] := by
  rw [expandEdges_eq]
  have h0 := mapRuns_none (k := 0x5E) (fun n => if n = 1 then leftEdgeExpr else [0x5E]) (x := List.replicate n 0x24)
    (by simp) []
  rw [List.append_nil] at h0
  rw [h0]
  have := mapRuns_replicate 0x24 (fun n => if n = 1 then rightEdgeExpr else [0x24]) n 0 (y := []) (by simp)
  simpa [mapRuns] using this

/-- Where each part of the pattern is a regular expression on its own, the match is bounded by the
groups around its core. -/
theorem Shape.wellShaped {x : Bytes} {p : Pattern} (h : Shape x p) {rb rc ra : Re}
    (hb : compile (expandEdges (posLook h.lookB)) = .ok rb) (hc : compile (expandEdges h.core) = .ok rc)
    (ha : compile (expandEdges (posLook h.lookA)) = .ok ra) : WellShaped p := by
  have hq : ∀ l, quiet (expandEdges (posLook l)) = true := by
    intro l
    apply quiet_expandEdges
    unfold posLook
    split
    · rfl
    · exact quiet_noCapture l
  have hl : ∃ r, compile (expandEdges (List.replicate h.nb 0x5E)) = .ok r ∧ numCap r = 0 := by
    rw [expandEdges_carets]
    split
    · exact ⟨_, rfl, rfl⟩
    · split <;> exact ⟨_, rfl, rfl⟩
  have hr : ∃ r, compile (expandEdges (List.replicate h.na 0x24)) = .ok r ∧ numCap r = 0 := by
    rw [expandEdges_dollars]
    split
    · exact ⟨_, rfl, rfl⟩
    · split <;> exact ⟨_, rfl, rfl⟩
  obtain ⟨r1, hl1, hl2⟩ := hl
  obtain ⟨r2, hr1, hr2⟩ := hr
  exact wellShaped_of_pieces h.re hl1 hb hc ha hr1 hl2 (numCap_of_quiet (hq _) hb) (numCap_of_quiet (hq _) ha) hr2

end Verif.Hre
