import Verif.Proofs.Scan
import Verif.Props.Lookaround

/-!
# Property C58 for patterns with edges and assertions
-/

namespace Verif.Props
open Verif.Hre Verif.Rx Verif.Spec Verif.Spec.Hre

/-- A negative lookaround of the pattern, not beside an edge, has a text in its window after or before a
match from `j` to `k`. -/
def Vetoed {x : Bytes} {p : Pattern} (sh : Shape x p) (word : Bytes) (j k : Nat) : Prop :=
  (∃ e re u a, sh.lookA = 0x7E :: e ∧ sh.na = 0 ∧ compile (noCapture e) = .ok re ∧
    runes (windowAhead word k (maxWidth re)) = u ++ a ∧ Match re [] u a) ∨
  (∃ e re b u, sh.lookB = 0x7E :: e ∧ sh.nb = 0 ∧ compile (noCapture e) = .ok re ∧
    runes (windowBehind word j (maxWidth re)) = b ++ u ∧ Match re b u [])

theorem vetoed_iff {expr : Bytes} {macros : List (Bytes × Bytes)} {vars : List (Bytes × List Bytes)}
    {p : Pattern} (h : newPattern expr macros vars = .ok p) (sh : Shape (expanded expr macros vars) p)
    (hneg : ∀ e, (sh.lookA = 0x7E :: e ∧ sh.na = 0) ∨ (sh.lookB = 0x7E :: e ∧ sh.nb = 0) →
      ∃ re, compile (noCapture e) = .ok re) {word : Bytes} {j k : Nat} :
    vetoes p word j k ↔ Vetoed sh word j k := by
  have A : hitsAhead p word k = true ↔
      ∃ e re u a, sh.lookA = 0x7E :: e ∧ sh.na = 0 ∧ compile (noCapture e) = .ok re ∧
        runes (windowAhead word k (maxWidth re)) = u ++ a ∧ Match re [] u a := by
    have hx := sh.negA
    unfold NegOf at hx
    split at hx
    · rename_i hl
      obtain ⟨r, k1, k2, k3⟩ := hx
      obtain ⟨e, he⟩ : ∃ e, sh.lookA = 0x7E :: e := by
        cases hs : sh.lookA with
        | nil => rw [hs] at hl; simp at hl
        | cons b e => rw [hs] at hl; simp at hl; exact ⟨e, by rw [hl.1]⟩
      rw [he, List.tail_cons] at k1
      obtain ⟨re, he1⟩ := hneg e (.inl ⟨he, hl.2⟩)
      have k4 := compile_ahead he1 (numCap_of_quiet (quiet_noCapture e) he1) k1
      subst k4
      have hr := ((newPattern_negWidths h).1 _ k2).2
      simp only [RepSafe, RepSafeList, Bool.and_eq_true] at hr
      have hw' : maxWidth (.cat [.beginText, .cap 1 re]) = maxWidth re := by
        by_cases hx : maxWidth re = -1 <;> simp [maxWidth, maxWidthCat, hx]
      rw [hitsAhead_match k2 (k3.trans hw') hr.2.1 (Bounds.compile_bounded he1)]
      constructor
      · rintro ⟨u, a, h1, h2⟩
        exact ⟨e, re, u, a, he, hl.2, he1, h1, h2⟩
      · rintro ⟨e', re', u, a, h1, _, h2, h3⟩
        rw [he] at h1
        cases h1
        rw [he1] at h2
        cases h2
        exact ⟨u, a, h3⟩
    · rename_i hl
      constructor
      · intro hh; unfold hitsAhead at hh; rw [hx.1] at hh; simp at hh
      · rintro ⟨e, re, u, a, he, h2, _⟩
        exact absurd ⟨by simp [he], h2⟩ hl
  have B : hitsBehind p word j = true ↔
      ∃ e re b u, sh.lookB = 0x7E :: e ∧ sh.nb = 0 ∧ compile (noCapture e) = .ok re ∧
        runes (windowBehind word j (maxWidth re)) = b ++ u ∧ Match re b u [] := by
    have hx := sh.negB
    unfold NegOf at hx
    split at hx
    · rename_i hl
      obtain ⟨r, k1, k2, k3⟩ := hx
      obtain ⟨e, he⟩ : ∃ e, sh.lookB = 0x7E :: e := by
        cases hs : sh.lookB with
        | nil => rw [hs] at hl; simp at hl
        | cons b e => rw [hs] at hl; simp at hl; exact ⟨e, by rw [hl.1]⟩
      rw [he, List.tail_cons] at k1
      obtain ⟨re, he1⟩ := hneg e (.inr ⟨he, hl.2⟩)
      have k4 := compile_behind he1 (numCap_of_quiet (quiet_noCapture e) he1) k1
      subst k4
      have hr := ((newPattern_negWidths h).2 _ k2).2
      simp only [RepSafe, RepSafeList, Bool.and_eq_true] at hr
      have hw' : maxWidth (.cat [.cap 1 re, .endText]) = maxWidth re := by
        by_cases hx : maxWidth re = -1 <;> simp [maxWidth, maxWidthCat, hx]
      rw [hitsBehind_match k2 (k3.trans hw') hr.1 (Bounds.compile_bounded he1)]
      constructor
      · rintro ⟨b, u, h1, h2⟩
        exact ⟨e, re, b, u, he, hl.2, he1, h1, h2⟩
      · rintro ⟨e', re', b, u, h1, _, h2, h3⟩
        rw [he] at h1
        cases h1
        rw [he1] at h2
        cases h2
        exact ⟨b, u, h3⟩
    · rename_i hl
      constructor
      · intro hh; unfold hitsBehind at hh; rw [hx.1] at hh; simp at hh
      · rintro ⟨e, re, b, u, he, h2, _⟩
        exact absurd ⟨by simp [he], h2⟩ hl
  rw [vetoes, Bool.or_eq_true, A, B]
  rfl

/-- C58 (partial): `Find` reports the leftmost occurrence that is not vetoed, then the leftmost one from its
end on, and so on, in all words; edges and assertions about what comes before take the end of the last
occurrence for the beginning of the text.  The pattern is without a top-level bar, its parts are expressions
on their own.  Missing: other patterns; the beginning of the word for later occurrences, which is false
(`C58_edges_refuted`). -/
theorem C58_edges_partial {expr : Bytes} {macros : List (Bytes × Bytes)} {vars : List (Bytes × List Bytes)}
    {p : Pattern} (h : newPattern expr macros vars = .ok p) (sh : Shape (expanded expr macros vars) p)
    {rb rc ra : Re} (hb : compile (expandEdges (posLook sh.lookB)) = .ok rb)
    (hn : NoBar (expandEdges sh.core)) (hc : compile (expandEdges sh.core) = .ok rc)
    (ha : compile (expandEdges (posLook sh.lookA)) = .ok ra)
    (hneg : ∀ e, (sh.lookA = 0x7E :: e ∧ sh.na = 0) ∨ (sh.lookB = 0x7E :: e ∧ sh.nb = 0) →
      ∃ re, compile (noCapture e) = .ok re)
    {word : Bytes} {ms : List (List Int)} (hf : find p word (-1) = .ok ms) :
    Scan (OccursFrom sh.nb rb rc ra sh.na word) (Vetoed sh word) word.length 0 ms :=
  scan_veto (boundary_zero word) (fun _ _ _ => vetoed_iff h sh hneg) (sh.scan hb hn hc ha hf)

/-- C58 (partial): without a left edge and assertions about what comes before, `Find` reports the leftmost
occurrence in the whole word that is not vetoed, then the leftmost one from its end on, and so on.  Missing:
as for `C58_edges_partial`. -/
theorem C58_forward_partial {expr : Bytes} {macros : List (Bytes × Bytes)} {vars : List (Bytes × List Bytes)}
    {p : Pattern} (h : newPattern expr macros vars = .ok p) (sh : Shape (expanded expr macros vars) p)
    (h1 : sh.nb = 0)
    {rb rc ra : Re} (hb : compile (expandEdges (posLook sh.lookB)) = .ok rb) (fb : Forward rb = true)
    (hn : NoBar (expandEdges sh.core)) (hc : compile (expandEdges sh.core) = .ok rc) (fc : Forward rc = true)
    (ha : compile (expandEdges (posLook sh.lookA)) = .ok ra) (fa : Forward ra = true)
    (hneg : ∀ e, (sh.lookA = 0x7E :: e ∧ sh.na = 0) ∨ (sh.lookB = 0x7E :: e ∧ sh.nb = 0) →
      ∃ re, compile (noCapture e) = .ok re)
    {word : Bytes} {ms : List (List Int)} (hf : find p word (-1) = .ok ms) :
    Leftmost (OccursFrom 0 rb rc ra sh.na word 0) (Vetoed sh word) word.length 0 ms := by
  have := C58_edges_partial h sh hb hn hc ha hneg hf
  rw [h1] at this
  exact scan_leftmost fb fc fa (boundary_zero word) this

theorem scan_not_vetoed {occ : Nat → Nat → Nat → Nat → Prop} {veto : Nat → Nat → Prop} {len lo : Nat} {ms : List (List Int)}
    (h : Scan occ veto len lo ms) {m : List Int} (hm : m ∈ ms) :
    ∃ (j k : Nat) (groups : List Int), m = (j : Int) :: (k : Int) :: groups ∧ j < k ∧ ¬ veto j k := by
  induction h with
  | done => simp at hm
  | found _ _ hj _ hv _ ih =>
    rcases List.mem_cons.1 hm with rfl | hm
    · exact ⟨_, _, _, rfl, hj, hv⟩
    · exact ih hm
  | vetoed _ _ _ _ _ _ ih => exact ih hm

/-- C11 (partial): no reported match has a text of a negative lookaround in its window, in all words and for
all lookarounds.  The pattern is without a top-level bar, its parts are expressions on their own.  Missing:
texts that reach out of the window, for which it is false (`C11_wide_refuted`), and other patterns. -/
theorem C11_window_partial {expr : Bytes} {macros : List (Bytes × Bytes)} {vars : List (Bytes × List Bytes)}
    {p : Pattern} (h : newPattern expr macros vars = .ok p) (sh : Shape (expanded expr macros vars) p)
    {rb rc ra : Re} (hb : compile (expandEdges (posLook sh.lookB)) = .ok rb)
    (hn : NoBar (expandEdges sh.core)) (hc : compile (expandEdges sh.core) = .ok rc)
    (ha : compile (expandEdges (posLook sh.lookA)) = .ok ra)
    (hneg : ∀ e, (sh.lookA = 0x7E :: e ∧ sh.na = 0) ∨ (sh.lookB = 0x7E :: e ∧ sh.nb = 0) →
      ∃ re, compile (noCapture e) = .ok re)
    {word : Bytes} {ms : List (List Int)} (hf : find p word (-1) = .ok ms) {m : List Int} (hm : m ∈ ms) :
    ∃ (j k : Nat) (groups : List Int), m = (j : Int) :: (k : Int) :: groups ∧ j < k ∧ ¬ Vetoed sh word j k :=
  scan_not_vetoed (C58_edges_partial h sh hb hn hc ha hneg hf) hm

/-- `^a$` on `a ba a`: at the beginning, where a blank comes after it, and at the end, after a blank, but not
between. -/
example : ∃ (p : Pattern) (sh : Shape (expanded (str "^a$") [] []) p),
    newPattern (str "^a$") [] [] = .ok p ∧ find p (str "a ba a") (-1) = .ok [[0, 1], [5, 6]] ∧
    Scan (OccursFrom 1 .empty (.lit [0x61]) .empty 1 (str "a ba a")) (Vetoed sh (str "a ba a")) 6 0 [[0, 1], [5, 6]] := by
  let p : Pattern := ⟨str "^a$", .cat [.cap 1 (.alt [.beginText, .plus true (.cls false [(9, 10), (12, 13), (32, 32)]),
      .cat [.lit [123], .lit [125]]]), .cap 2 .empty, .lit [97], .cap 3 .empty,
    .cap 4 (.alt [.endText, .plus true (.cls false [(9, 10), (12, 13), (32, 32)]), .cat [.lit [123], .lit [125]]])],
    none, none, 0, 0, [97], []⟩
  have hp : newPattern (str "^a$") [] [] = .ok p := by rfl
  have hf : find p (str "a ba a") (-1) = .ok [[0, 1], [5, 6]] := by decide +kernel
  let sh : Shape (expanded (str "^a$") [] []) p := ⟨1, [], str "a", [], 1, by decide +kernel,
    by decide, by decide, by decide, by decide, by rfl, ⟨by decide, by decide⟩, ⟨by decide, by decide⟩⟩
  refine ⟨_, sh, hp, hf, ?_⟩
  refine C58_edges_partial hp sh (by rfl) ⟨by decide +kernel, _, _, _, _, ⟨by rfl, by rfl⟩, by rfl⟩
    (by rfl) (by rfl) ?_ hf
  rintro e (he | he)
  · exact absurd (show [] = 0x7E :: e from he.1) (by simp)
  · exact absurd (show [] = 0x7E :: e from he.1) (by simp)

/-- `{ä}e{~[aé]}` on `äeéäeaäe`: the window of the lookahead is one byte, too small for `é`, so that only
the second of the three occurrences is vetoed. -/
example : ∃ (p : Pattern) (sh : Shape (expanded (str "{ä}e{~[aé]}") [] []) p),
    newPattern (str "{ä}e{~[aé]}") [] [] = .ok p ∧ find p (str "äeéäeaäe") (-1) = .ok [[2, 3], [11, 12]] ∧
    Leftmost (OccursFrom 0 (.lit [0xE4]) (.lit [0x65]) .empty 0 (str "äeéäeaäe") 0) (Vetoed sh (str "äeéäeaäe")) 12 0
      [[2, 3], [11, 12]] ∧ Vetoed sh (str "äeéäeaäe") 7 8 ∧ ¬ Vetoed sh (str "äeéäeaäe") 11 12 := by
  let p : Pattern := ⟨str "{ä}e{~[aé]}", .cat [.cap 1 .empty, .cap 2 (.lit [228]), .lit [101], .cap 3 .empty, .cap 4 .empty],
    some (.cat [.beginText, .cap 1 (.cls false [(97, 97), (233, 233)])]), none, 1, 0, [97, 101, 228, 233], []⟩
  have hp : newPattern (str "{ä}e{~[aé]}") [] [] = .ok p := by rfl
  have hf : find p (str "äeéäeaäe") (-1) = .ok [[2, 3], [11, 12]] := by decide +kernel
  let sh : Shape (expanded (str "{ä}e{~[aé]}") [] []) p := ⟨0, str "ä", str "e", str "~[aé]", 0, by decide +kernel,
    by decide, by decide, by decide, by decide, by rfl, ⟨by decide, by decide⟩, ⟨_, by rfl, by rfl, by rfl⟩⟩
  have hn : NoBar (expandEdges sh.core) := ⟨by decide +kernel, _, _, _, _, ⟨by rfl, by rfl⟩, by rfl⟩
  have hneg : ∀ e, (sh.lookA = 0x7E :: e ∧ sh.na = 0) ∨ (sh.lookB = 0x7E :: e ∧ sh.nb = 0) →
      ∃ re, compile (noCapture e) = .ok re := by
    rintro e (he | he)
    · have := he.1
      cases this
      exact ⟨_, by rfl⟩
    · exact absurd (show (str "ä").head? = some 0x7E from congrArg List.head? he.1) (by decide)
  refine ⟨_, sh, hp, hf, ?_, .inl ⟨str "[aé]", _, [0x61], [], rfl, rfl, by rfl, by decide +kernel, .cls (by decide)⟩, ?_⟩
  · exact C58_forward_partial hp sh rfl (by rfl) (by rfl) hn (by rfl) (by rfl) (by rfl) (by rfl) hneg hf
  · obtain ⟨j, k, g, h1, _, h2⟩ := C11_window_partial hp sh (by rfl) hn (by rfl) (by rfl) hneg hf (m := [11, 12]) (by simp)
    simp only [List.cons.injEq] at h1
    rw [show j = 11 by omega, show k = 12 by omega] at h2
    exact h2

/-- C58 fails in general: `^a` is found at the second letter of `aa`, where no occurrence begins in the whole
word. -/
theorem C58_edges_refuted : ∃ p, newPattern (str "^a") [] [] = .ok p ∧ find p (str "aa") (-1) = .ok [[0, 1], [1, 2]] ∧
    ∀ i, ¬ OccursFrom 1 .empty (.lit [0x61]) .empty 0 (str "aa") 0 i 1 2 := by
  have h : ((newPattern (str "^a") [] []).bind fun p => find p (str "aa") (-1)) = .ok [[0, 1], [1, 2]] := by
    decide +kernel
  rw [go_bind_ok] at h
  obtain ⟨p, h1, h2⟩ := h
  refine ⟨p, h1, h2, ?_⟩
  rintro i ⟨w, e, x, y, z, f, t, q1, q2, q3, q4, q5, q6, _⟩
  have hx : chars x = [] := by generalize chars x = u at q6; cases q6; rfl
  have hx : x = [] := by simpa [chars] using hx
  subst hx
  have hd : decode ((str "aa").drop 0) = [(0x61, 1), (0x61, 1)] := by decide +kernel
  rw [hd] at q1
  have hm : ∀ c ∈ e, c.1 = 0x61 := by
    intro c hc
    have : c ∈ [((0x61, 1) : Rune × Nat), (0x61, 1)] := by rw [q1]; simp [hc]
    simp at this
    rw [this]
  rcases q5 with ⟨h, _⟩ | ⟨_, hw, he⟩ | ⟨_, ⟨he, hs⟩ | he⟩
  · omega
  · have hw : w = [] := by simpa [chars] using hw
    have he : e = [] := by simpa [chars] using he
    subst hw he
    simp [bytes] at q2 q3
    omega
  · cases e with
    | nil => simp [chars] at he
    | cons c e =>
      have := hs c.1 (by simp [chars])
      rw [hm c (by simp)] at this
      simp [Blank] at this
  · cases e with
    | nil => simp [chars] at he
    | cons c e =>
      have h1 := hm c (by simp)
      simp [chars] at he
      omega

end Verif.Props
