import Verif.Props.Hre
import Verif.Proofs.Leftmost
import Verif.Proofs.AsciiLook

/-!
# Properties C11 and C58: negative lookarounds and leftmost matches
-/

namespace Verif.Props
open Verif.Hre Verif.Rx Verif.Spec Verif.Spec.Hre

/-- C11 (partial): no reported match is followed by a text of its negative lookahead, if the word is ASCII
or the lookahead is unlimited.  The pattern is without a top-level bar, its parts are expressions on their
own; a lookahead with assertions has no language, nothing is said about it.  Missing: other patterns and words, for which it is false
(`C11_wide_refuted`, `C11_bar_refuted`). -/
theorem C11_lookahead_partial {expr : Bytes} {macros : List (Bytes × Bytes)} {vars : List (Bytes × List Bytes)}
    {p : Pattern} (h : newPattern expr macros vars = .ok p) (sh : Shape (expanded expr macros vars) p)
    (hb : ∃ r, compile (expandEdges (posLook sh.lookB)) = .ok r) (hc : NoBar (expandEdges sh.core))
    {e : Bytes} (hl : sh.lookA = 0x7E :: e) (hn : sh.na = 0) {re : Re} (he : compile (noCapture e) = .ok re)
    {word : Bytes} (hw : maxWidth re = -1 ∨ ∀ b ∈ word, b.toNat < 0x80)
    {n : Int} {ms : List (List Int)} (hf : find p word n = .ok ms) {m : List Int} (hm : m ∈ ms) :
    ∃ (start stop : Nat) (groups : List Int), m = (start : Int) :: (stop : Int) :: groups ∧
      ¬ FollowedBy re word stop := by
  obtain ⟨rb, hb⟩ := hb
  have hp : posLook sh.lookA = [] := by simp [posLook, hl]
  have ha : compile (expandEdges (posLook sh.lookA)) = .ok .empty := by rw [hp, expandEdges_nil]; rfl
  obtain ⟨r1, r2, core, k, _, _, hL, _⟩ := sh.layout hb hc ha
  obtain ⟨start, stop, groups, h1, _, h3, _⟩ := hL.tried hf hm
  have hneg := sh.negA
  unfold NegOf at hneg
  rw [if_pos ⟨by simp [hl], hn⟩] at hneg
  obtain ⟨r, k1, k2, k3⟩ := hneg
  rw [hl, List.tail_cons] at k1
  have k4 := compile_ahead he (numCap_of_quiet (quiet_noCapture e) he) k1
  subst k4
  have hr := ((newPattern_negWidths h).1 _ k2).2
  simp only [RepSafe, RepSafeList, Bool.and_eq_true] at hr
  have hw' : maxWidth (.cat [.beginText, .cap 1 re]) = maxWidth re := by
    by_cases hx : maxWidth re = -1 <;> simp [maxWidth, maxWidthCat, hx]
  exact ⟨start, stop, groups, h1, ahead_window k2 (k3.trans hw') hr.2.1 hw h3⟩

/-- C11 (partial): no reported match is preceded by a text of its negative lookbehind, if the word is
ASCII and not shorter before the match than the lookbehind is wide, or the lookbehind is unlimited.
Missing: other patterns and words, for which it is false (`C11_begin_refuted`). -/
theorem C11_lookbehind_partial {expr : Bytes} {macros : List (Bytes × Bytes)} {vars : List (Bytes × List Bytes)}
    {p : Pattern} (h : newPattern expr macros vars = .ok p) (sh : Shape (expanded expr macros vars) p)
    (ha : ∃ r, compile (expandEdges (posLook sh.lookA)) = .ok r) (hc : NoBar (expandEdges sh.core))
    {e : Bytes} (hl : sh.lookB = 0x7E :: e) (hn : sh.nb = 0) {re : Re} (he : compile (noCapture e) = .ok re)
    {word : Bytes} {n : Int} {ms : List (List Int)} (hf : find p word n = .ok ms) {m : List Int} (hm : m ∈ ms) :
    ∃ (start stop : Nat) (groups : List Int), m = (start : Int) :: (stop : Int) :: groups ∧
      (maxWidth re = -1 ∨ (maxWidth re ≤ start ∧ ∀ b ∈ word, b.toNat < 0x80) → ¬ PrecededBy re word start) := by
  obtain ⟨ra, ha⟩ := ha
  have hp : posLook sh.lookB = [] := by simp [posLook, hl]
  have hb : compile (expandEdges (posLook sh.lookB)) = .ok .empty := by rw [hp, expandEdges_nil]; rfl
  obtain ⟨r1, r2, core, k, _, _, hL, _⟩ := sh.layout hb hc ha
  obtain ⟨start, stop, groups, h1, h2, _, h3⟩ := hL.tried hf hm
  have hneg := sh.negB
  unfold NegOf at hneg
  rw [if_pos ⟨by simp [hl], hn⟩] at hneg
  obtain ⟨r, k1, k2, k3⟩ := hneg
  rw [hl, List.tail_cons] at k1
  have k4 := compile_behind he (numCap_of_quiet (quiet_noCapture e) he) k1
  subst k4
  have hr := ((newPattern_negWidths h).2 _ k2).2
  simp only [RepSafe, RepSafeList, Bool.and_eq_true] at hr
  have hw' : maxWidth (.cat [.cap 1 re, .endText]) = maxWidth re := by
    by_cases hx : maxWidth re = -1 <;> simp [maxWidth, maxWidthCat, hx]
  exact ⟨start, stop, groups, h1, fun hw => behind_window k2 (k3.trans hw') hr.1 hw h2 h3⟩

/-- C11 (partial): no reported match is followed by an ASCII text of its negative lookahead, in all words.  The
pattern is as for `C11_lookahead_partial`.  Missing: other texts and patterns, for which it is false
(`C11_wide_refuted`, `C11_bar_refuted`). -/
theorem C11_ahead_partial {expr : Bytes} {macros : List (Bytes × Bytes)} {vars : List (Bytes × List Bytes)}
    {p : Pattern} (h : newPattern expr macros vars = .ok p) (sh : Shape (expanded expr macros vars) p)
    (hb : ∃ r, compile (expandEdges (posLook sh.lookB)) = .ok r) (hc : NoBar (expandEdges sh.core))
    {e : Bytes} (hl : sh.lookA = 0x7E :: e) (hn : sh.na = 0) {re : Re} (he : compile (noCapture e) = .ok re)
    {word : Bytes} {n : Int} {ms : List (List Int)} (hf : find p word n = .ok ms) {m : List Int} (hm : m ∈ ms) :
    ∃ (start stop : Nat) (groups : List Int), m = (start : Int) :: (stop : Int) :: groups ∧
      ∀ u, u <+: runes (word.drop stop) → (∀ c ∈ u, c < 0x80) → ¬ Lang re u := by
  obtain ⟨rb, hb⟩ := hb
  have hp : posLook sh.lookA = [] := by simp [posLook, hl]
  have ha : compile (expandEdges (posLook sh.lookA)) = .ok .empty := by rw [hp, expandEdges_nil]; rfl
  obtain ⟨r1, r2, core, k, _, _, hL, _⟩ := sh.layout hb hc ha
  obtain ⟨start, stop, groups, h1, _, h3, _⟩ := hL.tried hf hm
  have hneg := sh.negA
  unfold NegOf at hneg
  rw [if_pos ⟨by simp [hl], hn⟩] at hneg
  obtain ⟨r, k1, k2, k3⟩ := hneg
  rw [hl, List.tail_cons] at k1
  have k4 := compile_ahead he (numCap_of_quiet (quiet_noCapture e) he) k1
  subst k4
  have hr := ((newPattern_negWidths h).1 _ k2).2
  simp only [RepSafe, RepSafeList, Bool.and_eq_true] at hr
  have hw' : maxWidth (.cat [.beginText, .cap 1 re]) = maxWidth re := by
    by_cases hx : maxWidth re = -1 <;> simp [maxWidth, maxWidthCat, hx]
  exact ⟨start, stop, groups, h1, fun u hu ha => ahead_ascii k2 (k3.trans hw') hr.2.1 h3 hu ha⟩

/-- C11 (partial): no reported match is preceded by an ASCII text of its negative lookbehind, in all words, if the
word does not begin within the width of the lookbehind or the text is as long as that.  Missing: other texts and
patterns, for which it is false (`C11_begin_refuted`). -/
theorem C11_behind_partial {expr : Bytes} {macros : List (Bytes × Bytes)} {vars : List (Bytes × List Bytes)}
    {p : Pattern} (h : newPattern expr macros vars = .ok p) (sh : Shape (expanded expr macros vars) p)
    (ha : ∃ r, compile (expandEdges (posLook sh.lookA)) = .ok r) (hc : NoBar (expandEdges sh.core))
    {e : Bytes} (hl : sh.lookB = 0x7E :: e) (hn : sh.nb = 0) {re : Re} (he : compile (noCapture e) = .ok re)
    {word : Bytes} {n : Int} {ms : List (List Int)} (hf : find p word n = .ok ms) {m : List Int} (hm : m ∈ ms) :
    p.negBWidth = maxWidth re ∧
    ∃ (start stop : Nat) (groups : List Int), m = (start : Int) :: (stop : Int) :: groups ∧
      ∀ u, u <:+ runes (word.take start) → (∀ c ∈ u, c < 0x80) →
        u = [] ∨ maxWidth re ≤ start ∨ maxWidth re ≤ u.length → ¬ Lang re u := by
  obtain ⟨ra, ha⟩ := ha
  have hp : posLook sh.lookB = [] := by simp [posLook, hl]
  have hb : compile (expandEdges (posLook sh.lookB)) = .ok .empty := by rw [hp, expandEdges_nil]; rfl
  obtain ⟨r1, r2, core, k, _, _, hL, _⟩ := sh.layout hb hc ha
  obtain ⟨start, stop, groups, h1, h2, _, h3⟩ := hL.tried hf hm
  have hneg := sh.negB
  unfold NegOf at hneg
  rw [if_pos ⟨by simp [hl], hn⟩] at hneg
  obtain ⟨r, k1, k2, k3⟩ := hneg
  rw [hl, List.tail_cons] at k1
  have k4 := compile_behind he (numCap_of_quiet (quiet_noCapture e) he) k1
  subst k4
  have hr := ((newPattern_negWidths h).2 _ k2).2
  simp only [RepSafe, RepSafeList, Bool.and_eq_true] at hr
  have hw' : maxWidth (.cat [.cap 1 re, .endText]) = maxWidth re := by
    by_cases hx : maxWidth re = -1 <;> simp [maxWidth, maxWidthCat, hx]
  exact ⟨k3.trans hw', start, stop, groups, h1,
    fun u hu ha hf => behind_ascii k2 (k3.trans hw') hr.1 h2 h3 hu ha hf⟩

/-- `(a|b)c{~d|ee}` finds the second of three candidates in `acdbcebcee`. -/
example : ∃ (p : Pattern) (sh : Shape (expanded (str "(a|b)c{~d|ee}") [] []) p) (re : Re),
    newPattern (str "(a|b)c{~d|ee}") [] [] = .ok p ∧
    (∃ r, compile (expandEdges (posLook sh.lookB)) = .ok r) ∧ NoBar (expandEdges sh.core) ∧
    sh.lookA = 0x7E :: str "d|ee" ∧ sh.na = 0 ∧ compile (noCapture (str "d|ee")) = .ok re ∧
    find p (str "acdbcebcee") (-1) = .ok [[3, 5, 3, 4]] ∧ FollowedBy re (str "acdbcebcee") 2 ∧
    ¬ FollowedBy re (str "acdbcebcee") 5 := by
  let p : Pattern := ⟨str "(a|b)c{~d|ee}", .cat [.cap 1 .empty, .cap 2 .empty, .cap 3 (.alt [.lit [0x61], .lit [0x62]]),
    .lit [0x63], .cap 4 .empty, .cap 5 .empty],
    some (.cat [.beginText, .cap 1 (.alt [.lit [0x64], .cat [.lit [0x65], .lit [0x65]]])]), none, 2, 0,
    [0x61, 0x62, 0x63, 0x64, 0x65], []⟩
  have hp : newPattern (str "(a|b)c{~d|ee}") [] [] = .ok p := by rfl
  let sh : Shape (expanded (str "(a|b)c{~d|ee}") [] []) p := ⟨0, [], str "(a|b)c", str "~d|ee", 0, by decide +kernel,
    by decide, by decide, by decide, by decide, by rfl, ⟨by decide, by decide⟩, ⟨_, by rfl, by rfl, by rfl⟩⟩
  have hb : ∃ r, compile (expandEdges (posLook sh.lookB)) = .ok r := ⟨_, by rfl⟩
  have hc : NoBar (expandEdges sh.core) := ⟨by decide +kernel, _, _, _, _, ⟨by rfl, by rfl⟩, by rfl⟩
  have hf : find p (str "acdbcebcee") (-1) = .ok [[3, 5, 3, 4]] := by decide +kernel
  refine ⟨p, sh, .alt [.lit [0x64], .cat [.lit [0x65], .lit [0x65]]], hp, hb, hc, rfl, rfl, by rfl, hf, ?_, ?_⟩
  · exact ⟨[0x64], by decide, .alt (by simp) (.lit _)⟩
  · obtain ⟨a, b, g, h1, h2⟩ := C11_lookahead_partial hp sh hb hc rfl rfl (re := .alt [.lit [0x64], .cat [.lit [0x65], .lit [0x65]]])
      (by rfl) (.inr (by decide)) hf (m := [3, 5, 3, 4]) (by simp)
    have : b = 5 := by simp at h1; omega
    rw [← this]
    exact h2

/-- `{~d|ee}c` finds the third of three candidates in `xdceecxec`. -/
example : ∃ (p : Pattern) (sh : Shape (expanded (str "{~d|ee}c") [] []) p) (re : Re),
    newPattern (str "{~d|ee}c") [] [] = .ok p ∧
    (∃ r, compile (expandEdges (posLook sh.lookA)) = .ok r) ∧ NoBar (expandEdges sh.core) ∧
    sh.lookB = 0x7E :: str "d|ee" ∧ sh.nb = 0 ∧ compile (noCapture (str "d|ee")) = .ok re ∧
    find p (str "xdceecxec") (-1) = .ok [[8, 9]] ∧ PrecededBy re (str "xdceecxec") 2 ∧
    ¬ PrecededBy re (str "xdceecxec") 8 := by
  let p : Pattern := ⟨str "{~d|ee}c", .cat [.cap 1 .empty, .cap 2 .empty, .lit [0x63], .cap 3 .empty, .cap 4 .empty],
    none, some (.cat [.cap 1 (.alt [.lit [0x64], .cat [.lit [0x65], .lit [0x65]]]), .endText]), 0, 2,
    [0x63, 0x64, 0x65], []⟩
  have hp : newPattern (str "{~d|ee}c") [] [] = .ok p := by rfl
  let sh : Shape (expanded (str "{~d|ee}c") [] []) p := ⟨0, str "~d|ee", str "c", [], 0, by decide +kernel,
    by decide, by decide, by decide, by decide, by rfl, ⟨_, by rfl, by rfl, by rfl⟩, ⟨by decide, by decide⟩⟩
  have ha : ∃ r, compile (expandEdges (posLook sh.lookA)) = .ok r := ⟨_, by rfl⟩
  have hc : NoBar (expandEdges sh.core) := ⟨by decide +kernel, _, _, _, _, ⟨by rfl, by rfl⟩, by rfl⟩
  have hf : find p (str "xdceecxec") (-1) = .ok [[8, 9]] := by decide +kernel
  refine ⟨p, sh, .alt [.lit [0x64], .cat [.lit [0x65], .lit [0x65]]], hp, ha, hc, rfl, rfl, by rfl, hf, ?_, ?_⟩
  · exact ⟨[0x64], by decide, .alt (by simp) (.lit _)⟩
  · obtain ⟨a, b, g, h1, h2⟩ := C11_lookbehind_partial hp sh ha hc rfl rfl (re := .alt [.lit [0x64], .cat [.lit [0x65], .lit [0x65]]])
      (by rfl) hf (m := [8, 9]) (by simp)
    have : a = 8 := by simp at h1; omega
    rw [← this]
    exact h2 (.inr ⟨by rw [this]; decide, by decide⟩)

/-- `c{~h}` finds the second of two candidates in `échécé`, and `{~s}c` the second of two in `éscéc`. -/
example : (∃ (p : Pattern) (sh : Shape (expanded (str "c{~h}") [] []) p),
      newPattern (str "c{~h}") [] [] = .ok p ∧ find p (str "échécé") (-1) = .ok [[6, 7]] ∧
      sh.lookA = 0x7E :: str "h" ∧ sh.na = 0 ∧ compile (noCapture (str "h")) = .ok (.lit [0x68]) ∧
      (∃ r, compile (expandEdges (posLook sh.lookB)) = .ok r) ∧ NoBar (expandEdges sh.core) ∧
      FollowedBy (.lit [0x68]) (str "échécé") 3) ∧
    ∃ (p : Pattern) (sh : Shape (expanded (str "{~s}c") [] []) p),
      newPattern (str "{~s}c") [] [] = .ok p ∧ find p (str "éscéc") (-1) = .ok [[6, 7]] ∧
      sh.lookB = 0x7E :: str "s" ∧ sh.nb = 0 ∧ compile (noCapture (str "s")) = .ok (.lit [0x73]) ∧
      (∃ r, compile (expandEdges (posLook sh.lookA)) = .ok r) ∧ NoBar (expandEdges sh.core) ∧
      PrecededBy (.lit [0x73]) (str "éscéc") 3 := by
  constructor
  · let p : Pattern := ⟨str "c{~h}", .cat [.cap 1 .empty, .cap 2 .empty, .lit [0x63], .cap 3 .empty, .cap 4 .empty],
      some (.cat [.beginText, .cap 1 (.lit [0x68])]), none, 1, 0, [0x63, 0x68], []⟩
    let sh : Shape (expanded (str "c{~h}") [] []) p := ⟨0, [], str "c", str "~h", 0, by decide +kernel,
      by decide, by decide, by decide, by decide, by rfl, ⟨by decide, by decide⟩, ⟨_, by rfl, by rfl, by rfl⟩⟩
    exact ⟨p, sh, by rfl, by decide +kernel, rfl, rfl, by rfl, ⟨_, by rfl⟩,
      ⟨by decide +kernel, _, _, _, _, ⟨by rfl, by rfl⟩, by rfl⟩, [0x68], by decide +kernel, .lit _⟩
  · let p : Pattern := ⟨str "{~s}c", .cat [.cap 1 .empty, .cap 2 .empty, .lit [0x63], .cap 3 .empty, .cap 4 .empty],
      none, some (.cat [.cap 1 (.lit [0x73]), .endText]), 0, 1, [0x63, 0x73], []⟩
    let sh : Shape (expanded (str "{~s}c") [] []) p := ⟨0, str "~s", str "c", [], 0, by decide +kernel,
      by decide, by decide, by decide, by decide, by rfl, ⟨_, by rfl, by rfl, by rfl⟩, ⟨by decide, by decide⟩⟩
    exact ⟨p, sh, by rfl, by decide +kernel, rfl, rfl, by rfl, ⟨_, by rfl⟩,
      ⟨by decide +kernel, _, _, _, _, ⟨by rfl, by rfl⟩, by rfl⟩, [0x73], by decide +kernel, .lit _⟩

/-- C11 fails in general: the window of a lookahead is counted in characters but cut in bytes, so `a{~é}`
matches in `aé`. -/
theorem C11_wide_refuted : ∃ p, newPattern (str "a{~é}") [] [] = .ok p ∧ find p (str "aé") (-1) = .ok [[0, 1]] ∧
    compile (noCapture (str "é")) = .ok (.lit [0xE9]) ∧ FollowedBy (.lit [0xE9]) (str "aé") 1 := by
  have h : ((newPattern (str "a{~é}") [] []).bind fun p => find p (str "aé") (-1)) = .ok [[0, 1]] := by decide +kernel
  rw [go_bind_ok] at h
  obtain ⟨p, h1, h2⟩ := h
  exact ⟨p, h1, h2, by rfl, [0xE9], by decide +kernel, .lit _⟩

/-- C11 fails in general: the window of a lookbehind is empty where it would begin before the word, so
`{~a|bb}c` matches in `ac`. -/
theorem C11_begin_refuted : ∃ p re, newPattern (str "{~a|bb}c") [] [] = .ok p ∧ find p (str "ac") (-1) = .ok [[1, 2]] ∧
    compile (noCapture (str "a|bb")) = .ok re ∧ PrecededBy re (str "ac") 1 := by
  have h : ((newPattern (str "{~a|bb}c") [] []).bind fun p => find p (str "ac") (-1)) = .ok [[1, 2]] := by decide +kernel
  rw [go_bind_ok] at h
  obtain ⟨p, h1, h2⟩ := h
  exact ⟨p, .alt [.lit [0x61], .cat [.lit [0x62], .lit [0x62]]], h1, h2, by rfl, [0x61], by decide +kernel,
    .alt (by simp) (.lit _)⟩

/-- C11 fails in general: a lookahead belongs to the last alternative only, so `a|b{~c}` matches in `ac`. -/
theorem C11_bar_refuted : ∃ p, newPattern (str "a|b{~c}") [] [] = .ok p ∧ find p (str "ac") (-1) = .ok [[0, 1]] ∧
    compile (noCapture (str "c")) = .ok (.lit [0x63]) ∧ FollowedBy (.lit [0x63]) (str "ac") 1 := by
  have h : ((newPattern (str "a|b{~c}") [] []).bind fun p => find p (str "ac") (-1)) = .ok [[0, 1]] := by decide +kernel
  rw [go_bind_ok] at h
  obtain ⟨p, h1, h2⟩ := h
  exact ⟨p, h1, h2, by rfl, [0x63], by decide +kernel, .lit _⟩

/-- A negative lookaround of the pattern forbids a match from `j` to `k`.  A lookbehind forbids nothing
nearer to the beginning of the word than it is wide, unless it allows for the empty text. -/
def Forbidden {x : Bytes} {p : Pattern} (sh : Shape x p) (word : Bytes) (j k : Nat) : Prop :=
  (∃ e re, sh.lookA = 0x7E :: e ∧ compile (noCapture e) = .ok re ∧ FollowedBy re word k) ∨
  (∃ e re, sh.lookB = 0x7E :: e ∧ compile (noCapture e) = .ok re ∧ PrecededBy re word j ∧
    (maxWidth re ≤ j ∨ Lang re []))

/-- C58 (partial): `Find` reports the leftmost occurrence that is not forbidden, then the leftmost one from
its end on, and so on; it skips nothing.  The pattern is without edges and without a top-level bar, its
parts are expressions on their own without assertions; with negative lookarounds of limited width the word
is ASCII.  Missing: other patterns. -/
theorem C58_leftmost_partial {expr : Bytes} {macros : List (Bytes × Bytes)} {vars : List (Bytes × List Bytes)}
    {p : Pattern} (h : newPattern expr macros vars = .ok p) (sh : Shape (expanded expr macros vars) p)
    (h1 : sh.nb = 0) (h2 : sh.na = 0) {rb rc ra : Re}
    (hb : compile (expandEdges (posLook sh.lookB)) = .ok rb) (pb : Plain rb = true)
    (hn : NoBar (expandEdges sh.core)) (hc : compile (expandEdges sh.core) = .ok rc) (pc : Plain rc = true)
    (ha : compile (expandEdges (posLook sh.lookA)) = .ok ra) (pa : Plain ra = true) {word : Bytes}
    (hneg : ∀ e, sh.lookA = 0x7E :: e ∨ sh.lookB = 0x7E :: e → ∃ re, compile (noCapture e) = .ok re ∧
      Plain re = true ∧ (maxWidth re = -1 ∨ ∀ b ∈ word, b.toNat < 0x80))
    {ms : List (List Int)} (hf : find p word (-1) = .ok ms) :
    Leftmost (Occurs rb rc ra word) (Forbidden sh word) word.length 0 ms := by
  obtain ⟨core, k, hL, hlang, hplain⟩ := Layout.empty_edges sh h1 h2 hb hn hc ha
  have := hL.leftmost hlang pb (hplain pc) pa (boundary_zero word) hf
  refine leftmost_congr ?_ this
  rintro i j k ⟨w, x, y, z, t, q1, q2, q3, q4, _⟩
  have hj : j ≤ word.length := by
    have : ((decode word).map Prod.snd).sum = word.length := decode_width_sum word
    rw [q1] at this
    simp only [List.map_append, List.sum_append] at this
    simp only [bytes] at q2 q3
    omega
  have A : hitsAhead p word k = true ↔
      ∃ e re, sh.lookA = 0x7E :: e ∧ compile (noCapture e) = .ok re ∧ FollowedBy re word k := by
    have hx := sh.negA
    unfold NegOf at hx
    split at hx
    · rename_i hl
      obtain ⟨r, k1, k2, k3⟩ := hx
      obtain ⟨e, he⟩ : ∃ e, sh.lookA = 0x7E :: e := by
        cases hs : sh.lookA with
        | nil => rw [hs] at hl; simp at hl
        | cons b e => rw [hs] at hl; simp at hl; exact ⟨e, by rw [hl.1]⟩
      rw [he, List.tail_cons] at k1
      obtain ⟨re, he1, he2, he3⟩ := hneg e (.inl he)
      have k4 := compile_ahead he1 (numCap_of_quiet (quiet_noCapture e) he1) k1
      subst k4
      have hr := ((newPattern_negWidths h).1 _ k2).2
      simp only [RepSafe, RepSafeList, Bool.and_eq_true] at hr
      have hw' : maxWidth (.cat [.beginText, .cap 1 re]) = maxWidth re := by
        by_cases hx : maxWidth re = -1 <;> simp [maxWidth, maxWidthCat, hx]
      rw [hitsAhead_iff k2 (k3.trans hw') hr.2.1 he2 he3]
      constructor
      · exact fun h => ⟨e, re, he, he1, h⟩
      · rintro ⟨e', re', h1, h2, h3⟩
        rw [he] at h1
        cases h1
        rw [he1] at h2
        cases h2
        exact h3
    · rename_i hl
      constructor
      · intro hh; unfold hitsAhead at hh; rw [hx.1] at hh; simp at hh
      · rintro ⟨e, re, he, _⟩
        exact absurd ⟨by simp [he], h2⟩ hl
  have B : hitsBehind p word j = true ↔
      ∃ e re, sh.lookB = 0x7E :: e ∧ compile (noCapture e) = .ok re ∧ PrecededBy re word j ∧
        (maxWidth re ≤ j ∨ Lang re []) := by
    have hx := sh.negB
    unfold NegOf at hx
    split at hx
    · rename_i hl
      obtain ⟨r, k1, k2, k3⟩ := hx
      obtain ⟨e, he⟩ : ∃ e, sh.lookB = 0x7E :: e := by
        cases hs : sh.lookB with
        | nil => rw [hs] at hl; simp at hl
        | cons b e => rw [hs] at hl; simp at hl; exact ⟨e, by rw [hl.1]⟩
      rw [he, List.tail_cons] at k1
      obtain ⟨re, he1, he2, he3⟩ := hneg e (.inr he)
      have k4 := compile_behind he1 (numCap_of_quiet (quiet_noCapture e) he1) k1
      subst k4
      have hr := ((newPattern_negWidths h).2 _ k2).2
      simp only [RepSafe, RepSafeList, Bool.and_eq_true] at hr
      have hw' : maxWidth (.cat [.cap 1 re, .endText]) = maxWidth re := by
        by_cases hx : maxWidth re = -1 <;> simp [maxWidth, maxWidthCat, hx]
      rw [hitsBehind_iff k2 (k3.trans hw') hr.1 he2 he3 hj]
      constructor
      · exact fun h => ⟨e, re, he, he1, h⟩
      · rintro ⟨e', re', h1, h2, h3⟩
        rw [he] at h1
        cases h1
        rw [he1] at h2
        cases h2
        exact h3
    · rename_i hl
      constructor
      · intro hh; unfold hitsBehind at hh; rw [hx.1] at hh; simp at hh
      · rintro ⟨e, re, he, _⟩
        exact absurd ⟨by simp [he], h1⟩ hl
  rw [vetoes, Bool.or_eq_true, A, B]
  rfl

/-- C58: a limit on the number of matches only cuts the list of all of them. -/
theorem C58_limited {p : Pattern} {word : Bytes} {ms : List (List Int)} (h : find p word (-1) = .ok ms) (n : Nat) :
    find p word n = .ok (ms.take n) := find_take h

/-- Two of the three matches of `a` in `banana`. -/
example : ∃ p, newPattern (str "a") [] [] = .ok p ∧ find p (str "banana") (-1) = .ok [[1, 2], [3, 4], [5, 6]] ∧
    find p (str "banana") 2 = .ok [[1, 2], [3, 4]] := by
  let p : Pattern := ⟨str "a", .cat [.cap 1 .empty, .cap 2 .empty, .lit [0x61], .cap 3 .empty, .cap 4 .empty],
    none, none, 0, 0, [0x61], []⟩
  have hp : newPattern (str "a") [] [] = .ok p := by rfl
  have hf : find p (str "banana") (-1) = .ok [[1, 2], [3, 4], [5, 6]] := by decide +kernel
  exact ⟨p, hp, hf, C58_limited hf 2⟩

/-- `{x}(a|b)c{~d}` on `xacdxbcxac`: the first occurrence is forbidden, the other two are found. -/
example : ∃ (p : Pattern) (sh : Shape (expanded (str "{x}(a|b)c{~d}") [] []) p),
    newPattern (str "{x}(a|b)c{~d}") [] [] = .ok p ∧
    find p (str "xacdxbcxac") (-1) = .ok [[5, 7, 5, 6], [8, 10, 8, 9]] ∧
    Leftmost (Occurs (.lit [0x78]) (.cat [.cap 1 (.alt [.lit [0x61], .lit [0x62]]), .lit [0x63]]) .empty (str "xacdxbcxac"))
      (Forbidden sh (str "xacdxbcxac")) 10 0 [[5, 7, 5, 6], [8, 10, 8, 9]] ∧
    Forbidden sh (str "xacdxbcxac") 1 3 := by
  let p : Pattern := ⟨str "{x}(a|b)c{~d}", .cat [.cap 1 .empty, .cap 2 (.lit [0x78]),
    .cap 3 (.alt [.lit [0x61], .lit [0x62]]), .lit [0x63], .cap 4 .empty, .cap 5 .empty],
    some (.cat [.beginText, .cap 1 (.lit [0x64])]), none, 1, 0, [0x61, 0x62, 0x63, 0x64, 0x78], []⟩
  have hp : newPattern (str "{x}(a|b)c{~d}") [] [] = .ok p := by rfl
  let sh : Shape (expanded (str "{x}(a|b)c{~d}") [] []) p := ⟨0, str "x", str "(a|b)c", str "~d", 0, by decide +kernel,
    by decide, by decide, by decide, by decide, by rfl, ⟨by decide, by decide⟩, ⟨_, by rfl, by rfl, by rfl⟩⟩
  have hf : find p (str "xacdxbcxac") (-1) = .ok [[5, 7, 5, 6], [8, 10, 8, 9]] := by decide +kernel
  refine ⟨p, sh, hp, hf, ?_, .inl ⟨str "d", .lit [0x64], rfl, by rfl, [0x64], by decide +kernel, .lit _⟩⟩
  refine C58_leftmost_partial hp sh rfl rfl (by rfl) rfl ⟨by decide +kernel, _, _, _, _, ⟨by rfl, by rfl⟩, by rfl⟩
    (by rfl) rfl (by rfl) rfl ?_ hf
  rintro e (he | he)
  · cases he
    exact ⟨.lit [0x64], by rfl, rfl, .inr (by decide)⟩
  · have : (str "x").head? = some 0x7E := by rw [show str "x" = 0x7E :: e from he]; rfl
    exact absurd this (by decide)

end Verif.Props
