import Verif.Proofs.Bars
import Verif.Proofs.Bundled

/-!
# Properties C11 and C58 for the rules of the bundled specs
-/

namespace Verif.Props
open Verif.Hre Verif.Rx Verif.Spec Verif.Spec.Hre Verif.Spec.Api Verif.Spec.Bundle Verif.Specs

/-- C58 (partial): `Find` reports the leftmost occurrence that is not vetoed, and so on, for every pattern whose text
passes a quick check (`Laid.laid`), also for those with a top-level bar.  Missing: other patterns, and the beginning of
the word for later occurrences, as for `C58_edges_partial`.

A pattern that passes the quick check has parts which are expressions on their own, and is scanned for as
`C58_edges_partial` says. -/
theorem C58_laid_partial {expr : Bytes} {macros : List (Bytes × Bytes)} {vars : List (Bytes × List Bytes)}
    {p : Pattern} (h : newPattern expr macros vars = .ok p) (h4 : 4 ≤ numCap p.re)
    (hl : Laid.laid (expanded expr macros vars) = true) :
    ∃ (sh : Shape (expanded expr macros vars) p) (rb rc ra : Re),
      compile (expandEdges (posLook sh.lookB)) = .ok rb ∧ compile (expandEdges sh.core) = .ok rc ∧
      compile (expandEdges (posLook sh.lookA)) = .ok ra ∧
      (∀ e, (sh.lookA = 0x7E :: e ∧ sh.na = 0) ∨ (sh.lookB = 0x7E :: e ∧ sh.nb = 0) →
        ∃ re, compile (noCapture e) = .ok re) ∧
      ∀ (word : Bytes) (ms : List (List Int)), find p word (-1) = .ok ms →
        Scan (OccursFrom sh.nb rb rc ra sh.na word) (Vetoed sh word) word.length 0 ms := by
  rcases newPattern_shape_clean h with (h0 | h0) | ⟨sh, a, b, hc⟩
  · rw [h0] at h4; exact absurd h4 (by decide)
  · rw [h0] at h4; exact absurd h4 (by decide)
  · obtain ⟨⟨rb, h1⟩, ⟨rc, h2⟩, ⟨ra, h3⟩, hneg, hbar⟩ := Laid.laid_compiles sh (Laid.clean_of hc) hl
    refine ⟨sh, rb, rc, ra, h1, h2, h3, hneg, ?_⟩
    intro word ms hf
    by_cases hn : NoBar (expandEdges sh.core)
    · exact C58_edges_partial h sh h1 hn h2 h3 hneg hf
    · obtain ⟨e1, e2, e3, e4⟩ := hbar.resolve_left hn
      have := (sh.bare e1 e2 e3 e4 h2 hn).scan (boundary_zero word) hf
      have e0 : compile (expandEdges (posLook [])) = .ok .empty := by rfl
      rw [e2, e0] at h1
      rw [e3, e0] at h3
      cases h1
      cases h3
      rw [e1, e4]
      exact scan_veto (boundary_zero word) (fun _ _ _ => vetoed_iff h sh hneg) this

theorem loaded_tidy {sp : Spec} (h : Loaded bundled sp) {r : Rule} (hr : r ∈ sp.rewrite ++ sp.transcribe) :
    Tidy sp.macros sp.vars r ∧ checked r = true := by
  obtain ⟨lang, src, o, h1, h2, h3⟩ := h
  obtain ⟨l, _, hs⟩ := bundled_sound h1
  obtain ⟨sp', e1, _, _, _, _, _, e2, e3, e4, _⟩ := hs o h2
  rw [h3] at e1
  simp only [Go.ok.injEq] at e1
  subst e1
  refine ⟨e4 r hr, ?_⟩
  rcases List.mem_append.1 hr with hr | hr
  · exact bundleCheck_checked (e2 r hr)
  · exact bundleCheck_checked (e3 r hr)

/-- C58 (partial): every rule of every bundled spec is `^^{lookB}core{lookA}$$` with parts that are regular expressions
on their own, and in all words, `Find` reports the leftmost occurrence that is not vetoed, then the leftmost one from
its end on, and so on.  Missing: the beginning of the word for later occurrences, as for `C58_edges_partial`. -/
theorem C58_bundled_partial {sp : Spec} (h : Loaded bundled sp) {r : Rule} (hr : r ∈ sp.rewrite ++ sp.transcribe) :
    ∃ (sh : Shape (expanded r.pat.expr sp.macros sp.vars) r.pat) (rb rc ra : Re),
      compile (expandEdges (posLook sh.lookB)) = .ok rb ∧ compile (expandEdges sh.core) = .ok rc ∧
      compile (expandEdges (posLook sh.lookA)) = .ok ra ∧
      ∀ word : Bytes, ∃ ms, find r.pat word (-1) = .ok ms ∧
        Scan (OccursFrom sh.nb rb rc ra sh.na word) (Vetoed sh word) word.length 0 ms := by
  obtain ⟨⟨h1, h2, _⟩, h3⟩ := loaded_tidy h hr
  simp only [checked, Bool.and_eq_true] at h3
  have h4 : 4 ≤ numCap r.pat.re := by
    have := h3.1
    simp only [firm, Bool.and_eq_true, decide_eq_true_eq] at this
    exact this.1
  obtain ⟨sh, rb, rc, ra, k1, k2, k3, _, k4⟩ := C58_laid_partial h1 h4 h2
  refine ⟨sh, rb, rc, ra, k1, k2, k3, fun word => ?_⟩
  obtain ⟨ms, hf, _⟩ := find_firm h3.1 word (-1)
  exact ⟨ms, hf, k4 word ms hf⟩

theorem proper_shape {word : Bytes} : ∀ {lo : Nat} {ms : List (List Int)}, ProperMatches word lo ms → ∀ {m : List Int},
    m ∈ ms → ∃ (start stop : Nat) (groups : List Int), m = (start : Int) :: (stop : Int) :: groups
  | _, [], _, _, hm => by simp at hm
  | _, m' :: ms, ⟨start, stop, groups, h1, _, _, _, _, _, h2⟩, m, hm => by
    rcases List.mem_cons.1 hm with rfl | hm
    · exact ⟨start, stop, groups, h1⟩
    · exact proper_shape h2 hm

/-- C11 (partial): a match of a rule of a bundled spec that is reported is not followed by a text of its negative
lookahead, and not preceded by one of its negative lookbehind, in all words without the letter `ü`, and in all words
for texts without it; the lookarounds are without assertions.  Missing: `ü` in a lookahead of Catalan, for which it is
false (`C11_bundled_refuted`). -/
theorem C11_bundled_partial {sp : Spec} (h : Loaded bundled sp) {r : Rule} (hr : r ∈ sp.rewrite ++ sp.transcribe) :
    ∃ sh : Shape (expanded r.pat.expr sp.macros sp.vars) r.pat, ∀ (word : Bytes) (ms : List (List Int)),
      find r.pat word (-1) = .ok ms → ∀ m ∈ ms, ∃ (start stop : Nat) (groups : List Int),
        m = (start : Int) :: (stop : Int) :: groups ∧
        (∀ e, sh.lookA = 0x7E :: e → sh.na = 0 → ∃ re, compile (noCapture e) = .ok re ∧ Plain re = true ∧
          ∀ u, u <+: runes (word.drop stop) → 0xFC ∉ u → ¬ Lang re u) ∧
        (∀ e, sh.lookB = 0x7E :: e → sh.nb = 0 → ∃ re, compile (noCapture e) = .ok re ∧ Plain re = true ∧
          ∀ u, u <:+ runes (word.take start) → 0xFC ∉ u → ¬ Lang re u) := by
  obtain ⟨⟨h1, h2, hw⟩, h3⟩ := loaded_tidy h hr
  simp only [checked, Bool.and_eq_true] at h3
  have h4 : 4 ≤ numCap r.pat.re := by
    have := h3.1
    simp only [firm, Bool.and_eq_true, decide_eq_true_eq] at this
    exact this.1
  simp only [Narrow.narrow, Bool.and_eq_true, decide_eq_true_eq] at hw
  obtain ⟨⟨hwA, hwB⟩, hw1⟩ := hw
  have hslim : ∀ {re : Re} {u : List Rune}, Narrow.within Narrow.slim re = true → 0xFC ∉ u → Lang re u →
      ∀ c ∈ u, c < 0x80 := by
    intro re u k1 k2 k3 c hc
    have := Narrow.within_lang k3 k1 c hc
    simp only [Narrow.slim, Bool.or_eq_true, decide_eq_true_eq] at this
    rcases this with e | e
    · exact e
    · subst e; exact absurd hc k2
  rcases newPattern_shape_clean h1 with (h0 | h0) | ⟨sh, a, b, hc⟩
  · rw [h0] at h4; exact absurd h4 (by decide)
  · rw [h0] at h4; exact absurd h4 (by decide)
  obtain ⟨k1, _, k3, hneg, hbar⟩ := Laid.laid_compiles sh (Laid.clean_of hc) h2
  refine ⟨sh, fun word ms hf m hm => ?_⟩
  have hA : ∀ {e : Bytes}, sh.lookA = 0x7E :: e → sh.na = 0 → ∃ re, compile (noCapture e) = .ok re ∧ Plain re = true ∧
      Narrow.within Narrow.slim re = true := by
    intro e hl hn
    obtain ⟨re, he⟩ := hneg e (.inl ⟨hl, hn⟩)
    refine ⟨re, he, ?_⟩
    have hx := sh.negA
    unfold NegOf at hx
    rw [if_pos ⟨by simp [hl], hn⟩] at hx
    obtain ⟨q, q1, q2, _⟩ := hx
    rw [hl, List.tail_cons] at q1
    have q4 := compile_ahead he (numCap_of_quiet (quiet_noCapture e) he) q1
    subst q4
    rw [q2] at hwA
    simpa [Narrow.slimLook] using hwA
  have hB : ∀ {e : Bytes}, sh.lookB = 0x7E :: e → sh.nb = 0 → ∃ re, compile (noCapture e) = .ok re ∧ Plain re = true ∧
      Narrow.within Narrow.slim re = true := by
    intro e hl hn
    obtain ⟨re, he⟩ := hneg e (.inr ⟨hl, hn⟩)
    refine ⟨re, he, ?_⟩
    have hx := sh.negB
    unfold NegOf at hx
    rw [if_pos ⟨by simp [hl], hn⟩] at hx
    obtain ⟨q, q1, q2, _⟩ := hx
    rw [hl, List.tail_cons] at q1
    have q4 := compile_behind he (numCap_of_quiet (quiet_noCapture e) he) q1
    subst q4
    rw [q2] at hwB
    simpa [Narrow.slimLook] using hwB
  obtain ⟨ms', hf', hms⟩ := find_firm h3.1 word (-1)
  rw [hf] at hf'
  cases hf'
  obtain ⟨start, stop, groups, hm'⟩ := proper_shape hms hm
  refine ⟨start, stop, groups, hm', ?_, ?_⟩
  · intro e hl hn
    obtain ⟨re, he, hp, hs⟩ := hA hl hn
    refine ⟨re, he, hp, fun u hu hx hlang => ?_⟩
    have hbar' : NoBar (expandEdges sh.core) := by
      rcases hbar with k | ⟨_, _, k, _⟩
      · exact k
      · rw [hl] at k; simp at k
    obtain ⟨start', stop', groups', e1, e2⟩ := C11_ahead_partial h1 sh k1 hbar' hl hn he hf hm
    have : stop' = stop := by
      rw [hm'] at e1
      simp only [List.cons.injEq] at e1
      omega
    rw [this] at e2
    exact e2 u hu (hslim hs hx hlang) hlang
  · intro e hl hn
    obtain ⟨re, he, hp, hs⟩ := hB hl hn
    refine ⟨re, he, hp, fun u hu hx hlang => ?_⟩
    have hbar' : NoBar (expandEdges sh.core) := by
      rcases hbar with k | ⟨_, k, _, _⟩
      · exact k
      · rw [hl] at k; simp at k
    obtain ⟨e0, start', stop', groups', e1, e2⟩ := C11_behind_partial h1 sh k3 hbar' hl hn he hf hm
    have : start' = start := by
      rw [hm'] at e1
      simp only [List.cons.injEq] at e1
      omega
    rw [this] at e2
    refine e2 u hu (hslim hs hx hlang) ?_ hlang
    rw [e0] at hw1
    cases u with
    | nil => exact .inl rfl
    | cons c u => right; right; simp only [List.length_cons]; omega

/-- C11 fails for `ü` after a match of a rule of Catalan, `mb{~@|l|r}` with the vowels `aeiouü`. -/
theorem C11_bundled_refuted : ∃ p re, newPattern (str "mb{~@|l|r}") Cat.macros Cat.vars = .ok p ∧
    find p (str "mbümba") (-1) = .ok [[0, 2]] ∧
    compile (noCapture (expanded (str "@|l|r") Cat.macros Cat.vars)) = .ok re ∧ FollowedBy re (str "mbümba") 2 := by
  have h : ((newPattern (str "mb{~@|l|r}") Cat.macros Cat.vars).bind fun p => find p (str "mbümba") (-1)) = .ok [[0, 2]] := by
    decide +kernel
  rw [go_bind_ok] at h
  obtain ⟨p, h1, h2⟩ := h
  exact ⟨p, .alt [.alt [.lit [0x61], .lit [0x65], .lit [0x69], .lit [0x6F], .lit [0x75], .lit [0xFC]], .lit [0x6C], .lit [0x72]],
    h1, h2, by rfl, [0xFC], by decide +kernel, .alt (.head _) (.alt (by simp) (.lit _))⟩

/-- `;|-` is reported at each of its places: each alternative has only some of the groups of the edges. -/
example : ∃ p, newPattern (str ";|-") [] [] = .ok p ∧ 4 ≤ numCap p.re ∧
    Laid.laid (expanded (str ";|-") [] []) = true ∧ find p (str "ä;b-") (-1) = .ok [[2, 3], [4, 5]] ∧
    ∃ (sh : Shape (expanded (str ";|-") [] []) p) (rb rc ra : Re),
      compile (expandEdges sh.core) = .ok rc ∧
      Scan (OccursFrom sh.nb rb rc ra sh.na (str "ä;b-")) (Vetoed sh (str "ä;b-")) 5 0 [[2, 3], [4, 5]] := by
  have h : ((newPattern (str ";|-") [] []).bind fun p => (find p (str "ä;b-") (-1)).bind fun ms =>
      .ok (decide (4 ≤ numCap p.re), ms)) = .ok (true, [[2, 3], [4, 5]]) := by decide +kernel
  rw [go_bind_ok] at h
  obtain ⟨p, h1, h2⟩ := h
  rw [go_bind_ok] at h2
  obtain ⟨ms, h2, h3⟩ := h2
  simp only [Go.ok.injEq, Prod.mk.injEq, decide_eq_true_eq] at h3
  obtain ⟨h3, rfl⟩ := h3
  have hl : Laid.laid (expanded (str ";|-") [] []) = true := by decide +kernel
  obtain ⟨sh, rb, rc, ra, _, k2, _, _, k⟩ := C58_laid_partial h1 h3 hl
  exact ⟨p, h1, h3, hl, h2, sh, rb, rc, ra, k2, k _ _ h2⟩

end Verif.Props
