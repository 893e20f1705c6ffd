import Verif.Proofs.Layout
import Verif.Proofs.Replace
import Verif.Proofs.Shape
import Verif.Proofs.SpecFile
import Verif.Proofs.Strings
import Verif.Proofs.Width

/-!
# Properties C09–C18 and C56: patterns
-/

namespace Verif.Props
open Verif.Hre Verif.Rx Verif.Spec.Hre Verif.Spec.Strings

/-- The text of a pattern with its macros and variables expanded. -/
def expanded (expr : Bytes) (macros : List (Bytes × Bytes)) (vars : List (Bytes × List Bytes)) : Bytes :=
  (expandVars (expandMacros expr macros) vars).1

/-- The text of the pattern can be read as `^^{lookB}core{lookA}$$` such that the two lookarounds and
the core are regular expressions on their own; or the pattern is one that never matches. -/
def Separable (x : Bytes) (p : Pattern) : Prop :=
  Dead p ∨ ∃ sh : Shape x p,
    (∃ r, compile (expandEdges (posLook sh.lookB)) = .ok r) ∧ (∃ r, compile (expandEdges sh.core) = .ok r) ∧
    (∃ r, compile (expandEdges (posLook sh.lookA)) = .ok r)

theorem find_dead {p : Pattern} (h : Dead p) (word : Bytes) (n : Int) : find p word n = .ok [] := by
  have h0 : ∀ l prev pos, searchFrom p.re l prev pos = none := by
    intro l
    induction l with
    | nil => intro prev pos; rw [searchFrom, h]; rfl
    | cons a l ih => intro prev pos; obtain ⟨c, k⟩ := a; rw [searchFrom, h]; exact ih _ _
  unfold find
  rw [findLoop]
  split
  · simp [findStep, findSubmatch, h0]
  · rfl

/-- C09 (partial): a separable pattern only reports non-empty ranges of whole characters of the word,
in order and without overlap.  Missing: patterns whose parts only form a regular expression when put
together; `C09_matches_refuted` is one of them. -/
theorem C09_matches_partial {expr : Bytes} {macros : List (Bytes × Bytes)} {vars : List (Bytes × List Bytes)}
    {p : Pattern} (_h : newPattern expr macros vars = .ok p) (hs : Separable (expanded expr macros vars) p)
    {word : Bytes} {n : Int} {ms : List (List Int)} (hf : find p word n = .ok ms) :
    ProperMatches word 0 ms := by
  rcases hs with hd | ⟨sh, ⟨rb, hb⟩, ⟨rc, hc⟩, ⟨ra, ha⟩⟩
  · rw [find_dead hd] at hf
    simp at hf; subst hf; trivial
  · exact findLoop_proper (sh.wellShaped hb hc ha) word n _ 0 0 ms (boundary_zero word) hf

/-- C09: at most `n` matches are reported, for every pattern. -/
theorem C09_matches_count (p : Pattern) {word : Bytes} {n : Int} {ms : List (List Int)} (hn : 0 ≤ n)
    (hf : find p word n = .ok ms) : (ms.length : Int) ≤ n := by
  have := findLoop_count p word n _ 0 0 ms hn hn hf
  simpa using this

/-- C09: every accepted pattern never matches or can be read as `^^{lookB}core{lookA}$$`. -/
theorem C09_patterns_readable {expr : Bytes} {macros : List (Bytes × Bytes)} {vars : List (Bytes × List Bytes)}
    {p : Pattern} (h : newPattern expr macros vars = .ok p) :
    Dead p ∨ Nonempty (Shape (expanded expr macros vars) p) := newPattern_shape h

/-- C09 fails in general: `{\}a{b)}` on `)ab` reports a match from 3 to 2. -/
theorem C09_matches_refuted : ∃ p, newPattern (str "{\\}a{b)}") [] [] = .ok p ∧
    ∃ ms, find p (str ")ab") (-1) = .ok ms ∧ ¬ ProperMatches (str ")ab") 0 ms := by
  have h : ((newPattern (str "{\\}a{b)}") [] []).bind fun p => find p (str ")ab") (-1)) = .ok [[3, 2]] := by
    decide +kernel
  rw [go_bind_ok] at h
  obtain ⟨p, h1, h2⟩ := h
  refine ⟨p, h1, _, h2, ?_⟩
  rintro ⟨a, b, g, h3, _, h4, _⟩
  simp at h3
  omega

/-- C10 (partial): finding the matches of a separable pattern ends. -/
theorem C10_find_terminates_partial {expr : Bytes} {macros : List (Bytes × Bytes)}
    {vars : List (Bytes × List Bytes)} {p : Pattern} (_h : newPattern expr macros vars = .ok p)
    (hs : Separable (expanded expr macros vars) p) (word : Bytes) (n : Int) :
    ∃ fuel, findLoop p word n fuel 0 0 ≠ .hang := by
  rcases hs with hd | ⟨sh, ⟨rb, hb⟩, ⟨rc, hc⟩, ⟨ra, ha⟩⟩
  · exact ⟨_, by have := find_dead hd word n; unfold find at this; rw [this]; simp⟩
  · exact ⟨word.length + 1, findLoop_no_hang (sh.wellShaped hb hc ha) word n _ 0 0 (boundary_zero word) (by omega)⟩

/-- C10 fails in general: `{\}*{b)}` on `b` never ends, however many iterations of the loop are made. -/
theorem C10_find_terminates_refuted : ∃ p, newPattern (str "{\\}*{b)}") [] [] = .ok p ∧
    ∀ fuel, findLoop p (str "b") (-1) fuel 0 0 = .hang := by
  have h : ((newPattern (str "{\\}*{b)}") [] []).bind fun p => findStep p (str "b") 0) =
      .ok (some (0, some [1, 0])) := by
    decide +kernel
  rw [go_bind_ok] at h
  obtain ⟨p, h1, h2⟩ := h
  refine ⟨p, h1, ?_⟩
  suffices ∀ fuel count, findLoop p (str "b") (-1) fuel 0 count = .hang from fun fuel => this fuel 0
  intro fuel
  induction fuel with
  | zero => intro count; rfl
  | succ fuel ih =>
    intro count
    rw [findLoop, if_pos ⟨by decide, .inl (by decide)⟩, h2]
    simp [ih]

/-- `{a}(b|c)d{~e}`, compiled. -/
def samplePattern : Pattern where
  expr := str "{a}(b|c)d{~e}"
  re := .cat [.cap 1 .empty, .cap 2 (.lit [0x61]), .cap 3 (.alt [.lit [0x62], .lit [0x63]]), .lit [0x64],
    .cap 4 .empty, .cap 5 .empty]
  negA := some (.cat [.beginText, .cap 1 (.lit [0x65])])
  negB := none
  negAWidth := 1
  negBWidth := 0
  letters := [0x61, 0x62, 0x63, 0x64, 0x65]
  usedVars := []

theorem sample_ok : newPattern (str "{a}(b|c)d{~e}") [] [] = .ok samplePattern := by rfl

theorem sample_separable : Separable (expanded (str "{a}(b|c)d{~e}") [] []) samplePattern := by
  refine .inr ⟨⟨0, str "a", str "(b|c)d", str "~e", 0, by decide +kernel, by decide, by decide, by decide, by decide,
    by rfl, ⟨by decide, by decide⟩, ⟨_, by rfl, by rfl, by rfl⟩⟩, ⟨_, by rfl⟩, ⟨_, by rfl⟩, ⟨_, by rfl⟩⟩

/-- Two matches, the second `abd` is followed by `e` and not reported. -/
example : find samplePattern (str "abdacdabde") (-1) = .ok [[1, 3, 1, 2], [4, 6, 4, 5]] := by decide +kernel

example : ProperMatches (str "abdacdabde") 0 [[1, 3, 1, 2], [4, 6, 4, 5]] :=
  C09_matches_partial sample_ok sample_separable (n := -1) (by decide +kernel)

example : ∃ fuel, findLoop samplePattern (str "abdacdabde") (-1) fuel 0 0 ≠ .hang :=
  C10_find_terminates_partial sample_ok sample_separable _ _

/-- C12 (partial): no match is wider than `RegexpMaxWidth` says, unless it is -1.  Missing: bounded
repetitions of an unlimited expression, as in `C12_width_refuted`. -/
theorem C12_width_partial {re : Re} (hr : RepSafe re = true) (hw : maxWidth re ≠ -1) {s s' : St}
    (h : s' ∈ run re s) : ((s.rest.length - s'.rest.length : Nat) : Int) ≤ maxWidth re := by
  have h1 := run_within re hr hw h
  have h2 := maxWidth_ge re hr
  unfold Within at h1
  omega

/-- C12 fails in general: the width of `(a+){2}` is -2, but it matches `aaa`. -/
theorem C12_width_refuted : ∃ re, compile (str "(a+){2}") = .ok re ∧ maxWidth re = -2 ∧
    ∃ s s', s' ∈ run re s ∧ s.rest.length - s'.rest.length = 3 := by
  refine ⟨.rep 2 (some 2) true (.cap 1 (.plus true (.lit [0x61]))), by rfl, by decide, ?_⟩
  refine ⟨⟨none, 0, [(0x61, 1), (0x61, 1), (0x61, 1)], List.replicate 4 none⟩,
    ⟨some 0x61, 3, [], [none, none, some 2, some 3]⟩, by decide +kernel, rfl⟩

/-- `(a|bb?)c` has width 3, and `bbc` is as wide. -/
example : ∃ re, compile (str "(a|bb?)c") = .ok re ∧ RepSafe re = true ∧ maxWidth re = 3 ∧
    ∃ s s', s' ∈ run re s ∧ s.rest.length - s'.rest.length = 3 :=
  ⟨.cat [.cap 1 (.alt [.lit [0x61], .cat [.lit [0x62], .quest true (.lit [0x62])]]), .lit [0x63]], by rfl,
    by decide, by decide, ⟨none, 0, [(0x62, 1), (0x62, 1), (0x63, 1)], List.replicate 4 none⟩,
    ⟨some 0x63, 3, [], [none, none, some 0, some 2]⟩, by decide +kernel, rfl⟩

/-- The negative expressions of a rule. -/
def Negative (r : Rule) (re : Re) : Prop := r.pat.negA = some re ∨ r.pat.negB = some re

/-- An expression that can match arbitrarily long text. -/
def Unlimited (re : Re) : Prop := ∀ n : Nat, ∃ s s', s' ∈ run re s ∧ n < s.rest.length - s'.rest.length

/-- C13: the negative expressions of an accepted spec cannot match arbitrarily long text. -/
theorem C13_unlimited {o : Ord} {src : Bytes} {sp : Spec} (h : parseSpec o src = .ok sp)
    {r : Rule} (hr : r ∈ sp.rewrite ∨ r ∈ sp.transcribe) {re : Re} (hn : Negative r re) : ¬ Unlimited re := by
  obtain ⟨ps, qs, h1, h2⟩ := parseSpec_rules h
  have h3 : ∃ left m, newPattern left m sp.vars = .ok r.pat ∧ r.pat.negAWidth ≠ -1 ∧ r.pat.negBWidth ≠ -1 := by
    rcases hr with hr | hr
    · exact newRulesLoop_mem h1 r hr
    · exact newRulesLoop_mem h2 r hr
  obtain ⟨left, m, h4, h5, h6⟩ := h3
  obtain ⟨h7, h8⟩ := newPattern_negWidths h4
  have h9 : maxWidth re ≠ -1 ∧ RepSafe re = true := by
    rcases hn with hn | hn
    · rw [← (h7 _ hn).1]; exact ⟨h5, (h7 _ hn).2⟩
    · rw [← (h8 _ hn).1]; exact ⟨h6, (h8 _ hn).2⟩
  intro hu
  obtain ⟨s, s', hm, hlt⟩ := hu (maxWidth re).toNat
  have := C12_width_partial h9.2 h9.1 hm
  have := maxWidth_ge re h9.2
  omega

/-- A spec with the rule `b{~a(c|dd)?}` is accepted. -/
def smallSpec : Bytes :=
  str "lang:\n\tcodes = \"xx\", \"xxx\"\n\tscript = \"Latn\"\nrewrite:\n\t\"b{~a(c|dd)?}\" -> \"c\"\n"

/-- The same spec with the rule `b{~a(c|d+)?}` is rejected. -/
def unlimitedSpec : Bytes :=
  str "lang:\n\tcodes = \"xx\", \"xxx\"\n\tscript = \"Latn\"\nrewrite:\n\t\"b{~a(c|d+)?}\" -> \"c\"\n"

example : ((parseSpec .written smallSpec).bind fun sp => .ok (sp.rewrite.map fun r => (r.pat.negA.isSome, r.pat.negAWidth))) =
    .ok [(true, 3)] := by
  decide +kernel

example : ((parseSpec .written unlimitedSpec).bind fun _ => .ok ()) = .err .invalidSpec := by decide +kernel

/-- C14: both ways of replacing agree on a separable pattern, on errors and panics as well. -/
theorem C14_replace_agree_partial {r : Rule} {expr : Bytes} {macros : List (Bytes × Bytes)}
    {vars : List (Bytes × List Bytes)} (h : newPattern expr macros vars = .ok r.pat)
    (hs : Separable (expanded expr macros vars) r.pat) (word : Bytes) :
    Hre.replace r.pat word r.to (-1) = r.replace word :=
  replace_agree r word fun _ hf => C09_matches_partial h hs hf

/-- C14: what is replaced are the matches for which the interpolation succeeds, and nothing else. -/
theorem C14_replace_splice_partial {r : Rule} {expr : Bytes} {macros : List (Bytes × Bytes)}
    {vars : List (Bytes × List Bytes)} (h : newPattern expr macros vars = .ok r.pat)
    (hs : Separable (expanded expr macros vars) r.pat) {word : Bytes} {ms : List (List Int)}
    (hf : find r.pat word (-1) = .ok ms) (hi : ∀ m ∈ ms, interpolate r.to r.pat word m ≠ .panic) :
    r.replace word = .ok (splice word (fun m =>
      match interpolate r.to r.pat word m with
      | .ok t => some t
      | _ => none) 0 ms) :=
  Rule.replace_splice hf (C09_matches_partial h hs hf) hi

/-- C14: the same for `Pattern.Replace` and any limit on the number of matches. -/
theorem C14_pattern_replace_partial {p : Pattern} {expr : Bytes} {macros : List (Bytes × Bytes)}
    {vars : List (Bytes × List Bytes)} (h : newPattern expr macros vars = .ok p)
    (hs : Separable (expanded expr macros vars) p) {word : Bytes} {n : Int} {rp : RPattern} {ms : List (List Int)}
    (hf : find p word n = .ok ms) (hi : ∀ m ∈ ms, interpolate rp p word m ≠ .panic) :
    Hre.replace p word rp n = .ok (splice word (fun m =>
      match interpolate rp p word m with
      | .ok t => some t
      | _ => none) 0 ms) := by
  simp only [Hre.replace, hf, Go.bind_ok]
  exact replaceLoop_splice (Nat.zero_le _) (C09_matches_partial h hs hf) hi

/-- `{a}(b|c)d{~e}` with the replacement `<v>`: the interpolation fails and the matches are kept; with the
replacement `x` they are replaced. -/
example : Rule.replace ⟨0, samplePattern, newRPattern (str "<v>") [] [(str "v", [str "x"])]⟩ (str "abdacdabde") =
      .ok (str "abdacdabde") ∧
    Rule.replace ⟨0, samplePattern, newRPattern (str "x") [] []⟩ (str "abdacdabde") = .ok (str "axaxabde") ∧
    Hre.replace samplePattern (str "abdacdabde") (newRPattern (str "x") [] []) 1 = .ok (str "axacdabde") := by
  decide +kernel

/-- C14 fails in general: with the pattern of `C09_matches_refuted` and a replacement whose interpolation
fails, `Pattern.Replace` panics and `Rule.Replace` keeps the word. -/
theorem C14_replace_refuted : ∃ r : Rule, newPattern (str "{\\}a{b)}") [] [] = .ok r.pat ∧
    r.to = newRPattern (str "<v>") [] [(str "v", [str "x"])] ∧
    Hre.replace r.pat (str ")ab") r.to (-1) = .panic ∧ r.replace (str ")ab") = .ok (str ")ab") := by
  have h : ((newPattern (str "{\\}a{b)}") [] []).bind fun p => .ok
      (Hre.replace p (str ")ab") (newRPattern (str "<v>") [] [(str "v", [str "x"])]) (-1),
        Rule.replace ⟨0, p, newRPattern (str "<v>") [] [(str "v", [str "x"])]⟩ (str ")ab"))) =
      .ok (.panic, .ok (str ")ab")) := by
    decide +kernel
  rw [go_bind_ok] at h
  obtain ⟨p, h1, h2⟩ := h
  simp only [Go.ok.injEq, Prod.mk.injEq] at h2
  exact ⟨⟨0, p, _⟩, h1, rfl, h2.1, h2.2⟩

/-- C16 (partial): a pattern `^^...` without top-level bars and without negative lookahead finds matches
one after another, the first at the start of the word.  Missing: that there is at most one, which is false
(`C16_anchored_refuted`). -/
theorem C16_anchored_partial {expr : Bytes} {macros : List (Bytes × Bytes)} {vars : List (Bytes × List Bytes)}
    {p : Pattern} (_h : newPattern expr macros vars = .ok p) (sh : Shape (expanded expr macros vars) p)
    (hn : 2 ≤ sh.nb) (hc : NoBar (expandEdges sh.core))
    (ha : ∃ r, compile (expandEdges (posLook sh.lookA)) = .ok r) (hA : p.negA = none)
    {word : Bytes} {n : Int} {ms : List (List Int)} (hf : find p word n = .ok ms) : Tiled 0 ms := by
  obtain ⟨ra, ha⟩ := ha
  exact sh.tiled hn hc ha hA hf

/-- C16 fails in general: `^^a` matches three times in `aaa`. -/
theorem C16_anchored_refuted : ∃ p, newPattern (str "^^a") [] [] = .ok p ∧
    find p (str "aaab") (-1) = .ok [[0, 1], [1, 2], [2, 3]] := by
  have h : ((newPattern (str "^^a") [] []).bind fun p => find p (str "aaab") (-1)) =
      .ok [[0, 1], [1, 2], [2, 3]] := by
    decide +kernel
  rw [go_bind_ok] at h
  exact h

/-- C16 fails for a second reason: in `^^a|b` the assertion applies to the first alternative only. -/
theorem C16_bar_refuted : ∃ p, newPattern (str "^^a|b") [] [] = .ok p ∧
    find p (str "cb") (-1) = .ok [[1, 2]] := by
  have h : ((newPattern (str "^^a|b") [] []).bind fun p => find p (str "cb") (-1)) = .ok [[1, 2]] := by
    decide +kernel
  rw [go_bind_ok] at h
  exact h

/-- `^^(a|b)c` finds two adjacent matches in `acbcxac` and not the third one. -/
example : ∃ (p : Pattern) (sh : Shape (expanded (str "^^(a|b)c") [] []) p),
    newPattern (str "^^(a|b)c") [] [] = .ok p ∧ 2 ≤ sh.nb ∧ NoBar (expandEdges sh.core) ∧
    (∃ r, compile (expandEdges (posLook sh.lookA)) = .ok r) ∧ p.negA = none ∧
    find p (str "acbcxac") (-1) = .ok [[0, 2, 0, 1], [2, 4, 2, 3]] := by
  let p : Pattern := ⟨str "^^(a|b)c", .cat [.cap 1 .beginText, .cap 2 .empty, .cap 3 (.alt [.lit [0x61], .lit [0x62]]),
    .lit [0x63], .cap 4 .empty, .cap 5 .empty], none, none, 0, 0, [0x61, 0x62, 0x63], []⟩
  refine ⟨p, ⟨2, [], str "(a|b)c", [], 0, by decide +kernel, by decide, by decide, by decide, by decide,
    by rfl, ⟨by decide, by decide⟩, ⟨by decide, by decide⟩⟩, by rfl, by decide, ⟨by decide +kernel, ?_⟩, ⟨_, by rfl⟩, rfl,
    by decide +kernel⟩
  exact ⟨_, _, _, _, ⟨by rfl, by rfl⟩, by rfl⟩

/-- C17 (partial): if no macro is a prefix of another one, the expansion does not depend on the order in
which Go visits the map.  Missing: other macro tables, for which it is false (`C17_macros_refuted`). -/
theorem C17_macros_partial {macros macros' : List (Bytes × Bytes)} (h : macros.Perm macros')
    (hf : PrefixFree macros) (expr : Bytes) : expandMacros expr macros = expandMacros expr macros' :=
  replacePairs_perm h hf expr

/-- C17 fails in general: with the macros `@` and `@@` the order decides. -/
theorem C17_macros_refuted : ∃ macros macros' : List (Bytes × Bytes), macros.Perm macros' ∧
    (macros.map Prod.fst).Nodup ∧ expandMacros (str "@@") macros ≠ expandMacros (str "@@") macros' :=
  ⟨[(str "@", str "<v>"), (str "@@", str "x")], [(str "@@", str "x"), (str "@", str "<v>")],
    .swap _ _ _, by decide +kernel, by decide +kernel⟩

/-- Two macros and both orders. -/
example : PrefixFree [(str "@", str "<v>"), (str "%%", str "x")] ∧
    expandMacros (str "a@%%%") [(str "@", str "<v>"), (str "%%", str "x")] = str "a<v>x%" ∧
    expandMacros (str "a@%%%") [(str "%%", str "x"), (str "@", str "<v>")] = str "a<v>x%" := by
  refine ⟨?_, by decide +kernel, by decide +kernel⟩
  unfold PrefixFree; decide +kernel

/-- C56: `substr` never panics; it gives the bytes at the positions between `start` and `stop`, none if
one of them is negative. -/
theorem C56_substr (s : Bytes) (start stop : Int) :
    substrGo s start stop = .ok (substr s start stop) ∧
    (0 ≤ start → ∀ i : Nat, (substr s start stop)[i]? =
      if start + i < stop then s[start.toNat + i]? else none) ∧
    (start < 0 → substr s start stop = []) := by
  unfold substrGo substr
  refine ⟨?_, fun hs i => ?_, fun hs => by simp [hs]⟩
  · split
    · rfl
    · dsimp only
      split
      · rfl
      · generalize hx : (if stop > s.length then (s.length : Int) else stop) = e
        have he : e = min stop s.length := by rw [← hx]; split <;> omega
        split
        · rw [slice_ok] <;> omega
        · rfl
  · by_cases hst : stop < 0
    · rw [if_pos (.inr hst), if_neg (by omega)]; simp
    · rw [if_neg (by omega)]
      by_cases hl : start ≥ s.length
      · rw [if_pos hl]
        have : s[start.toNat + i]? = none := List.getElem?_eq_none (by omega)
        simp [this]
      · rw [if_neg hl]
        dsimp only
        generalize hx : (if stop > s.length then (s.length : Int) else stop) = e
        have he : e = min stop s.length := by rw [← hx]; split <;> omega
        by_cases hp : e - start > 0
        · rw [if_pos hp, List.getElem?_take, List.getElem?_drop]
          by_cases hi : start + i < stop
          · rw [if_pos hi]
            split
            · rfl
            · exact (List.getElem?_eq_none (by omega)).symm
          · rw [if_neg hi, if_neg (by omega)]
        · rw [if_neg hp]
          by_cases hi : start + i < stop
          · omega
          · rw [if_neg hi]; rfl

example : substrGo (str "abcd") 1 9 = .ok (str "bcd") ∧ substrGo (str "abcd") 3 1 = .ok [] ∧
    substrGo (str "abcd") (-1) 2 = .ok [] := by decide +kernel

end Verif.Props
