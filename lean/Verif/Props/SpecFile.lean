import Verif.Proofs.SpecFile
import Verif.Proofs.Strings
import Verif.Model.Procedure

/-! Properties C26–C29: parsing spec files. -/

namespace Verif.Props

open Verif.Hre Verif.Hsl Verif.Spec.Strings

/-! ## C26 -/

/-- The rules of a section as `ParseSpec` returns them: numbered from 0, with the expressions of the
source. -/
def Reflects (rules : List Rule) (pairs : List Pair) : Prop :=
  rules.map (fun r => (r.id, r.pat.expr, r.to.expr)) = pairs.mapIdx (fun i p => (i, p.left, p.right.headD [])) ∧
  ∀ p ∈ pairs, p.right ≠ []

private theorem reflects {o : Nat → Side → List (Bytes × Bytes) → List (Bytes × Bytes)}
    {macros : List (Bytes × Bytes)} {vars : List (Bytes × List Bytes)} {ps : List Pair} {rules : List Rule}
    (h : newRulesLoop o macros vars 0 ps = .ok rules) : Reflects rules ps := by
  obtain ⟨hlen, h⟩ := newRulesLoop_spec h
  refine ⟨?_, ?_⟩
  · apply List.ext_getElem (by simp [hlen])
    intro j hj hj'
    simp only [List.length_map] at hj
    obtain ⟨h1, h2, r0, rest, h3, h4⟩ := h j (by omega) hj
    simp only [List.getElem_map, List.getElem_mapIdx, Prod.mk.injEq]
    refine ⟨by omega, newPattern_expr h2, ?_⟩
    rw [h4, h3]; rfl
  · intro p hp
    obtain ⟨j, hj, rfl⟩ := List.mem_iff_getElem.1 hp
    obtain ⟨_, _, r0, rest, h3, _⟩ := h j hj (by omega)
    rw [h3]; simp

/-- C26: what a parsed spec says about its source. -/
theorem C26_spec_reflects_source {o : Ord} {src : Bytes} {sp : Spec} (h : parseSpec o src = .ok sp) :
    ∃ d, Hsl.parse src = .ok d ∧
      Reflects sp.rewrite (sectionPairs d (str "rewrite")) ∧
      Reflects sp.transcribe (sectionPairs d (str "transcribe")) ∧
      sp.test = (sectionPairs d (str "test")).map (fun p => (p.left, p.right.headD [])) ∧
      (∀ s, d.lookup (str "lang") = some s → s.kind = .dict ∧
        ∃ c1 c2, s.all (str "codes") = [c1, c2] ∧ sp.lang.codes = (c1, c2) ∧
          sp.lang.id = s.one (str "id") ∧ sp.lang.script = s.one (str "script") ∧
          sp.lang.translit = s.all (str "translit")) ∧
      (d.lookup (str "lang") = none → sp.lang.script = [] ∧ sp.lang.translit = []) ∧
      getScript sp.lang.script = some sp.script ∧ sp.source = src := by
  obtain ⟨d, hd, hlang, _, _, _, _, ⟨rp, hrp, hr⟩, ⟨tp, htp, ht⟩, htest, hsc, hsrc, _⟩ := parseSpec_fields h
  have hpairs : ∀ {name : Bytes} {ps : List Pair},
      fromSection d name .list [] (fun sec => .ok sec.pairs) = .ok ps → ps = sectionPairs d name := by
    intro name ps hps
    rcases fromSection_ok hps with ⟨h1, rfl⟩ | ⟨s, h1, _, h2⟩
    · simp [sectionPairs, h1]
    · simp only [Go.ok.injEq] at h2; simp [sectionPairs, h1, h2]
  refine ⟨d, hd, ?_, ?_, ?_, ?_, ?_, hsc, hsrc⟩
  · rw [← hpairs hrp]; exact reflects hr
  · rw [← hpairs htp]; exact reflects ht
  · rcases fromSection_ok htest with ⟨h1, h2⟩ | ⟨s, h1, _, h2⟩
    · simp [sectionPairs, h1, h2]
    · rw [(testPairs_spec h2).1]; simp [sectionPairs, h1]
  · intro s hs
    rcases fromSection_ok hlang with ⟨h1, _⟩ | ⟨s', h1, hk, h2⟩
    · rw [hs] at h1; simp at h1
    · rw [hs] at h1
      simp only [Option.some.injEq] at h1
      subst h1
      unfold newLanguage at h2
      split at h2
      · rename_i c0 c1 hc
        simp only [Go.ok.injEq] at h2
        rw [← h2]
        exact ⟨hk, c0, c1, hc, rfl, rfl, rfl, rfl⟩
      · simp at h2
  · intro hn
    rcases fromSection_ok hlang with ⟨_, h2⟩ | ⟨s', h1, _, _⟩
    · rw [h2]; exact ⟨rfl, rfl⟩
    · rw [hn] at h1; simp at h1

/-- The values written for a key of a section. -/
def written (d : Doc) (sect key : Bytes) : List Bytes :=
  (((sectionPairs d sect).find? fun p => p.left == key).map (·.right)).getD []

private theorem all_written {d : Doc} {sect : Bytes} {s : Section} (h : d.lookup sect = some s) (key : Bytes) :
    s.all key = written d sect key := by
  simp only [Section.all, Section.map, written, sectionPairs, h, Option.map_some, Option.getD_some]
  induction s.pairs with
  | nil => rfl
  | cons p ps ih =>
    simp only [List.map_cons, List.lookup_cons, List.find?_cons]
    by_cases hk : key = p.left
    · simp [hk]
    · have h1 : (key == p.left) = false := by simpa using hk
      have h2 : (p.left == key) = false := by simpa using Ne.symm hk
      rw [h1, h2]
      exact ih

/-- C26: every setting of a parsed spec is what its section says; without a section it is empty. -/
theorem C26_settings {o : Ord} {src : Bytes} {sp : Spec} (h : parseSpec o src = .ok sp) :
    ∃ d, Hsl.parse src = .ok d ∧
      sp.lang.id = (written d (str "lang") (str "id")).headD [] ∧
      sp.lang.english = (written d (str "lang") (str "english")).headD [] ∧
      sp.lang.korean = (written d (str "lang") (str "korean")).headD [] ∧
      sp.lang.script = (written d (str "lang") (str "script")).headD [] ∧
      sp.lang.translit = written d (str "lang") (str "translit") ∧
      sp.config.authors = written d (str "config") (str "authors") ∧
      sp.config.stage = (written d (str "config") (str "stage")).headD [] ∧
      (sectionPairs d (str "macros")).map (fun p => (p.left, p.right)) = sp.macros.map (fun m => (m.1, [m.2])) ∧
      sp.vars = (sectionPairs d (str "vars")).map (fun p => (p.left, p.right)) ∧
      sp.normalize = (sectionPairs d (str "normalize")).map (fun p => (p.left, p.right)) := by
  obtain ⟨d, hd, hlang, hconf, hmac, hvars, hnorm, _⟩ := parseSpec_fields h
  have hmap : ∀ {name : Bytes} {m : List (Bytes × List Bytes)},
      fromSection d name .dict [] (fun sec => .ok sec.map) = .ok m →
        m = (sectionPairs d name).map (fun p => (p.left, p.right)) := by
    intro name m hm
    rcases fromSection_ok hm with ⟨h1, rfl⟩ | ⟨s, h1, _, h2⟩
    · simp [sectionPairs, h1]
    · simp only [Go.ok.injEq] at h2; simp [sectionPairs, h1, ← h2, Section.map]
  have hnone : ∀ {sect : Bytes} (key : Bytes), d.lookup sect = none → written d sect key = [] := by
    intro sect key hn; simp [written, sectionPairs, hn]
  have L : sp.lang.id = (written d (str "lang") (str "id")).headD [] ∧
      sp.lang.english = (written d (str "lang") (str "english")).headD [] ∧
      sp.lang.korean = (written d (str "lang") (str "korean")).headD [] ∧
      sp.lang.script = (written d (str "lang") (str "script")).headD [] ∧
      sp.lang.translit = written d (str "lang") (str "translit") := by
    rcases fromSection_ok hlang with ⟨h1, h2⟩ | ⟨s, h1, _, h2⟩
    · simp [h2, hnone _ h1]
    · unfold newLanguage at h2
      split at h2
      · simp only [Go.ok.injEq] at h2
        simp [← h2, Section.one, all_written h1]
      · simp at h2
  have C : sp.config.authors = written d (str "config") (str "authors") ∧
      sp.config.stage = (written d (str "config") (str "stage")).headD [] := by
    rcases fromSection_ok hconf with ⟨h1, h2⟩ | ⟨s, h1, _, h2⟩
    · simp [h2, hnone _ h1]
    · simp only [Go.ok.injEq] at h2
      simp [← h2, newConfig, Section.one, all_written h1]
  refine ⟨d, hd, L.1, L.2.1, L.2.2.1, L.2.2.2.1, L.2.2.2.2, C.1, C.2, ?_, hmap hvars, hmap hnorm⟩
  rcases fromSection_ok hmac with ⟨h1, h2⟩ | ⟨s, h1, _, h2⟩
  · simp [h2, sectionPairs, h1]
  · split at h2
    · rename_i m hm
      simp only [Go.ok.injEq] at h2
      subst h2
      unfold Section.injective at hm
      split at hm
      · rename_i hall
        simp only [Option.some.injEq] at hm
        rw [← hm]
        simp only [sectionPairs, h1, Option.map_some, Option.getD_some, List.map_map]
        apply List.map_congr_left
        intro p hp
        simp only [List.all_eq_true, decide_eq_true_eq] at hall
        obtain ⟨x, hx⟩ := List.length_eq_one_iff.1 (hall p hp)
        simp [hx]
      · simp at hm
    · simp at h2

/-- The rules of a section are compiled with the given macros, in some order, and vars. -/
def Compiled (macros : List (Bytes × Bytes)) (vars : List (Bytes × List Bytes)) (rules : List Rule) : Prop :=
  ∀ r ∈ rules, ∃ ms ms', ms.Perm macros ∧ ms'.Perm macros ∧ newPattern r.pat.expr ms vars = .ok r.pat ∧
    newRPattern r.to.expr ms' vars = r.to

private theorem compiled {o : Nat → Side → List (Bytes × Bytes) → List (Bytes × Bytes)} (ho : ∀ i d l, (o i d l).Perm l)
    {macros : List (Bytes × Bytes)} {vars : List (Bytes × List Bytes)} {ps : List Pair} {rules : List Rule}
    (h : newRulesLoop o macros vars 0 ps = .ok rules) : Compiled macros vars rules := by
  obtain ⟨hlen, h⟩ := newRulesLoop_spec h
  intro r hr
  obtain ⟨j, hj, rfl⟩ := List.getElem_of_mem hr
  obtain ⟨_, h1, r0, _, _, h2⟩ := h j (hlen ▸ hj) hj
  refine ⟨o (0 + j) .left macros, o (0 + j) .right macros, ho _ _ _, ho _ _ _, ?_, ?_⟩
  · rw [newPattern_expr h1]; exact h1
  · rw [h2]; rfl

/-- C26: each rule is compiled from its expressions with the macros and vars of the spec. -/
theorem C26_compiled {o : Ord} (ho : o.Ok) {src : Bytes} {sp : Spec} (h : parseSpec o src = .ok sp) :
    Compiled sp.macros sp.vars (sp.rewrite ++ sp.transcribe) := by
  obtain ⟨_, _, _, _, _, _, _, ⟨_, _, h1⟩, ⟨_, _, h2⟩, _⟩ := parseSpec_fields h
  intro r hr
  rcases List.mem_append.1 hr with hr | hr
  · exact compiled (fun i d l => ho.1 _ i d l) h1 r hr
  · exact compiled (fun i d l => ho.1 _ i d l) h2 r hr

/-- C26: a `lang` section without exactly two codes is rejected with an error. -/
theorem C26_codes {o : Ord} {src : Bytes} {d : Doc} {s : Section} (hd : Hsl.parse src = .ok d)
    (hs : d.lookup (str "lang") = some s) (hk : s.kind = .dict) (hc : (s.all (str "codes")).length ≠ 2) :
    parseSpec o src = .err .invalidSpec := by
  have hl : newLanguage s = .err .invalidSpec := by
    unfold newLanguage
    split
    · rename_i h; rw [h] at hc; simp at hc
    · rfl
  unfold parseSpec
  simp [hd, fromSection, assertKind, hs, hk, hl, Go.bind]

/-- C26: an unknown script is rejected. -/
theorem C26_script {o : Ord} {src : Bytes} {d : Doc} {s : Section} (hd : Hsl.parse src = .ok d)
    (hs : d.lookup (str "lang") = some s) (hc : getScript (s.one (str "script")) = none) (sp : Spec) :
    parseSpec o src ≠ .ok sp := by
  intro h
  obtain ⟨d', hd', _, _, _, hl, _, hsc, _⟩ := C26_spec_reflects_source h
  rw [hd] at hd'
  simp only [Go.ok.injEq] at hd'
  subst hd'
  obtain ⟨_, c1, c2, _, _, _, h2, _⟩ := hl s hs
  rw [h2, hc] at hsc
  simp at hsc

/-- A spec with settings. -/
def settings : Bytes :=
  str "lang:\n\tid = \"x\"\n\tcodes = \"xx\", \"xxx\"\n\tenglish = \"Xish\"\n\tkorean = \"엑스어\"\n\tscript = \"Latn\"\nconfig:\n\tauthors = \"A\", \"B\"\n\tstage = \"draft\"\nmacros:\n\t\"@\" = \"<v>\"\nvars:\n\t\"v\" = \"a\", \"e\"\n"

example : (parseSpec Ord.written settings).bind (fun sp => .ok ([sp.lang.english, sp.lang.korean, sp.config.stage],
      sp.config.authors)) = .ok ([str "Xish", str "엑스어", str "draft"], [str "A", str "B"]) := by
  decide +kernel

example : (parseSpec Ord.written settings).bind (fun sp => .ok (sp.macros, sp.vars))
    = .ok ([(str "@", str "<v>")], [(str "v", [str "a", str "e"])]) := by
  decide +kernel

/-- Both rules see the macros and the vars. -/
example : (parseSpec Ord.written (str "macros: \"@\" = \"<v>\"\nvars: \"v\" = \"a\", \"e\"\nrewrite:\n\"@x\" -> \"@\"\n\"<v>\" -> \"y\"")).bind
    (fun sp => .ok (sp.rewrite.map fun r => (r.pat.usedVars.length, r.to.parts.length))) = .ok [(1, 1), (1, 1)] := by
  decide +kernel

/-- A spec with two rules. -/
def twoRules : Bytes :=
  str "lang:\n\tcodes = \"xx\", \"xxx\"\n\tscript = \"Latn\"\nrewrite:\n\t\"a\" -> \"b\"\n\t\"c\" -> \"d\"\n"

example : (parseSpec Ord.written twoRules).bind (fun sp => .ok (sp.rewrite.map fun r => (r.id, r.pat.expr, r.to.expr)))
    = .ok [(0, str "a", str "b"), (1, str "c", str "d")] := by decide +kernel

example : (parseSpec Ord.written (str "lang: script = \"Arab\"\ncodes = a, b")).bind (fun _ => .ok ())
      = .err .invalidSpec ∧
    (parseSpec Ord.written (str "lang: script = \"Latn\"\ncodes = a")).bind (fun _ => .ok ())
      = .err .invalidSpec := by decide +kernel

/-! ## C27 -/

/-- C27 (partial): the first letter of every target of the normalize section is exempt from per-script
normalization; so are single-letter targets as a whole.  Missing: the other letters of longer targets, for
which it is false (`C27_letters_refuted`). -/
theorem C27_letters_partial {o : Ord} {src : Bytes} {sp : Spec} (h : parseSpec o src = .ok sp)
    (to : Bytes) (froms : List Bytes) (hm : (to, froms) ∈ sp.normalize) :
    (∀ c, (runes to).head? = some c → normalizeRune sp c = c) ∧
    ((runes to).length = 1 → normalizeScript sp to = encode (runes to)) := by
  obtain ⟨_, _, _, _, _, _, _, _, _, _, _, _, _, _, hl⟩ := parseSpec_fields h
  have key : ∀ c, (runes to).head? = some c → normalizeRune sp c = c := by
    intro c hc
    have : c ∈ sp.normLetters := by
      rw [hl]
      refine List.mem_flatMap.2 ⟨_, hm, ?_⟩
      cases to with
      | nil => simp [runes_nil] at hc
      | cons b t =>
        rw [runes_cons] at hc
        simp only [List.head?_cons, Option.some.injEq] at hc
        simp [lettersOf, hc]
    simp [normalizeRune, this]
  refine ⟨key, fun h1 => ?_⟩
  obtain ⟨c, hc⟩ := List.length_eq_one_iff.1 h1
  rw [normalizeScript, hc]
  simp only [List.map_cons, List.map_nil]
  rw [key c (by rw [hc]; rfl)]

/-- C27 fails for the second letter of a target: in `"dž" = "x"` the `ž` is normalized to `z`. -/
theorem C27_letters_refuted : ∃ sp, parseSpec Ord.written (str "normalize: \"dž\" = \"x\"") = .ok sp ∧
    (str "dž", [str "x"]) ∈ sp.normalize ∧ normalizeScript sp (normalizeSpec sp (str "x")) = str "dz" := by
  have h : ((parseSpec Ord.written (str "normalize: \"dž\" = \"x\"")).bind fun sp =>
      .ok (sp.normalize, normalizeScript sp (normalizeSpec sp (str "x"))))
      = .ok ([(str "dž", [str "x"])], str "dz") := by decide +kernel
  rw [Rx.go_bind_ok] at h
  obtain ⟨sp, h1, h2⟩ := h
  simp only [Go.ok.injEq, Prod.mk.injEq] at h2
  exact ⟨sp, h1, by rw [h2.1]; simp, h2.2⟩

/-- A target `ä` is kept, another `ö` is not. -/
example : ((parseSpec Ord.written (str "normalize: \"ä\" = \"ae\"")).bind fun sp =>
    .ok (normalizeScript sp (normalizeSpec sp (str "Aeaeö")))) = .ok (str "aeäo") := by decide +kernel

/-! ## C28 -/

/-- C28 (partial): if no source letter of the normalize section is a prefix of another one, the iteration
order of the map does not matter.  Missing: other sections, for which it is false
(`C28_order_refuted`). -/
theorem C28_order_partial {o o' : Ord} (ho : o.Ok) (ho' : o'.Ok) {src : Bytes} {sp sp' : Spec}
    (h : parseSpec o src = .ok sp) (h' : parseSpec o' src = .ok sp')
    (hf : PrefixFree (normArgs sp.normalize)) (word : Bytes) (tr : Tracer) :
    normalizeStep sp word tr = normalizeStep sp' word tr := by
  obtain ⟨d, hd, l1, _, _, _, n1, _, _, _, s1, _, _, p1, r1⟩ := parseSpec_fields h
  obtain ⟨d', hd', l2, _, _, _, n2, _, _, _, s2, _, _, p2, r2⟩ := parseSpec_fields h'
  rw [hd] at hd'
  simp only [Go.ok.injEq] at hd'
  subst hd'
  rw [l1] at l2
  rw [n1] at n2
  simp only [Go.ok.injEq] at l2 n2
  rw [← l2, s1] at s2
  simp only [Option.some.injEq] at s2
  rw [← n2] at r2 p2
  have e1 : normalizeSpec sp word = normalizeSpec sp' word := by
    rw [normalizeSpec, normalizeSpec, p1, p2]
    rw [← replacePairs_perm (normArgs_perm (ho.2 sp.normalize)).symm hf,
      ← replacePairs_perm (normArgs_perm (ho'.2 sp.normalize)).symm hf]
  have e2 : ∀ w, normalizeScript sp w = normalizeScript sp' w := by
    intro w
    have : normalizeRune sp = normalizeRune sp' := by
      funext c
      simp only [normalizeRune, r1, r2, s2]
    rw [normalizeScript, normalizeScript, this]
  simp only [normalizeStep, e1, e2, l2]

/-- C28 fails if a source letter is a prefix of another one. -/
theorem C28_order_refuted : ∃ (o o' : Ord) (src : Bytes) (sp sp' : Spec), o.Ok ∧ o'.Ok ∧
    parseSpec o src = .ok sp ∧ parseSpec o' src = .ok sp' ∧
    normalizeSpec sp (str "ae") ≠ normalizeSpec sp' (str "ae") := by
  have h : ((parseSpec Ord.written (str "normalize:\nx = a\ny = ae")).bind fun sp =>
      .ok (normalizeSpec sp (str "ae"))) = .ok (str "xe") := by decide +kernel
  have h' : ((parseSpec ⟨fun _ _ _ l => l, List.reverse⟩ (str "normalize:\nx = a\ny = ae")).bind fun sp =>
      .ok (normalizeSpec sp (str "ae"))) = .ok (str "y") := by decide +kernel
  rw [Rx.go_bind_ok] at h h'
  obtain ⟨sp, h1, h2⟩ := h
  obtain ⟨sp', h1', h2'⟩ := h'
  refine ⟨_, _, _, sp, sp', ⟨fun _ _ _ _ => .refl _, fun _ => .refl _⟩,
    ⟨fun _ _ _ _ => .refl _, fun l => l.reverse_perm⟩, h1, h1', ?_⟩
  simp only [Go.ok.injEq] at h2 h2'
  rw [h2, h2']
  decide +kernel

example : PrefixFree (normArgs [(str "x", [str "a", str "b"]), (str "y", [str "ce"])]) := by
  unfold PrefixFree normArgs; decide +kernel

/-! ## C29 -/

/-- C29: the punctuation set of a spec.  What a pattern mentions is what `Letters` returns. -/
theorem C29_puncts_partial {o : Ord} {src : Bytes} {sp : Spec} (h : parseSpec o src = .ok sp) (c : Rune) :
    c ∈ sp.puncts ↔ Unicode.isPunct c = true ∧
      ((∃ a r b, sp.rewrite = a ++ r :: b ∧ c ∈ r.pat.letters ∧ c ∉ r.to.letters ∧
          ∀ q ∈ a, c ∉ q.to.letters) ∨
       ((∃ r ∈ sp.transcribe, c ∈ r.pat.letters) ∧ ∀ q ∈ sp.rewrite, c ∉ q.to.letters)) := by
  obtain ⟨_, _, _, _, _, _, _, _, _, _, _, _, hp, _⟩ := parseSpec_fields h
  rw [hp]
  exact collectPuncts_mem c _ _

/-- C29 fails for characters which are operators outside of classes: `[.]` matches a full stop, but
`Letters` leaves it out, so that it does not get known to the partition
step. -/
theorem C29_class_refuted : ∃ sp r, parseSpec Ord.written (str "transcribe: \"[.]\" -> \"x\"") = .ok sp ∧
    sp.transcribe = [r] ∧ r.replacements (str ".") = .ok [⟨0, 1, str "x"⟩] ∧ 0x2E ∉ sp.puncts := by
  have h : ((parseSpec Ord.written (str "transcribe: \"[.]\" -> \"x\"")).bind fun sp =>
      .ok (sp.transcribe.length, sp.transcribe.map fun r => r.replacements (str "."), sp.puncts.contains 0x2E))
      = .ok (1, [.ok [⟨0, 1, str "x"⟩]], false) := by decide +kernel
  rw [Rx.go_bind_ok] at h
  obtain ⟨sp, h1, h2⟩ := h
  simp only [Go.ok.injEq, Prod.mk.injEq] at h2
  obtain ⟨hl, hr, hp⟩ := h2
  obtain ⟨r, hr'⟩ := List.length_eq_one_iff.1 hl
  rw [hr'] at hr
  simp only [List.map_cons, List.map_nil, List.cons.injEq, and_true] at hr
  exact ⟨sp, r, h1, hr', hr, by simpa using hp⟩

/-- The apostrophe of the first rule is punctuation, the comma is a hint, the semicolon comes first. -/
example : ((parseSpec Ord.written (str "rewrite:\n\"'\" -> \"\"\n\";\" -> \",\"\n\",\" -> \";\"")).bind fun sp =>
    .ok sp.puncts) = .ok [0x27, 0x3B] := by decide +kernel

end Verif.Props
