import Verif.Proofs.Search
import Verif.Props.Site

/-! # Property C90: searching for a language by its name -/

namespace Verif.Props

open Verif.Js Verif.Search Verif.Spec.Search Verif.Spec.Site
open Verif.Address (lit)

theorem lower_prefix {a b : Str} (h : a <+: b) : a.map lower <+: b.map lower := h.map lower

theorem searched {engine : List Opt → Str → List Opt} (hf : Finds engine) {specs : List Lang} {es : List Event} {s : Select}
    (h : (Select.init specs).steps es = some s) (hr : Ready s) {l : Lang} (hl : l ∈ s.specs) {query : Str} (hq : disassemble query ≠ [])
    (hk : (disassemble query).map lower <+: (disassemble l.korean).map lower ∨
      (disassemble query).map lower <+: ((grouped l.korean).filterMap List.head?).map lower ∨
      ∃ f ∈ [l.code2, l.code3, l.english], (disassemble query).map lower <+: f.map lower) :
    ∃ o ∈ s.search engine query, o.value = l.id ∧ o.text = l.korean := by
  have e := Search.ready h hr
  simp only [Select.search, e]
  refine ⟨{ key := l.id, value := l.id, flag := Site.flags.lookup l.id, text := l.korean, search := ⟨l.code2, l.code3, l.english,
    l.korean, disassemble l.korean, (grouped l.korean).filterMap List.head?⟩ }, hf _ _ _ hq ?_ ?_, rfl, rfl⟩
  · exact List.mem_map.2 ⟨l, (List.mem_mergeSort).2 hl, rfl⟩
  · rcases hk with hk | hk | ⟨f, hf, hk⟩
    · exact ⟨_, by simp [Opt.keys], hk⟩
    · exact ⟨_, by simp [Opt.keys], hk⟩
    · exact ⟨f, by simp only [Opt.keys]; simp only [List.mem_cons, List.not_mem_nil, or_false] at hf ⊢; tauto, hk⟩

/-- C90: while the Korean name of a language is typed, the list has it after each key, whatever syllables have been composed. -/
theorem C90_typed {engine : List Opt → Str → List Opt} (hf : Finds engine) {specs : List Lang} {es : List Event} {s : Select}
    (h : (Select.init specs).steps es = some s) (hr : Ready s) {l : Lang} (hl : l ∈ s.specs) {joins : Bool} {keys : List Key}
    (hk : ∀ k ∈ keys, k.Real) (hn : composed joins keys = l.korean) {p : List Key} (hp : p <+: keys) (ne : p ≠ []) :
    ∃ o ∈ s.search engine (composed joins p), o.value = l.id ∧ o.text = l.korean := by
  have e := letters_composed joins (keys := p) fun k hk' => hk k (hp.subset hk')
  refine searched hf h hr hl (by rw [e]; simpa using ne) (.inl (lower_prefix ?_))
  rw [e, ← hn, letters_composed joins hk]
  exact hp.map _

/-- C90: so it has for its first syllables. -/
theorem C90_name {engine : List Opt → Str → List Opt} (hf : Finds engine) {specs : List Lang} {es : List Event} {s : Select}
    (h : (Select.init specs).steps es = some s) (hr : Ready s) {l : Lang} (hl : l ∈ s.specs) (hn : Written l.korean) {p : Str}
    (hp : p <+: l.korean) (ne : p ≠ []) : ∃ o ∈ s.search engine p, o.value = l.id ∧ o.text = l.korean := by
  obtain ⟨q, hq⟩ := hp
  have hw : Written p := fun u hu => hn u (hq ▸ List.mem_append_left _ hu)
  obtain ⟨keys, k1, k2⟩ := name_composed true hw
  refine searched hf h hr hl ?_ (.inl (lower_prefix ?_))
  · rw [← k2, letters_composed true k1]
    rintro e
    have : keys = [] := by simpa using e
    subst this
    exact ne (k2 ▸ rfl)
  · rw [← hq, disassemble_append]
    exact List.prefix_append _ _

/-- C90: and so it has while the initial consonants of the syllables are typed, even if the input method joins some of them. -/
theorem C90_initials {engine : List Opt → Str → List Opt} (hf : Finds engine) {specs : List Lang} {es : List Event} {s : Select}
    (h : (Select.init specs).steps es = some s) (hr : Ready s) {l : Lang} (hl : l ∈ s.specs) (hn : Written l.korean) (joins : Bool) {p : Str}
    (hp : p <+: l.korean) (ne : p ≠ []) : ∃ o ∈ s.search engine (composed joins (p.map initial)), o.value = l.id ∧ o.text = l.korean := by
  have e := letters_composed joins (keys := p.map initial) fun k hk => by
    obtain ⟨u, hu, rfl⟩ := List.mem_map.1 hk
    exact initial_real hn u (hp.subset hu)
  refine searched hf h hr hl (by rw [e]; simpa using ne) (.inr (.inl (lower_prefix ?_)))
  rw [e, initials hn, List.map_map]
  exact hp.map _

/-- C90: other text is searched as it is, in the codes and the English name, in capital or small letters. -/
theorem C90_english {engine : List Opt → Str → List Opt} (hf : Finds engine) {specs : List Lang} {es : List Event} {s : Select}
    (h : (Select.init specs).steps es = some s) (hr : Ready s) {l : Lang} (hl : l ∈ s.specs) {p : Str} (hw : ∀ u ∈ p, unhangul u) (ne : p ≠ [])
    (hp : ∃ f ∈ [l.code2, l.code3, l.english], p.map lower <+: f.map lower) :
    ∃ o ∈ s.search engine p, o.value = l.id ∧ o.text = l.korean := by
  have e : disassemble p = p := by
    clear ne hp
    induction p with
    | nil => rfl
    | cons u p ih =>
      have := ih fun u hu => hw u (by simp [hu])
      rw [show u :: p = [u] ++ p from rfl, disassemble_append, this, disassemble_one, letters_plain (hw u (by simp))]
  exact searched hf h hr hl (by rwa [e]) (.inr (.inr (by rwa [e])))

/-- C90: every name of syllables and other text can be typed. -/
theorem C90_keys (joins : Bool) {name : Str} (hn : Written name) : ∃ keys, (∀ k ∈ keys, k.Real) ∧ composed joins keys = name :=
  name_composed joins hn

/-- C90: the names of the bundled languages are such names. -/
theorem C90_bundled {specs : List Lang} (h : Listing (specs.map fun l => (l.id, l.korean))) : ∀ l ∈ specs, Written l.korean := by
  intro l hl
  have hm := (listing_koreans h).subset (List.mem_map.2 ⟨l, hl, rfl⟩)
  obtain ⟨x, hx, e⟩ := List.mem_map.1 hm
  have key : ∀ x ∈ koreans, ∀ u ∈ decodeText x.2, 0xAC00 ≤ u ∧ u ≤ 0xD7A3 ∨
      (¬ (0x3131 ≤ u ∧ u ≤ 0x3163) ∧ ¬ (0xAC00 ≤ u ∧ u ≤ 0xD7A3)) := by decide +kernel
  have : decodeText x.2 = l.korean := congrArg Prod.snd e
  exact this ▸ key x hx

/-- The list can be ready: after the first rendering, its effects, another rendering and its effects. -/
theorem C90_ready (specs : List Lang) : ∃ s, (Select.init specs).steps [.effects, .render specs, .effects] = some s ∧ Ready s ∧ s.specs = specs :=
  ⟨_, rfl, ⟨rfl, rfl⟩, rfl⟩

/-- What the search of the examples finds. -/
def plainly (opts : List Opt) (query : Str) : List Opt := opts.filter fun o => o.keys.any fun f => (query.map lower).isPrefixOf (f.map lower)

/-- The hypotheses of C90 are met, for instance by Italian: with the keys ㅇㅣㅌㅏㄹㄹ the text is 이탈ㄹ; the keys ㄱㅅ without a vowel
are joined to ㄳ. -/
example : Finds plainly ∧ ∃ s, (Select.init [⟨lit "ita", lit "it", lit "ita", lit "Italian", lit "이탈리아어"⟩]).steps
      [.effects, .render [⟨lit "ita", lit "it", lit "ita", lit "Italian", lit "이탈리아어"⟩], .effects] = some s ∧ Ready s ∧
    composed true [.consonant 11, .vowel 20, .consonant 16, .vowel 0, .consonant 5, .consonant 5] = lit "이탈ㄹ" ∧
    composed true [.consonant 11, .vowel 20, .consonant 16, .vowel 0, .consonant 5, .consonant 5, .vowel 20, .consonant 11, .vowel 0,
      .consonant 11, .vowel 4] = lit "이탈리아어" ∧
    composed true ((lit "이탈리아어").map initial) = lit "ㅇㅌㄹㅇㅇ" ∧ composed true [.consonant 0, .consonant 9, .vowel 0] = lit "ㄱ사" ∧
    composed true [.consonant 0, .consonant 9] = lit "ㄳ" ∧
    (s.search plainly (lit "이탈ㄹ")).map (·.value) = [lit "ita"] ∧ (s.search plainly (lit "ㅇㅌ")).map (·.value) = [lit "ita"] ∧
    (s.search plainly (lit "ITAL")).map (·.value) = [lit "ita"] ∧ s.search plainly (lit "일") = [] := by
  refine ⟨?_, _, rfl, ⟨rfl, rfl⟩, by decide +kernel, by decide +kernel, by decide +kernel, by decide +kernel, by decide +kernel,
    by decide +kernel, by decide +kernel, by decide +kernel, by decide +kernel⟩
  intro opts query o _ ho hk
  obtain ⟨f, hf, hp⟩ := hk
  simp only [plainly, List.mem_filter, List.any_eq_true]
  exact ⟨ho, f, hf, List.isPrefixOf_iff_prefix.2 hp⟩

end Verif.Props
