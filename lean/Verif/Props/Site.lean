import Verif.Proofs.Site
import Verif.Props.App

/-! # Properties C84 and C85: the examples, the prompt and the list of languages of the page -/

namespace Verif.Props

open Verif.Js Verif.App Verif.Site Verif.Spec.App Verif.Spec.Site Verif.Spec.Wasm Verif.Spec.Bundle Verif.Spec.Translit Verif.Specs
open Verif.Address (lit)
open Verif.Hook (Input)

/-! ## The examples of the bundled specs -/

theorem fair_word {w : Bytes} (h : fair w = true) : (∃ rs, Spells (decodeText w) rs) ∧ Address.Clean (decodeText w) ∧
    (∀ u, (decodeText w).getLast? = some u → 0x20 < u) ∧ (∃ u ∈ decodeText w, white u = false) ∧ encodeText (decodeText w) = w ∧
    (runes w).head? ≠ some 0xFEFF := by
  simp only [fair, Bool.and_eq_true, decide_eq_true_eq, List.all_eq_true, List.any_eq_true, Bool.not_eq_true', valid, beq_iff_eq] at h
  obtain ⟨⟨⟨⟨h1, h2⟩, h3⟩, h4⟩, h5⟩ := h
  have hv : ValidUtf8 w := h1 ▸ encode_validUtf8 _
  obtain ⟨u, e, hs⟩ := C69_to_js_partial hv h2
  cases e
  refine ⟨⟨_, hs⟩, h3, ?_, h5, C69_back_partial hv h2, h2⟩
  intro u hu
  rw [hu] at h4
  simpa using h4

theorem loaded_test {lang src : Bytes} (h : bundled lang = some src) {o : Ord} (ho : o.Ok) {sp : Spec} (hp : parseSpec o src = .ok sp) :
    sp.test ≠ [] ∧ ∀ e ∈ sp.test, fair e.1 = true := by
  obtain ⟨l, _, hs⟩ := bundled_sound h
  obtain ⟨sp', h1, h2⟩ := hs o ho
  rw [hp] at h1
  cases h1
  obtain ⟨_, _, _, _, _, _, _, _, _, _, _, _, h3, h4⟩ := h2
  exact ⟨h4, h3⟩

theorem languages_clean : ∀ l ∈ listLangs entries, Address.Clean (decodeText l) := by
  have h : ∀ x ∈ table, ∀ u ∈ decodeText x.1, u ∉ [0x09, 0x0A, 0x0D, 0x23, 0x25, 0x26, 0x2B] := by decide +kernel
  intro l hl
  rw [C65_listed, Option.isSome_iff_exists] at hl
  obtain ⟨src, hl⟩ := hl
  obtain ⟨la, hm, _⟩ := bundled_sound hl
  exact h _ hm

/-- The examples of a bundled language. -/
theorem tests_listed {tests : Str → List Str} (ht : Describes tests) {lang : Bytes} (hl : lang ∈ listLangs entries) :
    tests (decodeText lang) ≠ [] ∧ ∀ w ∈ tests (decodeText lang), ∃ src o sp e, bundled lang = some src ∧ Ord.Ok o ∧
      parseSpec o src = .ok sp ∧ e ∈ sp.test ∧ w = decodeText e.1 ∧ fair e.1 = true := by
  obtain ⟨src, o, sp, h1, h2, h3, h4⟩ := ht.1 lang hl
  have hx := loaded_test h1 h2 h3
  refine ⟨by simp [h4, hx.1], ?_⟩
  intro w hw
  rw [h4] at hw
  obtain ⟨e, he, rfl⟩ := List.mem_map.1 hw
  exact ⟨src, o, sp, e, h1, h2, h3, he, rfl, hx.2 e he⟩

theorem fine {tests : Str → List Str} (ht : Describes tests) : Fine languages tests := by
  constructor
  · intro l hl
    obtain ⟨x, hx, rfl⟩ := List.mem_map.1 hl
    obtain ⟨h1, rs, h2⟩ := languages_fine x hx
    exact ⟨h1, Address.spells_units_lt h2⟩
  · intro l w hw
    by_cases hl : l ∈ languages
    · obtain ⟨x, hx, rfl⟩ := List.mem_map.1 hl
      obtain ⟨_, _, _, e, _, _, _, _, rfl, hf⟩ := (tests_listed ht hx).2 w hw
      obtain ⟨⟨rs, h⟩, _⟩ := fair_word hf
      exact Address.spells_units_lt h
    · rw [ht.2 l hl] at hw
      cases hw

theorem known_listed {lang : Bytes} (hl : lang ∈ listLangs entries) : App.known languages (decodeText lang) = true := by
  simp only [known, Bool.or_eq_true, decide_eq_true_eq]
  exact .inl (List.mem_map_of_mem hl)

/-! ## C84 -/

/-- C84: whatever happened before, once the examples are rendered and their effect has run, the page shows up to five different
examples of its language, and their links are for this language. -/
theorem C84_examples {tests : Str → List Str} (ht : Describes tests) {search : Bytes} {random : Str} {es : List Site.Event}
    (he : ∀ e ∈ es, e.Strings) {s : Site} (h : (openSite languages search random).steps languages tests es = some s)
    (hb : s.app.broken = false) (hs : Still s.examples) :
    Drawn (tests s.app.lang) s.examples.words ∧ s.examples.lang = s.app.lang := by
  have hi := Site.Inv.steps (fine ht) es (Site.Inv.openSite (fine ht) search random) he h
  refine ⟨?_, hi.lang hb⟩
  rw [← hi.lang hb, hs.2]
  exact hi.drawn hb (hi.fresh hs.1)

/-- C84: from all states the effect and the rendering of the examples, at most three in all, lead to such a one. -/
theorem C84_settles {tests : Str → List Str} (ht : Describes tests) {search : Bytes} {random : Str} {es : List Site.Event}
    (he : ∀ e ∈ es, e.Strings) {s : Site} (h : (openSite languages search random).steps languages tests es = some s)
    (hb : s.app.broken = false) (rs : List Nat) : ∃ fs t, fs.length ≤ 3 ∧ (∀ f ∈ fs, f = .effect rs ∨ f = .render) ∧
      s.steps languages tests fs = some t ∧ Still t.examples ∧ t.app = s.app := by
  have hi := Site.Inv.steps (fine ht) es (Site.Inv.openSite (fine ht) search random) he h
  -- after the effect has run
  have key : ∀ x : Examples, x.due = false → x.prev = x.lang → ∃ t, Site.steps languages tests ⟨s.app, x⟩ [.render, .effect rs] = some t ∧
      Still t.examples ∧ t.app = s.app := by
    intro x hd hp
    refine ⟨⟨s.app, { x with words := x.next, due := false }⟩, ?_, ⟨rfl, rfl⟩, rfl⟩
    simp [Site.steps, Site.step, hb, hd, Examples.render, Examples.effect, hp]
  cases hd : s.examples.due with
  | false =>
    obtain ⟨t, h1, h2, h3⟩ := key s.examples hd (hi.fresh hd)
    exact ⟨[.render, .effect rs], t, by simp, by simp, h1, h2, h3⟩
  | true =>
    have hx : (s.examples.effect languages tests rs).due = false ∧
        (s.examples.effect languages tests rs).prev = (s.examples.effect languages tests rs).lang := by
      by_cases hp : s.examples.prev = s.examples.lang
      · rw [effect_old rs hp]
        exact ⟨rfl, hp⟩
      · rw [effect_new rs hp]
        exact ⟨rfl, (shuffle_same s.examples rs).1.symm⟩
    obtain ⟨t, h1, h2, h3⟩ := key _ hx.1 hx.2
    refine ⟨[.effect rs, .render, .effect rs], t, by simp, by simp, ?_, h2, h3⟩
    rw [Site.steps, show s.step languages tests (.effect rs) = some ⟨s.app, s.examples.effect languages tests rs⟩ by
      simp [Site.step, hb, hd]]
    exact h1

/-- What `C84_steady` keeps. -/
def Calm (s : Site) (ws : List Str) : Prop :=
  s.examples.words = ws ∧ s.examples.next = ws ∧ s.examples.prev = s.examples.lang

/-- C84: the examples stay the same until the user asks for others, as long as the language does; renderings for other reasons, such
as new specs, a result or another word, do not change them. -/
theorem C84_steady {tests : Str → List Str} (ht : Describes tests) {search : Bytes} {random : Str} {es fs : List Site.Event}
    (he : ∀ e ∈ es ++ fs, e.Strings) {s t : Site} (h : (openSite languages search random).steps languages tests es = some s)
    (hs : Still s.examples) (hf : ∀ f ∈ fs, ∀ rs, f ≠ .shuffle rs) (h' : s.steps languages tests fs = some t)
    (hl : ∀ a b u, fs = a ++ b → s.steps languages tests a = some u → u.app.lang = s.app.lang) :
    t.examples.words = s.examples.words := by
  have hi := Site.Inv.steps (fine ht) es (Site.Inv.openSite (fine ht) search random) (fun e h => he e (by simp [h])) h
  suffices key : ∀ (fs : List Site.Event) (s t : Site) (ws : List Str), Site.Inv languages tests s → (∀ f ∈ fs, f.Strings) → Calm s ws →
      (∀ f ∈ fs, ∀ rs, f ≠ .shuffle rs) → s.steps languages tests fs = some t →
      (∀ a b u, fs = a ++ b → s.steps languages tests a = some u → u.app.lang = s.app.lang) → Calm t ws from
    (key fs s t _ hi (fun e h => he e (by simp [h])) ⟨rfl, hs.2.symm, hi.fresh hs.1⟩ hf h' hl).1
  intro fs
  induction fs with
  | nil => intro s t ws _ _ hc _ h' _; cases h'; exact hc
  | cons f fs ih =>
    intro s t ws hi he hc hf h' hl
    obtain ⟨u, h1, h2⟩ := Option.bind_eq_some_iff.1 h'
    have hlu : u.app.lang = s.app.lang := hl [f] fs u rfl (by simp [Site.steps, h1])
    refine ih u t ws (hi.step (fine ht) (he f (by simp)) h1) (fun e h => he e (by simp [h])) ?_ (fun f h => hf f (by simp [h])) h2 ?_
    · obtain ⟨hb, hcase⟩ := step_app (fine ht) hi (he f (by simp)) h1
      rcases hcase with ⟨_, ⟨rs, e, _⟩ | ⟨rs, _, e⟩ | ⟨_, _, e⟩⟩ | ⟨g, _, g1, g2⟩
      · exact absurd e (hf f (by simp) rs)
      · rw [effect_old rs hc.2.2] at e
        rw [Calm, e]
        exact hc
      · rw [Calm, e]
        exact ⟨hc.2.1, hc.2.1, hc.2.2⟩
      · rcases g2 with g2 | ⟨e, _⟩
        · simp only [Site.renders] at g2
          split at g2
          · cases g2
          · rw [g1, Option.map_some, Option.some.injEq] at g2
            rw [Calm, ← g2]
            refine ⟨hc.2.1, hc.2.1, ?_⟩
            change s.examples.prev = u.app.lang
            rw [hlu, ← hi.lang hb]
            exact hc.2.2
        · rw [Calm, e]
          exact hc
    · intro a b v e hv
      rw [hlu]
      exact hl (f :: a) b v (by rw [e]; rfl) (by simp [Site.steps, h1, hv])

/-- The page after the user has followed a link to an example. -/
theorem followed {tests : Str → List Str} (ht : Describes tests) {search : Bytes} {random : Str} {es : List Site.Event}
    (he : ∀ e ∈ es, e.Strings) {s : Site} (h : (openSite languages search random).steps languages tests es = some s)
    (hb : s.app.broken = false) (hs : Still s.examples) {lang : Bytes} (hl : lang ∈ listLangs entries) (hsl : s.app.lang = decodeText lang)
    {i : Nat} {w : Str} (hw : s.examples.words[i]? = some w) (r : Str) :
    ∃ s' src o sp e, s.step languages tests (.follow i r) = some s' ∧ bundled lang = some src ∧ Ord.Ok o ∧ parseSpec o src = .ok sp ∧
      e ∈ sp.test ∧ w = decodeText e.1 ∧ fair e.1 = true ∧ Fixed languages s'.app ⟨decodeText lang, w⟩ ∧
      (Address.openPage s'.app.page.search).lang = some (decodeText lang) ∧ (Address.openPage s'.app.page.search).word = w := by
  have hi := Site.Inv.steps (fine ht) es (Site.Inv.openSite (fine ht) search random) he h
  obtain ⟨hd, hx⟩ := C84_examples ht he h hb hs
  obtain ⟨src, o, sp, e, h1, h2, h3, h4, rfl, h5⟩ := (tests_listed ht hl).2 w (hsl ▸ Site.Drawn.mem hd (List.mem_of_getElem? hw))
  obtain ⟨hne, hsp⟩ := languages_fine lang hl
  obtain ⟨k1, k2, k3, _⟩ := fair_word h5
  obtain ⟨a, e1⟩ : ∃ a, s.app.step languages (.address (.click (decodeText lang) (decodeText e.1)) r) = some a := by
    simp [App.step, hb]
  obtain ⟨f1, f2⟩ := linked_fixed hi.page hsp k1 hne (languages_clean lang hl) k2 k3 (known_listed hl) e1
  refine ⟨⟨a, s.examples.render a.lang⟩, src, o, sp, e, ?_, h1, h2, h3, h4, rfl, h5, f1, f2⟩
  simp [Site.step, hw, Site.renders, hs.1, hx, hsl, e1]

/-- C84: the links of the examples which are shown for a bundled language lead to them: the page and the page opened anew at this address
have the language and the word of the example. -/
theorem C84_follow {tests : Str → List Str} (ht : Describes tests) {search : Bytes} {random : Str} {es : List Site.Event}
    (he : ∀ e ∈ es, e.Strings) {s : Site} (h : (openSite languages search random).steps languages tests es = some s)
    (hb : s.app.broken = false) (hs : Still s.examples) {lang : Bytes} (hl : lang ∈ listLangs entries) (hsl : s.app.lang = decodeText lang)
    {i : Nat} {w : Str} (hw : s.examples.words[i]? = some w) (r : Str) :
    ∃ s' src o sp e, s.step languages tests (.follow i r) = some s' ∧ bundled lang = some src ∧ Ord.Ok o ∧ parseSpec o src = .ok sp ∧
      e ∈ sp.test ∧ w = decodeText e.1 ∧ s'.app.broken = false ∧ s'.app.current = ⟨decodeText lang, decodeText e.1⟩ ∧
      (Address.openPage s'.app.page.search).lang = some (decodeText lang) ∧ (Address.openPage s'.app.page.search).word = w := by
  obtain ⟨s', src, o, sp, e, h1, h2, h3, h4, h5, h6, h7, h8, h9⟩ := followed ht he h hb hs hl hsl hw r
  exact ⟨s', src, o, sp, e, h1, h2, h3, h4, h5, h6, h8.ok, by rw [h8.current, h6], h9⟩

/-- An event which is not of the user leaves the page at its language and word. -/
theorem quiet_step {tests : Str → List Str} {s s' : Site} {x : Input} (hk : App.known languages x.lang = true)
    (hx : Fixed languages s.app x) {e : Site.Event} (hq : Spec.Site.Quiet e) (hs : s.step languages tests e = some s') : Fixed languages s'.app x := by
  have rend : ∀ f : App.Event, (Automatic f ∨ ∃ random, f = .hook .specs random) → s.renders (s.app.step languages f) = some s' →
      Fixed languages s'.app x := by
    intro f hf hr
    simp only [Site.renders] at hr
    split at hr
    · cases hr
    · obtain ⟨b, h1, rfl⟩ := Option.map_eq_some_iff.1 hr
      exact (hx.step hk hf h1).1
  cases e with
  | type | select | follow | goto => exact hq.elim
  | shuffle rs =>
    simp only [Site.step, hx.ok] at hs
    cases hs
    exact hx
  | effect rs =>
    simp only [Site.step, hx.ok] at hs
    split at hs <;> cases hs
    exact hx
  | render =>
    simp only [Site.step, hx.ok] at hs
    split at hs <;> cases hs
    exact hx
  | fill r random => exact rend (.address (.effect _ _) random) (.inl trivial) hs
  | ask =>
    obtain ⟨b, h1, rfl⟩ := Option.map_eq_some_iff.1 hs
    exact (hx.step hk (e := .ask) (.inl trivial) h1).1
  | hook e random =>
    simp only [Site.step] at hs
    have ha : ∀ y, e = .input y → False := by
      rintro y rfl
      rw [if_neg (by simp)] at hs
      obtain ⟨b, h1, _⟩ := Option.map_eq_some_iff.1 hs
      cases h1
    have hf : Automatic (.hook e random) ∨ ∃ r, App.Event.hook e random = .hook .specs r := by
      cases e with
      | input y => exact (ha y rfl).elim
      | specs => exact .inr ⟨random, rfl⟩
      | _ => exact .inl trivial
    split at hs
    · exact rend _ hf hs
    · obtain ⟨b, h1, rfl⟩ := Option.map_eq_some_iff.1 hs
      exact (hx.step hk hf h1).1

theorem quiet_steps {tests : Str → List Str} {x : Input} (hk : App.known languages x.lang = true) : ∀ (fs : List Site.Event) {s s' : Site},
    Fixed languages s.app x → (∀ f ∈ fs, Spec.Site.Quiet f) → s.steps languages tests fs = some s' → Fixed languages s'.app x
  | [], _, _, hx, _, hs => by cases hs; exact hx
  | f :: fs, s, s', hx, hq, hs => by
    obtain ⟨t, h1, h2⟩ := Option.bind_eq_some_iff.1 hs
    exact quiet_steps hk fs (quiet_step hk hx (hq f (by simp)) h1) (fun f h => hq f (by simp [h])) h2

theorem site_steps_append {langs : List Str} {tests : Str → List Str} : ∀ (es fs : List Site.Event) (s : Site),
    s.steps langs tests (es ++ fs) = (s.steps langs tests es).bind fun s => s.steps langs tests fs
  | [], _, _ => rfl
  | e :: es, fs, s => by
    simp only [List.cons_append, Site.steps]
    cases s.step langs tests e with
    | none => rfl
    | some t => exact site_steps_append es fs t

/-- C84 (partial): the user follows the link to an example of a bundled language.  Once nothing is left to do, the page shows what
`Hangulize` returns in Go for this example.  Missing: as for `C79_typed_partial`, examples which are hangulized to nothing and byte order marks in the
output of a translit. -/
theorem C84_shown_partial {l : Libraries} (hlib : Reliable l) {tests : Str → List Str} (ht : Describes tests) {search : Bytes} {random : Str}
    {es fs : List Site.Event} (he : ∀ e ∈ es ++ fs, e.Strings) {s t : Site}
    (h : (openSite languages search random).steps languages tests es = some s) (hb : s.app.broken = false) (hs : Still s.examples)
    {lang : Bytes} (hl : lang ∈ listLangs entries) (hsl : s.app.lang = decodeText lang) {i : Nat} {w : Str}
    (hw : s.examples.words[i]? = some w) {r : Str} (hq : ∀ f ∈ fs, Spec.Site.Quiet f) (h' : s.steps languages tests (.follow i r :: fs) = some t)
    (hst : Props.Settled t.app.hook) (ha : t.app.asked = some t.app.current)
    (hr : ∀ (j i : Nat) (r : Str) (x : Input), t.app.hook.jobs[j]? = some ⟨i, some r⟩ → t.app.hook.inputs[i]? = some x → Replies l x r)
    (hout : ∀ t ∈ standard l, ∀ out, t.transliterate (encodeText w) = .ok out → Spec.Wasm.Plain out) :
    ∃ src o sp e out, bundled lang = some src ∧ Ord.Ok o ∧ parseSpec o src = .ok sp ∧ e ∈ sp.test ∧ w = decodeText e.1 ∧
      (forward sp (standardRegistry l) e.1 none).1 = .ok out ∧
      t.app.view languages = some (if decodeText out = [] then (true, lit "…") else (false, decodeText out)) := by
  obtain ⟨s', src, o, sp, e, h1, h2, h3, h4, h5, rfl, h7, h8, _⟩ :=
    followed ht (fun e h => he e (by simp [h])) h hb hs hl hsl hw r
  have hk := known_listed hl
  rw [Site.steps, h1] at h'
  have hx := quiet_steps (x := ⟨_, _⟩) hk fs h8 hq h'
  have hall : (openSite languages search random).steps languages tests (es ++ .follow i r :: fs) = some t := by
    rw [site_steps_append, h, Option.bind_some, Site.steps, h1]
    exact h'
  obtain ⟨gs, _, hg⟩ := steps_app (fine ht) _ (Site.Inv.openSite (fine ht) search random) (by
    intro e h
    rcases List.mem_append.1 h with h | h
    · exact he e (by simp [h])
    · rcases List.mem_cons.1 h with rfl | h
      · trivial
      · exact he e (by simp [h])) hall
  obtain ⟨k1, k2, k3, k4, k5, k6⟩ := fair_word h7
  obtain ⟨src', o', sp', out, m1, m2, m3, m4, m5⟩ := fixed_shown hlib hl k4 hg hx hst ha hr (by rw [k5]; exact k6) hout
  rw [h2] at m1
  cases m1
  obtain ⟨la, _, hsd⟩ := bundled_sound h2
  obtain ⟨sp'', n1, _, _, n2, _, n3, _⟩ := hsd o h3
  rw [h4] at n1
  cases n1
  rw [k5, forward_order h3 m2 h4 m3 n2 n3] at m4
  exact ⟨src, o, sp, e, out, h2, h3, h4, h5, rfl, m4, m5⟩

/-- C84: the page opened without a word at a bundled language, or without a language, goes to an example of its language. -/
theorem C84_filled {tests : Str → List Str} (ht : Describes tests) {search : Bytes} {random : Str} {es : List Site.Event}
    (he : ∀ e ∈ es, e.Strings) {s : Site} (h : (openSite languages search random).steps languages tests es = some s)
    (hb : s.app.broken = false) (hd : s.examples.due = false) {lang : Bytes} (hl : lang ∈ listLangs entries)
    (hsl : s.app.lang = decodeText lang) (hw : s.app.page.params.get (lit "word") = none)
    (hn : s.app.page.params.get (lit "lang") ≠ some []) (r : Nat) (random' : Str) :
    ∃ s' src o sp e, s.step languages tests (.fill r random') = some s' ∧ bundled lang = some src ∧ Ord.Ok o ∧ parseSpec o src = .ok sp ∧
      e ∈ sp.test ∧ s'.app.broken = false ∧ s'.app.current = ⟨decodeText lang, decodeText e.1⟩ ∧ s'.app.page.lang = some (decodeText lang) ∧
      ∀ l w, s'.app.page.step (.effect l w) = s'.app.page := by
  have hi := Site.Inv.steps (fine ht) es (Site.Inv.openSite (fine ht) search random) he h
  obtain ⟨hne, hsp⟩ := languages_fine lang hl
  have htl := tests_listed ht hl
  obtain ⟨w, hwr⟩ := sample_some r htl.1
  obtain ⟨src, o, sp, e, h1, h2, h3, h4, rfl, h5⟩ := htl.2 _ (sample_mem hwr)
  obtain ⟨k1, _⟩ := fair_word h5
  have hp : ∃ p, p = s.app.page.step (.effect (decodeText lang) (some (decodeText e.1))) := ⟨_, rfl⟩
  obtain ⟨p, hp⟩ := hp
  have hnm := Address.effect_names hi.page (l := decodeText lang) (w := some (decodeText e.1)) hsp (fun x hx => by cases hx; exact k1)
  have hi' : Address.Inv p := by
    rw [hp]
    obtain ⟨rs, hsp⟩ := hsp
    obtain ⟨ts, k1⟩ := k1
    exact hi.page.step ⟨Address.spells_units_lt hsp, fun x hx => by cases hx; exact Address.spells_units_lt k1⟩
  rw [← hp, ← hi.page.params, hw, Option.none_or] at hnm
  have hlang : (s.app.page.params.get (lit "lang")).getD (decodeText lang) = decodeText lang := by
    cases hg : s.app.page.params.get (lit "lang") with
    | none => rfl
    | some x =>
      have hx : s.app.page.lang = some x := by
        simp only [Address.Page.lang, hg, Option.filter_some]
        rw [if_pos]
        simp only [ne_eq, decide_eq_true_eq]
        rintro rfl
        exact hn hg
      rw [Option.getD_some, ← hsl, hi.app.lang x hx]
  rw [hlang] at hnm
  have hx := Address.named hi' hne hnm.1 hnm.2.1
  have hstep : s.app.step languages (.address (.effect s.app.lang (sample r (tests s.app.lang))) random') =
      some (App.render languages random' { s.app with page := p }) := by
    have hlist : s.app.lang ∈ languages := hsl ▸ List.mem_map_of_mem hl
    have hpe : s.app.page.step (.effect s.app.lang (sample r (tests s.app.lang))) = p := by rw [hsl, hwr, hp]
    have hpn : p ≠ s.app.page := by
      intro e'
      have := hnm.2.1
      rw [e', ← hi.page.params, hw] at this
      cases this
    simp [App.step, hb, hlist, hpe, hpn]
  refine ⟨⟨_, _⟩, src, o, sp, e, by simp only [Site.step, Site.renders, hd, hstep]; rfl, h1, h2, h3, h4, ?_, ?_, hx.1.1, hx.2.1⟩
  · simp [App.render, hx.1.1, known_listed hl]
  · simp [App.current, App.render, hx.1.1, hx.1.2]

/-- The examples as the files have them. -/
def writtenTests (lang : Str) : List Str :=
  match ((listLangs entries).find? fun x => decodeText x = lang).bind bundled with
  | some src =>
    match parseSpec .written src with
    | .ok sp => sp.test.map fun e => decodeText e.1
    | _ => []
  | none => []

theorem names_apart : ∀ a ∈ listLangs entries, ∀ b ∈ listLangs entries, decodeText a = decodeText b → a = b := by
  have h : ∀ a ∈ table.map Prod.fst, ∀ b ∈ table.map Prod.fst, decodeText a = decodeText b → a = b := by decide +kernel
  intro a ha b hb
  rw [C65_listed, bundled_isSome] at ha hb
  exact h a ha b hb

theorem writtenTests_ok : Describes writtenTests := by
  constructor
  · intro lang hl
    have hf : (listLangs entries).find? (fun x => decodeText x = decodeText lang) = some lang := by
      cases hc : (listLangs entries).find? (fun x => decodeText x = decodeText lang) with
      | none => exact absurd (decide_eq_true rfl) (List.find?_eq_none.1 hc lang hl)
      | some x =>
        have h1 := List.find?_some hc
        rw [names_apart x (List.mem_of_find?_eq_some hc) lang hl (of_decide_eq_true h1)]
    have hl' := hl
    rw [C65_listed, Option.isSome_iff_exists] at hl'
    obtain ⟨src, hs⟩ := hl'
    obtain ⟨_, _, hsd⟩ := bundled_sound hs
    obtain ⟨sp, h1, _⟩ := hsd .written written_ok
    exact ⟨src, .written, sp, hs, written_ok, h1, by simp [writtenTests, hf, hs, h1]⟩
  · intro lang hl
    have hf : (listLangs entries).find? (fun x => decodeText x = lang) = none := by
      refine List.find?_eq_none.2 fun x hx e => hl ?_
      rw [← of_decide_eq_true e]
      exact List.mem_map_of_mem hx
    simp [writtenTests, hf]

/-- Opened at Italian, the page comes to show some of its examples; the user has others shown and follows the first one. -/
example (rs rs' : List Nat) : ∃ es s s' w, (openSite languages (str "?lang=ita&word=Roma") []).steps languages writtenTests es = some s ∧
    .shuffle rs' ∈ es ∧ Still s.examples ∧ s.app.broken = false ∧ s.app.lang = lit "ita" ∧ s.examples.words[0]? = some w ∧
    w ∈ writtenTests (lit "ita") ∧ s.step languages writtenTests (.follow 0 []) = some s' ∧ s'.app.current = ⟨lit "ita", w⟩ := by
  have hita : str "ita" ∈ listLangs entries := by rw [C65_listed]; decide +kernel
  have hi : decodeText (str "ita") = lit "ita" := by decide +kernel
  obtain ⟨o, ho, hb, hl⟩ : ∃ o, openSite languages (str "?lang=ita&word=Roma") [] = o ∧ o.app.broken = false ∧ o.app.lang = lit "ita" :=
    ⟨_, rfl, by decide +kernel, by decide +kernel⟩
  have h0 : o.steps languages writtenTests [.shuffle rs'] = some ⟨o.app, o.examples.shuffle languages writtenTests rs'⟩ := by
    simp [Site.steps, Site.step, hb]
  have h0' : (openSite languages (str "?lang=ita&word=Roma") []).steps languages writtenTests [.shuffle rs'] =
      some ⟨o.app, o.examples.shuffle languages writtenTests rs'⟩ := by rw [ho, h0]
  obtain ⟨fs, t, _, h2, h3, h4, h5⟩ := C84_settles writtenTests_ok (es := [.shuffle rs']) (by simp [Site.Event.Strings]) h0' hb rs
  have hs : (openSite languages (str "?lang=ita&word=Roma") []).steps languages writtenTests ([.shuffle rs'] ++ fs) = some t := by
    rw [site_steps_append, h0']
    exact h3
  have he : ∀ e ∈ [.shuffle rs'] ++ fs, Site.Event.Strings e := by
    intro e h
    rcases List.mem_append.1 h with h | h
    · obtain rfl := List.mem_singleton.1 h
      trivial
    · rcases h2 e h with rfl | rfl <;> trivial
  have hbt : t.app.broken = false := by rw [h5]; exact hb
  have hlt : t.app.lang = decodeText (str "ita") := by rw [h5, hi]; exact hl
  obtain ⟨hd, _⟩ := C84_examples writtenTests_ok he hs hbt h4
  have hne := (tests_listed writtenTests_ok hita).1
  rw [hlt] at hd
  obtain ⟨w, hw⟩ : ∃ w, t.examples.words[0]? = some w := by
    have h := hd.1
    cases hx : t.examples.words with
    | cons w ws => exact ⟨w, rfl⟩
    | nil =>
      rw [hx] at h
      cases hy : writtenTests (decodeText (str "ita")) with
      | nil => exact absurd hy hne
      | cons x xs => rw [hy, List.length_cons, List.length_nil] at h; omega
  obtain ⟨s', src, o', sp, e, k1, _, _, _, _, k2, _, k3, _⟩ := C84_follow writtenTests_ok he hs hbt h4 hita hlt hw []
  refine ⟨_, t, s', w, hs, by simp, h4, hbt, by rw [hlt, hi], hw, hi ▸ Site.Drawn.mem hd (List.mem_of_getElem? hw), k1, ?_⟩
  rw [k3, hi, k2]

/-! ## C85 -/

/-- The Korean names of the bundled languages. -/
def koreans : List (Bytes × Bytes) := table.map fun x => (x.1, x.2.2.korean)

theorem koreans_ok : (koreans.map fun x => decodeText x.2).Nodup ∧ (∀ x ∈ koreans, (flags.lookup (decodeText x.1)).isSome = true) ∧
    (koreans.map fun x => decodeText x.1).Nodup ∧ ∀ x ∈ koreans, koreans.lookup x.1 = some x.2 := by decide +kernel

theorem listed_perm : (listLangs entries).Perm (koreans.map Prod.fst) := by
  rw [List.perm_ext_iff_of_nodup]
  · intro l
    rw [C65_listed, bundled_isSome, koreans, List.map_map]
    rfl
  · exact nodup_listLangs (by decide +kernel)
  · have h := koreans_ok.2.2.1
    have e : (koreans.map fun x => decodeText x.1) = (koreans.map Prod.fst).map decodeText := by rw [List.map_map]; rfl
    rw [e] at h
    exact List.Nodup.of_map _ h

theorem listing_koreans {specs : List (Str × Str)} (h : Listing specs) :
    specs.Perm (koreans.map fun x => (decodeText x.1, decodeText x.2)) := by
  obtain ⟨langs, hp, hf⟩ := h
  have key : ∀ (langs : List Bytes) (specs : List (Str × Str)), List.Forall₂ (fun lang x => ∃ src o sp, bundled lang = some src ∧ Ord.Ok o ∧
      parseSpec o src = .ok sp ∧ x = (decodeText sp.lang.id, decodeText sp.lang.korean)) langs specs →
      specs = langs.map fun l => (decodeText l, decodeText ((koreans.lookup l).getD [])) := by
    intro langs specs h
    induction h with
    | nil => rfl
    | @cons l x ls xs hx _ ih =>
      obtain ⟨src, o, sp, h1, h2, h3, rfl⟩ := hx
      obtain ⟨la, hm, hs⟩ := bundled_sound h1
      obtain ⟨sp', k1, k2, _⟩ := hs o h2
      rw [h3] at k1
      cases k1
      have e1 : la.id = l := table_ids _ hm
      have e2 := koreans_ok.2.2.2 (l, la.korean) (List.mem_map.2 ⟨_, hm, rfl⟩)
      simp only [List.map_cons, ← ih, k2, e1, e2, Option.getD_some]
  rw [key langs specs hf]
  refine ((hp.trans listed_perm).map _).trans (List.Perm.of_eq ?_)
  rw [List.map_map]
  refine List.map_congr_left fun x hx => ?_
  simp [koreans_ok.2.2.2 x hx]

/-- C85: the list of languages has every bundled language once, with its Korean name and a flag, in the order of these names; it does not
depend on the order of the specs. -/
theorem C85_choices {specs specs' : List (Str × Str)} (h : Listing specs) (h' : Listing specs') :
    choices specs = choices specs' ∧ (choices specs).Pairwise (fun a b => a.text < b.text) ∧
    ((choices specs).map (·.value)).Perm languages ∧ ((choices specs).map (·.value)).Nodup ∧
    ∀ lang ∈ listLangs entries, ∃ src o sp c, bundled lang = some src ∧ Ord.Ok o ∧ parseSpec o src = .ok sp ∧ c ∈ choices specs ∧
      c.value = decodeText lang ∧ c.key = c.value ∧ c.text = decodeText sp.lang.korean ∧ c.flag.isSome = true := by
  have hp := listing_koreans h
  have hn : (specs.map (·.2)).Nodup := by
    rw [(hp.map (·.2)).nodup_iff, List.map_map]
    exact koreans_ok.1
  have hv : ((choices specs).map (·.value)).Perm languages := by
    have e : (choices specs).map (·.value) = (sortBy (·.2) specs).map (·.1) := by simp [choices, Function.comp_def]
    rw [e]
    refine ((sortBy_perm _ _).map _).trans ((hp.map _).trans ?_)
    rw [List.map_map, languages]
    refine List.Perm.trans (List.Perm.of_eq ?_) (listed_perm.symm.map decodeText)
    rw [List.map_map]
    rfl
  refine ⟨?_, ?_, hv, ?_, ?_⟩
  · simp only [choices, sortBy_eq (hp.trans (listing_koreans h').symm) hn]
  · simp only [choices, List.pairwise_map]
    exact sortBy_strict hn
  · rw [hv.nodup_iff, languages, (listed_perm.map decodeText).nodup_iff, List.map_map]
    exact koreans_ok.2.2.1
  · intro lang hl
    rw [C65_listed, Option.isSome_iff_exists] at hl
    obtain ⟨src, hs⟩ := hl
    obtain ⟨la, hm, hsd⟩ := bundled_sound hs
    obtain ⟨sp, h1, h2, _⟩ := hsd .written written_ok
    have hk : (lang, la.korean) ∈ koreans := List.mem_map.2 ⟨_, hm, rfl⟩
    refine ⟨src, .written, sp, ⟨decodeText lang, decodeText lang, flags.lookup (decodeText lang), decodeText la.korean⟩, hs, written_ok, h1, ?_,
      rfl, rfl, by rw [h2], koreans_ok.2.1 _ hk⟩
    refine List.mem_map.2 ⟨(decodeText lang, decodeText la.korean), ?_, rfl⟩
    exact (sortBy_perm _ _).symm.subset (hp.symm.subset (List.mem_map.2 ⟨_, hk, rfl⟩))

/-- The specs in the order of the list of languages. -/
example : ∃ specs, Listing specs ∧ specs.length = 40 ∧ ∃ c ∈ choices specs, c.value = lit "ces" ∧ c.flag = some (lit "cz") := by
  have h : ∀ langs : List Bytes, (∀ l ∈ langs, l ∈ listLangs entries) → ∃ specs, List.Forall₂ (fun lang x => ∃ src o sp,
      bundled lang = some src ∧ Ord.Ok o ∧ parseSpec o src = .ok sp ∧ x = (decodeText sp.lang.id, decodeText sp.lang.korean)) langs specs := by
    intro langs
    induction langs with
    | nil => exact fun _ => ⟨[], .nil⟩
    | cons l ls ih =>
      intro h
      obtain ⟨specs, hs⟩ := ih fun l h' => h l (by simp [h'])
      have hl := h l (by simp)
      rw [C65_listed, Option.isSome_iff_exists] at hl
      obtain ⟨src, hb⟩ := hl
      obtain ⟨_, _, hsd⟩ := bundled_sound hb
      obtain ⟨sp, h1, _⟩ := hsd .written written_ok
      exact ⟨_, .cons ⟨src, .written, sp, hb, written_ok, h1, rfl⟩ hs⟩
  obtain ⟨specs, hs⟩ := h (listLangs entries) fun _ h => h
  have hl : Listing specs := ⟨_, List.Perm.refl _, hs⟩
  refine ⟨specs, hl, ?_, ?_⟩
  · rw [(listing_koreans hl).length_eq]
    decide +kernel
  · have hces : str "ces" ∈ listLangs entries := by rw [C65_listed]; decide +kernel
    obtain ⟨_, _, _, c, _, _, _, h1, h2, _, _, h3⟩ := (C85_choices hl hl).2.2.2.2 _ hces
    refine ⟨c, h1, by rw [h2]; decide +kernel, ?_⟩
    obtain ⟨x, _, rfl⟩ := List.mem_map.1 h1
    simp only at h2 ⊢
    rw [h2]
    decide +kernel

/-- C85: selecting a language keeps the word. -/
theorem C85_selected {tests : Str → List Str} (ht : Describes tests) {search : Bytes} {random : Str} {es : List Site.Event}
    (he : ∀ e ∈ es, e.Strings) {s : Site} (h : (openSite languages search random).steps languages tests es = some s)
    (hb : s.app.broken = false) (hd : s.examples.due = false) {lang : Str} (hl : lang ∈ languages) (r : Str) :
    ∃ s', s.step languages tests (.select lang r) = some s' ∧ s'.app.broken = false ∧ s'.app.current = ⟨lang, s.app.current.word⟩ ∧
      s'.app.page.lang = some lang ∧ ∀ l w, s'.app.page.step (.effect l w) = s'.app.page := by
  have hi := Site.Inv.steps (fine ht) es (Site.Inv.openSite (fine ht) search random) he h
  obtain ⟨x, hx, rfl⟩ := List.mem_map.1 hl
  obtain ⟨hne, hsp⟩ := languages_fine x hx
  have e1 : s.app.step languages (.address (.change (decodeText x) s.app.page.word) r) =
      some (App.render languages r { s.app with page := s.app.page.step (.change (decodeText x) s.app.page.word) }) := by
    simp [App.step, hb]
  have hf := typed_fixed hi.page hsp (word_spells hi.page) hne (known_listed hx) e1
  refine ⟨⟨_, _⟩, by simp only [Site.step, if_pos hl, Site.renders, hd, e1]; rfl, hf.ok, hf.current, hf.lang, hf.idle⟩

/-- C85: typing a word keeps the language. -/
theorem C85_typed {tests : Str → List Str} (ht : Describes tests) {search : Bytes} {random : Str} {es : List Site.Event}
    (he : ∀ e ∈ es, e.Strings) {s : Site} (h : (openSite languages search random).steps languages tests es = some s)
    (hb : s.app.broken = false) (hd : s.examples.due = false) {word : Str} (hw : ∃ rs, Spells word rs) (r : Str) :
    ∃ s', s.step languages tests (.type word r) = some s' ∧ s'.app.broken = false ∧ s'.app.current = ⟨s.app.lang, word⟩ ∧
      s'.app.page.lang = some s.app.lang ∧ ∀ l w, s'.app.page.step (.effect l w) = s'.app.page := by
  have hi := Site.Inv.steps (fine ht) es (Site.Inv.openSite (fine ht) search random) he h
  have hk := hi.app.known hb
  have hsp : ∃ rs, Spells s.app.lang rs := by
    have hk' := hk
    simp only [App.known, Bool.or_eq_true, decide_eq_true_eq] at hk'
    rcases hk' with hk' | hk'
    · obtain ⟨x, hx, e⟩ := List.mem_map.1 hk'
      rw [← e]
      exact (languages_fine x hx).2
    · have : ∀ l ∈ inherited, ∃ t : String, l = lit t := by
        intro l hl
        simp only [inherited, List.mem_cons, List.not_mem_nil, or_false] at hl
        rcases hl with rfl | rfl | rfl | rfl | rfl | rfl | rfl | rfl | rfl | rfl | rfl | rfl <;> exact ⟨_, rfl⟩
      have hu : ∀ l ∈ inherited, ∀ u ∈ l, u < 0xD800 ∨ 0xE000 ≤ u ∧ u < 0x10000 := by decide +kernel
      obtain ⟨t, e⟩ := this _ hk'
      have := hu _ hk'
      rw [e] at this ⊢
      exact ⟨_, (Address.lit_spells t).2 this⟩
  have e1 : s.app.step languages (.address (.change s.app.lang word) r) =
      some (App.render languages r { s.app with page := s.app.page.step (.change s.app.lang word) }) := by
    simp [App.step, hb]
  have hf := typed_fixed hi.page hsp hw ((fine ht).known hk).1 hk e1
  refine ⟨⟨_, _⟩, by simp only [Site.step, Site.renders, hd, e1]; rfl, hf.ok, hf.current, hf.lang, hf.idle⟩

end Verif.Props
