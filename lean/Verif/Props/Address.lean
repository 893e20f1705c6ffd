import Verif.Proofs.Address

/-! # Property C78: the address of the page names the language and the word -/

namespace Verif.Props

open Verif.Js Verif.Spec.Wasm Verif.Address

/-- C78 (partial): whatever happened before, if the user types a word or selects a language then the page shows this language and this
word, its effect changes nothing any more, and the page opened anew at this address shows them again.  Other parameters are those of
the address at which the page was opened.  The texts are of whole characters.  Missing: links (`C78_example_partial`), an address with
an empty language (`C78_empty_refuted`). -/
theorem C78_change_partial {search : Bytes} {es : List Event} (he : ∀ e ∈ es, e.Strings) {lang word : Str} (hl : ∃ rs, Spells lang rs)
    (hw : ∃ rs, Spells word rs) (hn : lang ≠ []) {p : Page} (hp : p = ((openPage search).steps es).step (.change lang word)) :
    (p.lang = some lang ∧ p.word = word) ∧ (∀ l w, p.step (.effect l w) = p) ∧
    ((openPage p.search).lang = some lang ∧ (openPage p.search).word = word) ∧
    ∀ m, m ≠ lit "lang" → m ≠ lit "word" → p.params.get m = (params search).get m := by
  have hi := Address.Inv.steps es (Address.Inv.openPage search) he
  have hc := change_named hi hl hw
  have hi' : Address.Inv p := by
    rw [hp]
    obtain ⟨rs, hl⟩ := hl
    obtain ⟨ts, hw⟩ := hw
    exact hi.step ⟨spells_units_lt hl, spells_units_lt hw⟩
  rw [← hp] at hc
  have h1 := named hi' hn hc.1 hc.2.1
  refine ⟨h1.1, h1.2.1, h1.2.2, ?_⟩
  intro m g1 g2
  rw [hi'.params, hc.2.2 m g1 g2, captured_steps g1 g2]
  rfl

/-- C78 (partial): the effect of a rendering adds a random language and a random example of it to an address without them, and changes
nothing else.  With an example the effect of the next rendering changes nothing.  Missing: as for `C78_change_partial`. -/
theorem C78_effect_partial {search : Bytes} {es : List Event} (he : ∀ e ∈ es, e.Strings) {l : Str} {w : Option Str}
    (hl : ∃ rs, Spells l rs) (hw : ∀ x, w = some x → ∃ rs, Spells x rs) {p p' : Page} (hp : p = (openPage search).steps es)
    (hp' : p' = p.step (.effect l w)) :
    p'.params.get (lit "lang") = some ((p.params.get (lit "lang")).getD l) ∧
    p'.params.get (lit "word") = (p.params.get (lit "word")).or w ∧
    (∀ m, m ≠ lit "lang" → m ≠ lit "word" → p'.params.get m = p.params.get m) ∧
    (w.isSome = true → ∀ l' w', p'.step (.effect l' w') = p') := by
  have hi : Address.Inv p := hp ▸ Address.Inv.steps es (Address.Inv.openPage search) he
  have hn := effect_names hi hl hw
  have hi' : Address.Inv p' := by
    rw [hp']
    obtain ⟨rs, hl⟩ := hl
    refine hi.step ⟨spells_units_lt hl, fun x hx => ?_⟩
    obtain ⟨ts, hw⟩ := hw x hx
    exact spells_units_lt hw
  rw [← hp', ← hi.params, ← hi'.params] at hn
  refine ⟨hn.1, hn.2.1, hn.2.2, ?_⟩
  intro hs l' w'
  obtain ⟨x, rfl⟩ := Option.isSome_iff_exists.1 hs
  refine effect_idle (by simp [Params.has, hn.1]) ?_ l' w'
  simp only [Params.has, hn.2.1]
  cases p.params.get (lit "word") <;> rfl

/-- C78 (partial): a link to an example shows this example, if neither the language nor the word has a character with a meaning in
queries and the word does not end with a blank.  Missing: other words, for which it is false (`C78_example_refuted`). -/
theorem C78_example_partial {search : Bytes} {es : List Event} (he : ∀ e ∈ es, e.Strings) {lang word : Str} (hl : ∃ rs, Spells lang rs)
    (hw : ∃ rs, Spells word rs) (hn : lang ≠ []) (cl : Clean lang) (cw : Clean word) (hb : ∀ u, word.getLast? = some u → 0x20 < u)
    {p : Page} (hp : p = ((openPage search).steps es).step (.click lang word)) :
    (p.lang = some lang ∧ p.word = word) ∧ (∀ l w, p.step (.effect l w) = p) ∧
    ((openPage p.search).lang = some lang ∧ (openPage p.search).word = word) := by
  have hi := Address.Inv.steps es (Address.Inv.openPage search) he
  have hi' : Address.Inv p := by rw [hp]; exact hi.go _
  have e : params p.search = [(lit "lang", lang), (lit "word", word)] := by
    rw [hp]
    exact params_link hl hw cl cw hb
  have h1 := named (word := word) hi' hn (by rw [e]; simp [Params.get])
    (by rw [e]; simp [Params.get, List.lookup, show (lit "word" == lit "lang") = false by decide])
  exact ⟨h1.1, h1.2.1, h1.2.2⟩

/-- A word with all characters which have a meaning in queries, typed on a page opened with a language and another parameter. -/
example : ∃ p, p = ((openPage (str "?lang=ita&x=1+2")).steps [.effect (lit "deu") (some (lit "gitta"))]).step (.change (lit "ita") (lit "a&b=c#d+é %")) ∧
    p.search = str "?lang=ita&x=1+2&word=a%26b%3Dc%23d%2B%C3%A9+%25" ∧ p.lang = some (lit "ita") ∧ p.word = lit "a&b=c#d+é %" ∧
    p.params.get (lit "x") = some (lit "1 2") := by
  refine ⟨_, rfl, by decide +kernel, ?_⟩
  have h := C78_change_partial (search := str "?lang=ita&x=1+2") (es := [.effect (lit "deu") (some (lit "gitta"))]) (lang := lit "ita")
    (word := lit "a&b=c#d+é %") (by
      intro e he
      rw [List.mem_singleton] at he
      subst he
      exact ⟨by decide, fun w hw => by cases hw; decide⟩) ⟨_, (lit_spells _).2 (by decide)⟩ ⟨_, (lit_spells _).2 (by decide)⟩ (by decide) rfl
  exact ⟨h.1.1, h.1.2, (h.2.2.2 (lit "x") (by decide) (by decide)).trans (by decide +kernel)⟩

/-- A page opened without a query. -/
example : ∃ p, p = (openPage []).step (.effect (lit "ces") (some (lit "Dvořák"))) ∧ p.search = str "?lang=ces&word=Dvo%C5%99%C3%A1k" ∧
    p.params.get (lit "word") = some (lit "Dvořák") := by
  refine ⟨_, rfl, by decide +kernel, ?_⟩
  have h := C78_effect_partial (search := []) (es := []) (l := lit "ces") (w := some (lit "Dvořák")) (by simp)
    ⟨_, (lit_spells _).2 (by decide)⟩ (fun x hx => by cases hx; exact ⟨_, (lit_spells _).2 (by decide)⟩) rfl rfl
  refine h.2.1.trans ?_
  decide +kernel

/-- A link to an example of two words. -/
example : ∃ p, p = (openPage (str "?lang=deu&word=x")).step (.click (lit "ces") (lit "Antonín Dvořák")) ∧
    p.search = str "?lang=ces&word=Anton%C3%ADn%20Dvo%C5%99%C3%A1k" ∧ p.lang = some (lit "ces") ∧ p.word = lit "Antonín Dvořák" := by
  refine ⟨_, rfl, by decide +kernel, ?_⟩
  exact (C78_example_partial (search := str "?lang=deu&word=x") (es := []) (by simp) ⟨_, (lit_spells _).2 (by decide)⟩
    ⟨_, (lit_spells _).2 (by decide)⟩ (by decide) (by unfold Clean; decide) (by unfold Clean; decide) (by decide) rfl).1

/-- C78 fails for links: the word of an example is not encoded, so a link to `R&B` shows `R`, one to `C++` shows `C` and two blanks, and
one to `100%25` shows `100%`. -/
theorem C78_example_refuted :
    ((openPage []).step (.click (lit "ita") (lit "R&B"))).word = lit "R" ∧
    ((openPage []).step (.click (lit "ita") (lit "C++"))).word = lit "C  " ∧
    ((openPage []).step (.click (lit "ita") (lit "C#"))).word = lit "C" ∧
    ((openPage []).step (.click (lit "ita") (lit "100%25"))).word = lit "100%" := by decide +kernel

/-- C78 fails for an address with an empty language: the language of each rendering is random, and no effect changes this. -/
theorem C78_empty_refuted : ∃ search, (openPage search).lang = none ∧ (openPage search).word = lit "a" ∧
    ∀ l w, (openPage search).step (.effect l w) = openPage search :=
  ⟨str "?lang=&word=a", by decide +kernel, by decide +kernel, effect_idle (by decide +kernel) (by decide +kernel)⟩

end Verif.Props
