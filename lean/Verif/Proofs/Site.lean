import Verif.Spec.Site
import Verif.Proofs.App
import Mathlib.Data.List.Nodup

/-! The examples and the list of languages of the page. -/

namespace Verif.Site

open Verif.Js (Str)
open Verif.App (App known)
open Verif.Address (lit)
open Verif.Spec.Site

/-! ## lodash -/

theorem sampleSize_length {α : Type} : ∀ (n : Nat) (rs : List Nat) (xs : List α), (sampleSize n rs xs).length = min n xs.length
  | 0, _, _ => by simp [sampleSize]
  | _ + 1, _, [] => by simp [sampleSize]
  | n + 1, rs, x :: xs => by
    simp only [sampleSize]
    split
    · simp [sampleSize_length n]
    · simp [sampleSize_length n]

theorem set_perm {α : Type} (x : α) : ∀ (k : Nat) (xs : List α), k < xs.length → (xs.getD k x :: xs.set k x).Perm (x :: xs)
  | _, [], h => by simp at h
  | 0, y :: ys, _ => by simpa using List.Perm.swap x y ys
  | k + 1, y :: ys, h => by
    have := set_perm x k ys (by simpa using h)
    simp only [List.getD_cons_succ, List.set_cons_succ]
    exact (List.Perm.swap _ _ _).trans ((this.cons y).trans (List.Perm.swap _ _ _))

theorem sampleSize_perm {α : Type} : ∀ (n : Nat) (rs : List Nat) (xs : List α), ∃ rest, (sampleSize n rs xs ++ rest).Perm xs
  | 0, _, xs => ⟨xs, by simp [sampleSize]⟩
  | _ + 1, _, [] => ⟨[], by simp [sampleSize]⟩
  | n + 1, rs, x :: xs => by
    simp only [sampleSize]
    split
    · obtain ⟨rest, h⟩ := sampleSize_perm n rs.tail xs
      exact ⟨rest, h.cons x⟩
    · rename_i k hk
      obtain ⟨rest, h⟩ := sampleSize_perm n rs.tail (xs.set k x)
      have : rs.headD 0 % (xs.length + 1) < xs.length + 1 := Nat.mod_lt _ (Nat.succ_pos _)
      exact ⟨rest, (h.cons _).trans (set_perm x k xs (by omega))⟩

theorem drawn (rs : List Nat) (xs : List Str) : Drawn xs (sampleSize 5 rs xs) := ⟨sampleSize_length _ _ _, sampleSize_perm _ _ _⟩

theorem Drawn.mem {all shown : List Str} (h : Drawn all shown) {w : Str} (hw : w ∈ shown) : w ∈ all := by
  obtain ⟨_, rest, hp⟩ := h
  exact hp.subset (List.mem_append_left _ hw)

theorem sample_mem {α : Type} {r : Nat} {xs : List α} {x : α} (h : sample r xs = some x) : x ∈ xs := List.mem_of_getElem? h

theorem sample_some {α : Type} (r : Nat) {xs : List α} (h : xs ≠ []) : ∃ x, sample r xs = some x := by
  have : r % xs.length < xs.length := Nat.mod_lt _ (List.length_pos_iff.2 h)
  exact ⟨_, List.getElem?_eq_getElem this⟩

theorem sortBy_perm {α : Type} (key : α → Str) (xs : List α) : (sortBy key xs).Perm xs := List.mergeSort_perm _ _

theorem sortBy_sorted {α : Type} (key : α → Str) (xs : List α) : (sortBy key xs).Pairwise fun a b => key a ≤ key b := by
  have := List.pairwise_mergeSort (le := fun a b : α => decide (key a ≤ key b)) (by
    intro a b c h1 h2
    simp only [decide_eq_true_eq] at *
    exact List.le_trans h1 h2) (by
    intro a b
    simp only [Bool.or_eq_true, decide_eq_true_eq]
    exact List.le_total _ _) xs
  exact this.imp fun h => of_decide_eq_true h

/-- Elements with different keys are sorted in one way. -/
theorem sortBy_eq {α : Type} {key : α → Str} {xs ys : List α} (h : xs.Perm ys) (hn : (xs.map key).Nodup) : sortBy key xs = sortBy key ys := by
  refine List.Perm.eq_of_pairwise (le := fun a b => key a ≤ key b) ?_ (sortBy_sorted _ _) (sortBy_sorted _ _)
    ((sortBy_perm _ _).trans (h.trans (sortBy_perm _ _).symm))
  intro a b ha hb h1 h2
  exact List.inj_on_of_nodup_map hn ((sortBy_perm _ _).subset ha) (h.symm.subset ((sortBy_perm _ _).subset hb)) (List.le_antisymm h1 h2)

theorem sortBy_strict {α : Type} {key : α → Str} {xs : List α} (hn : (xs.map key).Nodup) : (sortBy key xs).Pairwise fun a b => key a < key b := by
  have h1 := sortBy_sorted key xs
  have h2 : ((sortBy key xs).map key).Nodup := ((sortBy_perm key xs).map key).nodup_iff.2 hn
  rw [List.Nodup, List.pairwise_map] at h2
  refine (h1.and h2).imp ?_
  intro a b h
  by_contra hx
  exact h.2 (List.le_antisymm h.1 (List.not_lt.1 hx))

/-! ## The examples -/

/-- What is always so. -/
structure Inv (langs : List Str) (tests : Str → List Str) (s : Site) : Prop where
  app : App.Inv langs s.app
  page : Address.Inv s.app.page
  lang : s.app.broken = false → s.examples.lang = s.app.lang
  fresh : s.examples.due = false → s.examples.prev = s.examples.lang
  units : ∀ w ∈ s.examples.words ++ s.examples.next, ∀ u ∈ w, u < 0x10000
  drawn : s.app.broken = false → s.examples.prev = s.examples.lang → Drawn (tests s.examples.lang) s.examples.next

/-- The languages and examples are strings, and no language is empty. -/
structure Fine (langs : List Str) (tests : Str → List Str) : Prop where
  langs : ∀ l ∈ langs, l ≠ [] ∧ ∀ u ∈ l, u < 0x10000
  tests : ∀ l, ∀ w ∈ tests l, ∀ u ∈ w, u < 0x10000

/-- The strings of an event are strings. -/
def Event.Strings : Event → Prop
  | .type word _ => ∀ u ∈ word, u < 0x10000
  | _ => True

theorem Fine.known {langs : List Str} {tests : Str → List Str} (h : Fine langs tests) {l : Str} (hk : known langs l = true) :
    l ≠ [] ∧ ∀ u ∈ l, u < 0x10000 := by
  simp only [App.known, Bool.or_eq_true, decide_eq_true_eq] at hk
  rcases hk with hk | hk
  · exact h.langs l hk
  · revert l
    decide +kernel

theorem Inv.openSite {langs : List Str} {tests : Str → List Str} (hf : Fine langs tests) (search : Bytes) (random : Str) :
    Inv langs tests (openSite langs search random) := by
  refine ⟨App.Inv.openApp langs search random, Address.Inv.openPage search, fun _ => rfl, ?_, ?_, ?_⟩
  · intro h; cases h
  · intro w hw; cases hw
  · intro hb h
    have hb : (App.openApp langs search random).broken = false := hb
    have h : [] = (App.openApp langs search random).lang := h
    exact absurd h.symm (hf.known ((App.Inv.openApp langs search random).known hb)).1

/-- The word of the address is of whole characters. -/
theorem word_spells {p : Address.Page} (h : Address.Inv p) : ∃ rs, Spec.Wasm.Spells p.word rs := by
  simp only [Address.Page.word, h.params]
  cases hg : (Address.params p.search).get (lit "word") with
  | none => exact ⟨[], (Address.lit_spells "").2 (by decide)⟩
  | some w => exact Address.whole_get (Address.whole_params _) hg

/-- A rendering of the page. -/
theorem Inv.renders {langs : List Str} {tests : Str → List Str} {s s' : Site} (h : Inv langs tests s) (hb : s.app.broken = false)
    {a : Option App} (hs : s.renders a = some s')
    (ha : ∀ b, a = some b → App.Inv langs b ∧ Address.Inv b.page) : Inv langs tests s' := by
  simp only [Site.renders] at hs
  split at hs
  · cases hs
  · rename_i hd
    obtain ⟨b, rfl, rfl⟩ := Option.map_eq_some_iff.1 hs
    obtain ⟨h1, h2⟩ := ha b rfl
    refine ⟨h1, h2, fun _ => rfl, (fun h => by cases h), ?_, ?_⟩
    · intro w hw
      refine h.units w (List.mem_append_right _ ?_)
      simpa [Examples.render] using hw
    intro _ hp
    have hp : s.examples.prev = b.lang := hp
    have e := h.fresh (by simpa using hd)
    have := h.drawn hb e
    rw [← e, hp] at this
    exact this

/-- Events happen only on a page which is not empty. -/
theorem step_broken {langs : List Str} {a a' : App} {e : App.Event} (h : a.step langs e = some a') : a.broken = false := by
  cases hb : a.broken with
  | false => rfl
  | true =>
    cases e with
    | address e random => cases e <;> simp [App.App.step, hb] at h
    | ask => simp [App.App.step, hb] at h
    | hook e random => cases e <;> simp [App.App.step, hb] at h

/-- An event of the page is one of its parts. -/
theorem step_app {langs : List Str} {tests : Str → List Str} (hf : Fine langs tests) {s s' : Site} (h : Inv langs tests s) {e : Event}
    (he : e.Strings) (hs : s.step langs tests e = some s') :
    s.app.broken = false ∧ ((s'.app = s.app ∧ ((∃ rs, e = .shuffle rs ∧ s'.examples = s.examples.shuffle langs tests rs) ∨
        (∃ rs, e = .effect rs ∧ s'.examples = s.examples.effect langs tests rs) ∨
        (e = .render ∧ s.examples.due = false ∧ s'.examples = s.examples.render s.examples.lang))) ∨
      ∃ f : App.Event, f.Strings ∧ s.app.step langs f = some s'.app ∧ (s.renders (s.app.step langs f) = some s' ∨
        (s'.examples = s.examples ∧ s'.app.lang = s.app.lang ∧ s'.app.broken = false))) := by
  have key : ∀ f : App.Event, f.Strings → s.renders (s.app.step langs f) = some s' → s.app.broken = false ∧
      ∃ f : App.Event, f.Strings ∧ s.app.step langs f = some s'.app ∧ (s.renders (s.app.step langs f) = some s' ∨
        (s'.examples = s.examples ∧ s'.app.lang = s.app.lang ∧ s'.app.broken = false)) := by
    intro f hf hr
    have hr' := hr
    simp only [Site.renders] at hr
    split at hr
    · cases hr
    · obtain ⟨b, h1, rfl⟩ := Option.map_eq_some_iff.1 hr
      exact ⟨step_broken h1, f, hf, h1, .inl hr'⟩
  have kn : s.app.broken = false → ∀ u ∈ s.app.lang, u < 0x10000 := fun hb => (hf.known (h.app.known hb)).2
  have late : ∀ f : App.Event, (s.app.broken = false → f.Strings) → s.renders (s.app.step langs f) = some s' → s.app.broken = false ∧
      ∃ f : App.Event, f.Strings ∧ s.app.step langs f = some s'.app ∧ (s.renders (s.app.step langs f) = some s' ∨
        (s'.examples = s.examples ∧ s'.app.lang = s.app.lang ∧ s'.app.broken = false)) := by
    intro f hf hr
    have hr' := hr
    simp only [Site.renders] at hr
    split at hr
    · cases hr
    · obtain ⟨b, h1, rfl⟩ := Option.map_eq_some_iff.1 hr
      exact key f (hf (step_broken h1)) hr'
  cases e with
  | type word random =>
    obtain ⟨h1, h2⟩ := late (.address (.change s.app.lang word) random) (fun hb => ⟨kn hb, he⟩) hs
    exact ⟨h1, .inr h2⟩
  | select lang random =>
    simp only [Site.step] at hs
    split at hs
    · rename_i hl
      obtain ⟨h1, h2⟩ := late (.address (.change lang s.app.page.word) random) (fun hb => ⟨(hf.langs lang hl).2, by
        obtain ⟨rs, hw⟩ := word_spells h.page
        exact Address.spells_units_lt hw⟩) hs
      exact ⟨h1, .inr h2⟩
    · cases hs
  | follow i random =>
    obtain ⟨w, h1, h2⟩ := Option.bind_eq_some_iff.1 hs
    obtain ⟨h3, h4⟩ := late (.address (.click s.examples.lang w) random) (fun hb => ⟨by rw [h.lang hb]; exact kn hb,
      h.units w (List.mem_append_left _ (List.mem_of_getElem? h1))⟩) h2
    exact ⟨h3, .inr h4⟩
  | goto search random =>
    obtain ⟨h1, h2⟩ := late (.address (.goto search) random) (fun _ => trivial) hs
    exact ⟨h1, .inr h2⟩
  | shuffle rs =>
    simp only [Site.step] at hs
    split at hs
    · cases hs
    · rename_i hb
      cases hs
      exact ⟨by simpa using hb, .inl ⟨rfl, .inl ⟨rs, rfl, rfl⟩⟩⟩
  | effect rs =>
    simp only [Site.step] at hs
    split at hs
    · cases hs
    · rename_i hb
      cases hs
      simp only [Bool.or_eq_true, not_or] at hb
      exact ⟨by simpa using hb.1, .inl ⟨rfl, .inr (.inl ⟨rs, rfl, rfl⟩)⟩⟩
  | render =>
    simp only [Site.step] at hs
    split at hs
    · cases hs
    · rename_i hb
      cases hs
      simp only [Bool.or_eq_true, not_or] at hb
      exact ⟨by simpa using hb.1, .inl ⟨rfl, .inr (.inr ⟨rfl, by simpa using hb.2, rfl⟩)⟩⟩
  | fill r random =>
    obtain ⟨h1, h2⟩ := late (.address (.effect s.app.lang (sample r (tests s.app.lang))) random) (fun hb => ⟨kn hb, fun w hw => hf.tests _ w (sample_mem hw)⟩) hs
    exact ⟨h1, .inr h2⟩
  | ask =>
    obtain ⟨b, h1, rfl⟩ := Option.map_eq_some_iff.1 hs
    have hb := step_broken h1
    refine ⟨hb, .inr ⟨.ask, trivial, h1, .inr ⟨rfl, ?_⟩⟩⟩
    simp only [App.App.step] at h1
    split at h1
    · cases h1
    · obtain ⟨_, _, rfl⟩ := Option.map_eq_some_iff.1 h1
      exact ⟨rfl, hb⟩
  | hook e random =>
    simp only [Site.step] at hs
    split at hs
    · obtain ⟨h1, h2⟩ := late (.hook e random) (fun _ => trivial) hs
      exact ⟨h1, .inr h2⟩
    · rename_i hne
      obtain ⟨b, h1, rfl⟩ := Option.map_eq_some_iff.1 hs
      have hb := step_broken h1
      refine ⟨hb, .inr ⟨.hook e random, trivial, h1, .inr ⟨rfl, ?_⟩⟩⟩
      obtain ⟨_, _, hook, _, h2⟩ := App.step_hook h1
      rw [if_neg hne] at h2
      subst h2
      exact ⟨rfl, hb⟩

theorem shuffle_units {langs : List Str} {tests : Str → List Str} (hf : Fine langs tests) {x : Examples} {rs : List Nat}
    (h : ∀ w ∈ x.words ++ x.next, ∀ u ∈ w, u < 0x10000) :
    ∀ w ∈ (x.shuffle langs tests rs).words ++ (x.shuffle langs tests rs).next, ∀ u ∈ w, u < 0x10000 := by
  unfold Examples.shuffle
  split
  · intro w hw
    rcases List.mem_append.1 hw with hw | hw
    · exact h w (List.mem_append_left _ hw)
    · exact hf.tests _ w (Drawn.mem (drawn _ _) hw)
  · exact h

theorem shuffle_same {langs : List Str} {tests : Str → List Str} (x : Examples) (rs : List Nat) :
    (x.shuffle langs tests rs).lang = x.lang ∧ (x.shuffle langs tests rs).prev = x.prev ∧ (x.shuffle langs tests rs).due = x.due ∧
      (x.shuffle langs tests rs).words = x.words := by
  unfold Examples.shuffle
  split <;> exact ⟨rfl, rfl, rfl, rfl⟩

theorem shuffle_drawn {langs : List Str} {tests : Str → List Str} {x : Examples} (rs : List Nat) (hk : known langs x.lang = true) :
    Drawn (tests x.lang) (x.shuffle langs tests rs).next := by
  rw [Examples.shuffle, if_pos hk]
  exact drawn _ _

theorem effect_new {langs : List Str} {tests : Str → List Str} {x : Examples} (rs : List Nat) (h : x.prev ≠ x.lang) :
    x.effect langs tests rs = { x.shuffle langs tests rs with prev := x.lang, due := false } := by
  rw [Examples.effect, if_pos h]

theorem effect_old {langs : List Str} {tests : Str → List Str} {x : Examples} (rs : List Nat) (h : x.prev = x.lang) :
    x.effect langs tests rs = { x with due := false } := by
  rw [Examples.effect, if_neg (by simp [h])]

theorem Inv.step {langs : List Str} {tests : Str → List Str} (hf : Fine langs tests) {s s' : Site} (h : Inv langs tests s) {e : Event}
    (he : e.Strings) (hs : s.step langs tests e = some s') : Inv langs tests s' := by
  obtain ⟨hb, hc⟩ := step_app hf h he hs
  have hk : known langs s.examples.lang = true := by rw [h.lang hb]; exact h.app.known hb
  obtain ⟨a', x'⟩ := s'
  rcases hc with ⟨ha, hc⟩ | ⟨f, h1, h2, h3⟩
  · simp only at ha hc
    subst ha
    rcases hc with ⟨rs, _, rfl⟩ | ⟨rs, _, rfl⟩ | ⟨_, hd, rfl⟩
    · obtain ⟨e1, e2, e3, e4⟩ := shuffle_same (langs := langs) (tests := tests) s.examples rs
      refine ⟨h.app, h.page, fun hb => e1.trans (h.lang hb), ?_, shuffle_units hf h.units, fun _ _ => ?_⟩
      · simp only [e1, e2, e3]
        exact h.fresh
      · simp only [e1]
        exact shuffle_drawn rs hk
    · by_cases hp : s.examples.prev = s.examples.lang
      · simp only [effect_old rs hp]
        exact ⟨h.app, h.page, h.lang, fun _ => hp, h.units, fun hb _ => h.drawn hb hp⟩
      · simp only [effect_new rs hp]
        obtain ⟨e1, e2, e3, e4⟩ := shuffle_same (langs := langs) (tests := tests) s.examples rs
        refine ⟨h.app, h.page, fun hb => e1.trans (h.lang hb), fun _ => e1.symm, shuffle_units hf h.units, fun _ _ => ?_⟩
        simp only [e1]
        exact shuffle_drawn rs hk
    · refine ⟨h.app, h.page, h.lang, fun h => (by cases h), ?_, fun hb _ => h.drawn hb (h.fresh hd)⟩
      intro w hw
      refine h.units w (List.mem_append_right _ ?_)
      simpa [Examples.render] using hw
  · have hi : App.Inv langs a' ∧ Address.Inv a'.page := ⟨h.app.step h2, App.page_step h1 h.page h2⟩
    rcases h3 with h3 | ⟨h3, h4, h5⟩
    · refine h.renders hb h3 ?_
      intro b hb
      rw [h2] at hb
      cases hb
      exact hi
    · simp only at h3 h4 h5
      subst h3
      exact ⟨hi.1, hi.2, fun _ => (h.lang hb).trans h4.symm, h.fresh, h.units, fun _ => h.drawn hb⟩

theorem Inv.steps {langs : List Str} {tests : Str → List Str} (hf : Fine langs tests) : ∀ (es : List Event) {s s' : Site},
    Inv langs tests s → (∀ e ∈ es, e.Strings) → s.steps langs tests es = some s' → Inv langs tests s'
  | [], _, _, h, _, hs => by cases hs; exact h
  | e :: es, s, s', h, he, hs => by
    obtain ⟨t, h1, h2⟩ := Option.bind_eq_some_iff.1 hs
    exact Inv.steps hf es (h.step hf (he e (by simp)) h1) (fun e h => he e (by simp [h])) h2

/-- A run of the page with its examples is one of the page. -/
theorem steps_app {langs : List Str} {tests : Str → List Str} (hf : Fine langs tests) : ∀ (es : List Event) {s s' : Site},
    Inv langs tests s → (∀ e ∈ es, e.Strings) → s.steps langs tests es = some s' →
    ∃ fs : List App.Event, (∀ f ∈ fs, f.Strings) ∧ s.app.steps langs fs = some s'.app
  | [], _, _, _, _, hs => by cases hs; exact ⟨[], by simp, rfl⟩
  | e :: es, s, s', h, he, hs => by
    obtain ⟨t, h1, h2⟩ := Option.bind_eq_some_iff.1 hs
    obtain ⟨fs, h3, h4⟩ := steps_app hf es (h.step hf (he e (by simp)) h1) (fun e h => he e (by simp [h])) h2
    rcases (step_app hf h (he e (by simp)) h1).2 with ⟨ha, _⟩ | ⟨f, g1, g2, _⟩
    · exact ⟨fs, h3, by rw [← ha]; exact h4⟩
    · refine ⟨f :: fs, ?_, by simp [App.App.steps, g2, h4]⟩
      intro x hx
      rcases List.mem_cons.1 hx with rfl | hx
      · exact g1
      · exact h3 x hx

/-- The page follows a link. -/
theorem linked_fixed {langs : List Str} {a a' : App} (h : Address.Inv a.page) {lang word random : Str}
    (hl : ∃ rs, Spec.Wasm.Spells lang rs) (hw : ∃ rs, Spec.Wasm.Spells word rs) (hn : lang ≠ []) (cl : Address.Clean lang)
    (cw : Address.Clean word) (hb : ∀ u, word.getLast? = some u → 0x20 < u) (hk : App.known langs lang = true)
    (hs : a.step langs (.address (.click lang word) random) = some a') :
    App.Fixed langs a' ⟨lang, word⟩ ∧ (Address.openPage a'.page.search).lang = some lang ∧ (Address.openPage a'.page.search).word = word := by
  simp only [App.App.step] at hs
  split at hs
  · cases hs
  · cases hs
    have hi : Address.Inv (a.page.step (.click lang word)) := h.go _
    have e : Address.params (a.page.step (.click lang word)).search = [(lit "lang", lang), (lit "word", word)] :=
      Address.params_link hl hw cl cw hb
    have g1 : (Address.params (a.page.step (.click lang word)).search).get (lit "lang") = some lang := by rw [e]; simp [Address.Params.get]
    have g2 : (Address.params (a.page.step (.click lang word)).search).get (lit "word") = some word := by
      rw [e]; simp [Address.Params.get, List.lookup, show (lit "word" == lit "lang") = false by decide]
    have h1 := Address.named hi hn g1 g2
    refine ⟨⟨h1.1.1, h1.1.2, by simp [App.App.render, h1.1.1], h1.2.1, ?_, by simp [App.App.render, h1.1.1, hk]⟩, h1.2.2⟩
    have : (a.page.step (.click lang word)).params.get (lit "word") = some word := by rw [hi.params]; exact g2
    simp [App.App.render, Address.Params.has, this]

end Verif.Site
