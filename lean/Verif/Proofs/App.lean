import Verif.Spec.App
import Verif.Proofs.Hook
import Verif.Proofs.Address
import Verif.Props.Hook

/-! # Facts about `App` -/

namespace Verif.App

open Verif.Js (Str)
open Verif.Hook (Input Hook)
open Verif.Address (lit)
open Verif.Spec.App (Automatic)

theorem valid_empty (langs : List Str) : valid langs ⟨[], []⟩ = false := rfl

/-- Events other than inputs leave the inputs. -/
theorem step_inputs {v : Input → Bool} {h h' : Hook} {e : Hook.Event} (he : ∀ x, e ≠ .input x) (hs : h.step v e = some h') :
    h'.inputs = h.inputs ∧ h'.next.input = h.next.input := by
  have hclear : ∀ h : Hook, h.clear.inputs = h.inputs ∧ h.clear.next = h.next := fun h => ⟨rfl, rfl⟩
  have hdelay : ∀ h : Hook, h.delay.inputs = h.inputs ∧ h.delay.next.input = h.next.input := by
    intro h
    unfold Hook.delay
    split <;> exact ⟨rfl, rfl⟩
  have hwait : ∀ (h : Hook) (i : Nat), (h.wait i).1.inputs = h.inputs ∧ (h.wait i).1.next = h.next := by
    intro h i
    unfold Hook.wait
    split <;> exact ⟨rfl, rfl⟩
  cases e with
  | input x => exact absurd rfl (he x)
  | specs => cases hs; exact ⟨rfl, rfl⟩
  | render =>
    simp only [Hook.step] at hs
    split at hs
    · cases hs
    · cases hs; exact ⟨rfl, rfl⟩
  | effect =>
    simp only [Hook.step] at hs
    split at hs
    · cases hs
      unfold Hook.effect
      simp only
      split
      · exact ⟨rfl, rfl⟩
      · split
        · exact ⟨rfl, rfl⟩
        · split
          · exact ⟨rfl, rfl⟩
          · have h1 := hdelay { h with ran := some (h.shown.specs, h.shown.input), target := some h.shown.input }
            generalize Hook.delay { h with ran := some (h.shown.specs, h.shown.input), target := some h.shown.input } = g at h1 ⊢
            split
            · exact h1
            · have h2 := hwait g h.shown.input
              exact ⟨h2.1.trans h1.1, by rw [h2.2]; exact h1.2⟩
    · cases hs
  | wake k =>
    simp only [Hook.step] at hs
    split at hs
    · split at hs
      · cases hs; exact ⟨rfl, rfl⟩
      · cases hs
        have h2 := hwait h
        exact ⟨(h2 _).1, congrArg _ (h2 _).2⟩
    · cases hs
  | answer j r =>
    simp only [Hook.step] at hs
    split at hs
    · cases hs; exact ⟨rfl, rfl⟩
    · cases hs
  | resume k =>
    simp only [Hook.step] at hs
    split at hs
    · split at hs
      · cases hs; exact ⟨rfl, rfl⟩
      · cases hs
    · split at hs
      · split at hs
        · cases hs; exact ⟨rfl, rfl⟩
        · cases hs; exact ⟨rfl, rfl⟩
      · cases hs
    · cases hs
  | fire t =>
    simp only [Hook.step] at hs
    split at hs
    · cases hs; exact ⟨rfl, rfl⟩
    · cases hs

theorem steps_append (v : Input → Bool) : ∀ (es fs : List Hook.Event) (h : Hook),
    h.steps v (es ++ fs) = (h.steps v es).bind fun h => h.steps v fs
  | [], _, _ => rfl
  | e :: es, fs, h => by
    simp only [List.cons_append, Hook.steps]
    cases h.step v e with
    | none => rfl
    | some h => exact steps_append v es fs h

/-- What holds for every state of the page. -/
structure Inv (langs : List Str) (a : App) : Prop where
  reach : ∃ es, Hook.init.steps (valid langs) es = some a.hook
  asked : ∀ x, a.asked = some x → a.hook.inputs[a.hook.next.input]? = some x
  lang : ∀ l, a.page.lang = some l → a.lang = l
  known : a.broken = false → known langs a.lang = true

theorem Inv.render {langs : List Str} {a : App} (h : Inv langs a) (random : Str) : Inv langs (a.render langs random) := by
  refine ⟨h.reach, h.asked, ?_, ?_⟩
  · intro l hl
    have hl : a.page.lang = some l := hl
    simp [App.render, hl]
  · simp [App.render]

/-- The address is rendered with another query. -/
theorem Inv.renders {langs : List Str} {a : App} (h : Inv langs a) (page : Address.Page) (random : Str) :
    Inv langs (App.render langs random { a with page := page }) := by
  refine ⟨h.reach, h.asked, ?_, ?_⟩
  · intro l hl
    have hl : page.lang = some l := hl
    simp [App.render, hl]
  · simp [App.render]

theorem Inv.openApp (langs : List Str) (search : Bytes) (random : Str) : Inv langs (openApp langs search random) := by
  refine ⟨⟨[], rfl⟩, ?_, ?_, ?_⟩
  · intro x hx
    cases hx
  · intro l hl
    have hl : (Address.openPage search).lang = some l := hl
    simp [App.openApp, App.render, hl]
  · simp [App.openApp, App.render]

theorem Inv.hooked {langs : List Str} {a : App} (h : Inv langs a) {e : Hook.Event} (he : ∀ x, e ≠ .input x) {hook : Hook}
    (hs : a.hook.step (valid langs) e = some hook) : Inv langs { a with hook := hook } := by
  obtain ⟨es, hr⟩ := h.reach
  refine ⟨⟨es ++ [e], by rw [steps_append, hr]; simp [Hook.steps, hs]⟩, ?_, h.lang, h.known⟩
  intro x hx
  have := step_inputs he hs
  simp only [this.1, this.2]
  exact h.asked x hx

/-- A hook event of the page. -/
theorem step_hook {langs : List Str} {a a' : App} {e : Hook.Event} {random : Str} (hs : a.step langs (.hook e random) = some a') :
    (∀ x, e ≠ .input x) ∧ a.broken = false ∧ ∃ hook, a.hook.step (valid langs) e = some hook ∧
      a' = if e = .render then App.render langs random { a with hook := hook } else { a with hook := hook } := by
  have key : (∀ x, e ≠ .input x) → a.step langs (.hook e random) = if a.broken then none else
      (a.hook.step (valid langs) e).map fun hook =>
        if e = .render then App.render langs random { a with hook := hook } else { a with hook := hook } := by
    intro he
    cases e with
    | input x => exact absurd rfl (he x)
    | _ => rfl
  have he : ∀ x, e ≠ .input x := by
    rintro x rfl
    cases hs
  rw [key he] at hs
  split at hs
  · cases hs
  · rename_i hb
    obtain ⟨hook, h1, h2⟩ := Option.map_eq_some_iff.1 hs
    exact ⟨he, by simpa using hb, hook, h1, h2.symm⟩

theorem Inv.step {langs : List Str} {a a' : App} (h : Inv langs a) {e : Event} (hs : a.step langs e = some a') : Inv langs a' := by
  cases e with
  | address e random =>
    cases e with
    | effect lang word =>
      simp only [App.step] at hs
      split at hs
      · cases hs
      · split at hs
        · cases hs
          exact ⟨h.reach, h.asked, h.lang, fun hb => by cases hb⟩
        · split at hs
          · cases hs
          · cases hs
            exact h.renders _ _
    | _ =>
      simp only [App.step] at hs
      split at hs
      · cases hs
      · cases hs
        exact h.renders _ _
  | ask =>
    simp only [App.step] at hs
    split at hs
    · cases hs
    · obtain ⟨hook, h1, h2⟩ := Option.map_eq_some_iff.1 hs
      subst h2
      obtain ⟨es, hr⟩ := h.reach
      refine ⟨⟨es ++ [.input a.current], by rw [steps_append, hr]; simp [Hook.steps, h1]⟩, ?_, h.lang, h.known⟩
      intro x hx
      cases h1
      simp only [Option.some.injEq] at hx
      simp [hx]
  | hook e random =>
    obtain ⟨he, _, hook, h1, h2⟩ := step_hook hs
    subst h2
    split
    · exact (h.hooked he h1).render _
    · exact h.hooked he h1

theorem Inv.steps {langs : List Str} : ∀ (es : List Event) {a a' : App}, Inv langs a → a.steps langs es = some a' → Inv langs a'
  | [], _, _, h, hs => by cases hs; exact h
  | e :: es, a, a', h, hs => by
    obtain ⟨b, h1, h2⟩ := Option.bind_eq_some_iff.1 hs
    exact Inv.steps es (h.step h1) h2

theorem app_steps_append (langs : List Str) : ∀ (es fs : List Event) (a : App),
    a.steps langs (es ++ fs) = (a.steps langs es).bind fun a => a.steps langs fs
  | [], _, _ => rfl
  | e :: es, fs, a => by
    simp only [List.cons_append, App.steps]
    cases a.step langs e with
    | none => rfl
    | some a => exact app_steps_append langs es fs a

/-- The page asks for an input, and no effect changes that. -/
structure Fixed (langs : List Str) (a : App) (x : Input) : Prop where
  lang : a.page.lang = some x.lang
  word : a.page.word = x.word
  same : a.lang = x.lang
  idle : ∀ l w, a.page.step (.effect l w) = a.page
  has : a.page.params.has (lit "word") = true
  ok : a.broken = false

theorem Fixed.current {langs : List Str} {a : App} {x : Input} (h : Fixed langs a x) : a.current = x := by
  simp [App.current, h.same, h.word]

theorem Fixed.step {langs : List Str} {a a' : App} {x : Input} (h : Fixed langs a x) (hk : App.known langs x.lang = true) {e : Event}
    (he : Automatic e ∨ ∃ random, e = .hook .specs random) (hs : a.step langs e = some a') :
    Fixed langs a' x ∧ a'.page = a.page ∧ (e = .ask → a'.asked = some x) ∧ ∀ f random, e = .hook f random →
      a'.asked = a.asked ∧ a.hook.step (valid langs) f = some a'.hook := by
  cases e with
  | address e random =>
    cases e with
    | effect lang word =>
      simp only [App.step] at hs
      split at hs
      · cases hs
      · rw [if_neg (by simp [h.has]), if_pos (h.idle _ _)] at hs
        cases hs
    | _ =>
      rcases he with he | ⟨_, he⟩
      · exact he.elim
      · cases he
  | ask =>
    simp only [App.step] at hs
    split at hs
    · cases hs
    · obtain ⟨hook, h1, h2⟩ := Option.map_eq_some_iff.1 hs
      subst h2
      exact ⟨⟨h.lang, h.word, h.same, h.idle, h.has, h.ok⟩, rfl, fun _ => by simp [h.current], fun f r e => by cases e⟩
  | hook e random =>
    obtain ⟨he, _, hook, h1, h2⟩ := step_hook hs
    subst h2
    split
    · refine ⟨⟨h.lang, h.word, by simp [App.render, h.lang], h.idle, h.has, by simp [App.render, h.lang, hk]⟩, rfl,
        (fun e => by cases e), fun f r e => by cases e; exact ⟨rfl, h1⟩⟩
    · exact ⟨⟨h.lang, h.word, h.same, h.idle, h.has, h.ok⟩, rfl, (fun e => by cases e), fun f r e => by cases e; exact ⟨rfl, h1⟩⟩

theorem Fixed.steps {langs : List Str} {x : Input} (hk : App.known langs x.lang = true) : ∀ (es : List Event) {a a' : App},
    Fixed langs a x → (∀ e ∈ es, Automatic e ∨ ∃ random, e = .hook .specs random) → a.steps langs es = some a' → Fixed langs a' x
  | [], _, _, h, _, hs => by cases hs; exact h
  | e :: es, a, a', h, he, hs => by
    obtain ⟨b, h1, h2⟩ := Option.bind_eq_some_iff.1 hs
    exact Fixed.steps hk es (h.step hk (he e (by simp)) h1).1 (fun e h => he e (by simp [h])) h2

/-- Texts are made of code units. -/
def Event.Strings : Event → Prop
  | .address e _ => Address.Event.Strings e
  | _ => True

theorem page_step {langs : List Str} {a a' : App} {e : Event} (he : e.Strings) (h : Address.Inv a.page) (hs : a.step langs e = some a') :
    Address.Inv a'.page := by
  cases e with
  | address e random =>
    change Address.Event.Strings e at he
    cases e with
    | effect lang word =>
      simp only [App.step] at hs
      split at hs
      · cases hs
      · split at hs
        · cases hs
          exact h
        · split at hs
          · cases hs
          · cases hs
            exact h.step he
    | _ =>
      simp only [App.step] at hs
      split at hs
      · cases hs
      · cases hs
        exact h.step he
  | ask =>
    simp only [App.step] at hs
    split at hs
    · cases hs
    · obtain ⟨hook, h1, h2⟩ := Option.map_eq_some_iff.1 hs
      subst h2
      exact h
  | hook e random =>
    obtain ⟨_, _, hook, h1, h2⟩ := step_hook hs
    subst h2
    split
    · exact h
    · exact h

theorem page_steps {langs : List Str} : ∀ (es : List Event) {a a' : App}, (∀ e ∈ es, e.Strings) → Address.Inv a.page →
    a.steps langs es = some a' → Address.Inv a'.page
  | [], _, _, _, h, hs => by cases hs; exact h
  | e :: es, a, a', he, h, hs => by
    obtain ⟨b, h1, h2⟩ := Option.bind_eq_some_iff.1 hs
    exact page_steps es (fun e h => he e (by simp [h])) (page_step (he e (by simp)) h h1) h2

/-- The user types a word or selects a language. -/
theorem typed_fixed {langs : List Str} {a a' : App} (h : Address.Inv a.page) {lang word random : Str}
    (hl : ∃ rs, Spec.Wasm.Spells lang rs) (hw : ∃ rs, Spec.Wasm.Spells word rs) (hn : lang ≠ []) (hk : App.known langs lang = true)
    (hs : a.step langs (.address (.change lang word) random) = some a') : Fixed langs a' ⟨lang, word⟩ := by
  simp only [App.step] at hs
  split at hs
  · cases hs
  · cases hs
    have hc := Address.change_named h hl hw
    have hi : Address.Inv (a.page.step (.change lang word)) := by
      obtain ⟨rs, hl⟩ := hl
      obtain ⟨ts, hw⟩ := hw
      exact h.step ⟨Address.spells_units_lt hl, Address.spells_units_lt hw⟩
    have h1 := Address.named hi hn hc.1 hc.2.1
    refine ⟨h1.1.1, h1.1.2, by simp [App.render, h1.1.1], h1.2.1, ?_, by simp [App.render, h1.1.1, hk]⟩
    have : (a.page.step (.change lang word)).params.get (lit "word") = some word := by rw [hi.params]; exact hc.2.1
    simp [App.render, Address.Params.has, this]

/-- An event of the hook is one of the page. -/
theorem Fixed.lift {langs : List Str} {a : App} {x : Input} (h : Fixed langs a x) (hk : App.known langs x.lang = true) {e : Hook.Event}
    (he : ∀ x, e ≠ .input x) {g : Hook} (hs : a.hook.step (valid langs) e = some g) :
    ∃ a', a.step langs (.hook e []) = some a' ∧ Fixed langs a' x ∧ a'.hook = g ∧ a'.asked = a.asked := by
  have key : a.step langs (.hook e []) = (a.hook.step (valid langs) e).map fun hook =>
        if e = .render then App.render langs [] { a with hook := hook } else { a with hook := hook } := by
    cases e with
    | input x => exact absurd rfl (he x)
    | _ => simp [App.step, h.ok]
  rw [hs, Option.map_some] at key
  refine ⟨_, key, ?_⟩
  split
  · exact ⟨⟨h.lang, h.word, by simp [App.render, h.lang], h.idle, h.has, by simp [App.render, h.lang, hk]⟩, rfl, rfl⟩
  · exact ⟨⟨h.lang, h.word, h.same, h.idle, h.has, h.ok⟩, rfl, rfl⟩

theorem Fixed.lifts {langs : List Str} {x : Input} (hk : App.known langs x.lang = true) : ∀ (es : List Hook.Event) {a : App},
    Fixed langs a x → (∀ e ∈ es, ∀ x, e ≠ .input x) → ∀ {g : Hook}, a.hook.steps (valid langs) es = some g →
    ∃ a', a.steps langs (es.map (.hook · [])) = some a' ∧ Fixed langs a' x ∧ a'.hook = g ∧ a'.asked = a.asked
  | [], a, h, _, _, hs => by cases hs; exact ⟨a, rfl, h, rfl, rfl⟩
  | e :: es, a, h, he, g, hs => by
    obtain ⟨b, h1, h2⟩ := Option.bind_eq_some_iff.1 hs
    obtain ⟨a1, k1, k2, k3, k4⟩ := h.lift hk (he e (by simp)) h1
    obtain ⟨a2, m1, m2, m3, m4⟩ := Fixed.lifts hk es k2 (fun e h => he e (by simp [h])) (by rw [k3]; exact h2)
    exact ⟨a2, by simp only [List.map_cons, App.steps, k1, Option.bind_some, m1], m2, m3, m4.trans k4⟩

/-- The first events of the hook, before and after an input. -/
def before : List Hook.Event := [.effect, .render]
def after (r : Str) : List Hook.Event := [.render, .effect, .render, .answer 0 r, .resume 0, .render]

/-- The state after the first input was answered. -/
def answered (x : Input) (r : Str) : Hook where
  inputs := [⟨[], []⟩, x]
  next := ⟨0, 1, .idle, r⟩
  shown := ⟨0, 1, .idle, r⟩
  ran := some (0, 1)
  target := some 1
  processing := some 0
  timer := none
  timers := []
  count := 1
  tasks := [⟨1, .done⟩]
  jobs := [⟨1, some r⟩]

theorem first_answer {v : Input → Bool} (h0 : v ⟨[], []⟩ = false) {x : Input} (hx : v x = true) (r : Str) :
    ∃ g g', Hook.init.steps v before = some g ∧ g.step v (.input x) = some g' ∧ g'.steps v (after r) = some (answered x r) := by
  refine ⟨{ Hook.init with next := ⟨0, 0, .idle, []⟩, shown := ⟨0, 0, .idle, []⟩, ran := some (0, 0) }, _, ?_, rfl, ?_⟩
  · simp [before, Hook.steps, Hook.step, Hook.due, Hook.init, Hook.effect, h0, Hook.clear]
  · simp [after, Hook.init, Hook.steps, Hook.step, Hook.due, Hook.effect, Hook.clear, Hook.delay, Hook.wait, Hook.start, Hook.answerOf, Hook.move,
      hx, answered]

/-- The page is opened with an address which names an input, and the worker answers. -/
theorem Fixed.answers {langs : List Str} {a : App} {x : Input} (h : Fixed langs a x) (hv : valid langs x = true) (hh : a.hook = Hook.init)
    (ha : a.asked = none) (r : Str) :
    ∃ a', a.steps langs (before.map (.hook · []) ++ .ask :: (after r).map (.hook · [])) = some a' ∧ Fixed langs a' x ∧
      a'.hook = answered x r ∧ a'.asked = some x := by
  have hk : App.known langs x.lang = true := by
    simp only [valid, Bool.and_eq_true] at hv
    exact hv.2
  obtain ⟨g, g', h1, h2, h3⟩ := first_answer (valid_empty langs) hv r
  obtain ⟨a1, k1, k2, k3, k4⟩ := Fixed.lifts hk before h (by simp [before]) (by rw [hh]; exact h1)
  have hask : a1.step langs .ask = some { a1 with hook := g', asked := some x } := by
    simp [App.step, k2.ok, k4, ha, k2.current, k3, h2]
  have k5 : Fixed langs { a1 with hook := g', asked := some x } x := ⟨k2.lang, k2.word, k2.same, k2.idle, k2.has, k2.ok⟩
  obtain ⟨a2, m1, m2, m3, m4⟩ := Fixed.lifts hk (after r) k5 (by simp [after]) h3
  exact ⟨a2, by rw [app_steps_append, k1]; simp [App.steps, hask, m1], m2, m3, m4⟩

end Verif.App
