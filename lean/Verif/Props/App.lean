import Verif.Proofs.App
import Verif.Props.Wasm
import Verif.Props.Commands
import Verif.Props.Address

/-! C79: the web page shows what its address names. -/

namespace Verif.Props

open Verif.Js Verif.App Verif.Spec.App Verif.Spec.Wasm Verif.Spec.Bundle Verif.Spec.Translit Verif.Specs
open Verif.Address (lit)
open Verif.Hook (Input)

/-- C79: once nothing is left to do, nothing is shown for an input which is not valid, and otherwise the answer of the worker for the
language and the word of the address.  An empty answer is shown as if there was none yet. -/
theorem C79_settled {langs : List Str} {search : Bytes} {random : Str} {es : List App.Event} {a : App}
    (h : (openApp langs search random).steps langs es = some a) (hs : Props.Settled a.hook) (ha : a.asked = some a.current)
    (hb : a.broken = false) :
    (App.valid langs a.current = false → a.view langs = some (false, [])) ∧
    (App.valid langs a.current = true → ∃ (j i : Nat) (r : Str), a.hook.jobs[j]? = some ⟨i, some r⟩ ∧ a.hook.inputs[i]? = some a.current ∧
      a.view langs = some (if r = [] then (true, lit "…") else (false, r))) := by
  have hi := Inv.steps es (Inv.openApp langs search random) h
  constructor
  · intro hv
    simp [App.view, loadingResult, hb, hv]
  · intro hv
    obtain ⟨fs, hr⟩ := hi.reach
    have hx := hi.asked _ ha
    rw [hs.1] at hx
    obtain ⟨j, r, h1, h2, h3⟩ := C76_settled (valid_empty langs) hr hs hx hv
    refine ⟨j, a.hook.shown.input, r, h1, hx, ?_⟩
    simp only [App.view, hb, loadingResult, hv, h2, h3]
    by_cases hr : r = []
    · simp [hr]; rfl
    · simp [hr]

/-- C79: if nothing can happen without the user, then nothing is left to do. -/
theorem C79_settles {langs : List Str} {search : Bytes} {random : Str} {es : List App.Event} {a : App}
    (h : (openApp langs search random).steps langs es = some a) (hb : a.broken = false)
    (hn : ∀ e, Spec.App.Automatic e → a.step langs e = none) : Props.Settled a.hook ∧ a.asked = some a.current := by
  have hi := Inv.steps es (Inv.openApp langs search random) h
  obtain ⟨fs, hr⟩ := hi.reach
  refine ⟨C76_settles (valid_empty langs) hr ?_, ?_⟩
  · intro e he
    have := hn (.hook e []) (by cases e <;> first | exact he.elim | trivial)
    cases hx : a.hook.step (App.valid langs) e with
    | none => rfl
    | some g => cases e <;> first | exact he.elim | simp [App.step, hb, hx] at this
  · have := hn .ask trivial
    simp only [App.step, hb, Bool.false_or, decide_eq_true_eq] at this
    split at this
    · assumption
    · simp [Hook.Hook.step] at this

theorem languages_fine : ∀ l ∈ listLangs entries, decodeText l ≠ [] ∧ ∃ rs, Spells (decodeText l) rs := by
  have h : ∀ x ∈ table, decodeText x.1 ≠ [] := by decide +kernel
  intro l hl
  have hname := listed_names l hl
  rw [C65_listed, Option.isSome_iff_exists] at hl
  obtain ⟨src, hl⟩ := hl
  obtain ⟨la, hm, _⟩ := bundled_sound hl
  obtain ⟨u, h1, h2⟩ := C69_to_js_partial hname.1 hname.2
  cases h1
  exact ⟨h _ hm, _, h2⟩

/-- C79: what happens without the user after it has typed a word or selected a language comes to an end. -/
theorem C79_terminates {langs : List Str} {search : Bytes} {random : Str} {es : List App.Event} (he : ∀ e ∈ es, e.Strings)
    {lang word r : Str} (hl : ∃ rs, Spells lang rs) (hw : ∃ rs, Spells word rs) (hn : lang ≠ []) (hk : lang ∈ langs) {f : Nat → App}
    (h : (openApp langs search random).steps langs (es ++ [.address (.change lang word) r]) = some (f 0)) :
    ¬ ∀ n, ∃ e, Spec.App.Automatic e ∧ (f n).step langs e = some (f (n + 1)) := by
  intro ha
  have hk : App.known langs lang = true := by simp [known, hk]
  rw [app_steps_append] at h
  obtain ⟨a, h1, h2⟩ := Option.bind_eq_some_iff.1 h
  obtain ⟨a', h3, h4⟩ := Option.bind_eq_some_iff.1 h2
  cases h4
  have hf : ∀ n, Fixed langs (f n) ⟨lang, word⟩ := by
    intro n
    induction n with
    | zero => exact typed_fixed (page_steps es he (Address.Inv.openPage search) h1) hl hw hn hk h3
    | succ n ih =>
      obtain ⟨e, g1, g2⟩ := ha n
      exact (ih.step hk (.inl g1) g2).1
  have quiet : ∀ m, ¬ ∀ n, ∃ e r, Spec.App.Automatic (.hook e r) ∧ (f (m + n)).step langs (.hook e r) = some (f (m + n + 1)) := by
    intro m hq
    refine C76_terminates (App.valid langs) (fun n => (f (m + n)).hook) ?_
    intro n
    obtain ⟨e, r, g1, g2⟩ := hq n
    refine ⟨e, ?_, (((hf (m + n)).step hk (.inl g1) g2).2.2.2 e r rfl).2⟩
    cases e <;> first | exact g1.elim | trivial
  have kinds : ∀ n, (f n).step langs .ask = some (f (n + 1)) ∨
      ∃ e r, Spec.App.Automatic (.hook e r) ∧ (f n).step langs (.hook e r) = some (f (n + 1)) := by
    intro n
    obtain ⟨e, g1, g2⟩ := ha n
    cases e with
    | ask => exact .inl g2
    | hook e r => exact .inr ⟨e, r, g1, g2⟩
    | address e r =>
      cases e with
      | effect l w =>
        simp only [App.step] at g2
        split at g2
        · cases g2
        · rw [if_neg (by simp [(hf n).has]), if_pos ((hf n).idle _ _)] at g2
          cases g2
      | _ => exact g1.elim
  by_cases hask : ∃ m, (f m).step langs .ask = some (f (m + 1))
  · obtain ⟨m, hm⟩ := hask
    have asked : ∀ n, (f (m + 1 + n)).asked = some ⟨lang, word⟩ := by
      intro n
      induction n with
      | zero => exact ((hf m).step hk (e := .ask) (.inl trivial) hm).2.2.1 rfl
      | succ n ih =>
        rcases kinds (m + 1 + n) with g | ⟨e, r, g1, g2⟩
        · exact ((hf _).step hk (e := .ask) (.inl trivial) g).2.2.1 rfl
        · exact (((hf _).step hk (.inl g1) g2).2.2.2 e r rfl).1.trans ih
    refine quiet (m + 1) ?_
    intro n
    rcases kinds (m + 1 + n) with g | g
    · simp [App.step, asked n, (hf (m + 1 + n)).current] at g
    · exact g
  · refine quiet 0 ?_
    intro n
    rw [Nat.zero_add]
    rcases kinds n with g | g
    · exact absurd ⟨n, g⟩ hask
    · exact g

/-- Once nothing is left to do, a page which stays at a listed language and a word shows what `Hangulize` returns in Go. -/
theorem fixed_shown {l : Libraries} (hl : Reliable l) {search : Bytes} {random : Str} {es : List App.Event} {lang : Bytes}
    (hlang : lang ∈ listLangs entries) {word : Str} (hb : ∃ u ∈ word, white u = false) {a : App}
    (h : (openApp languages search random).steps languages es = some a) (hx : Fixed languages a ⟨decodeText lang, word⟩)
    (hs : Props.Settled a.hook) (ha : a.asked = some a.current)
    (hr : ∀ (j i : Nat) (r : Str) (x : Input), a.hook.jobs[j]? = some ⟨i, some r⟩ → a.hook.inputs[i]? = some x → Replies l x r)
    (hu : (runes (encodeText word)).head? ≠ some 0xFEFF)
    (hout : ∀ t ∈ standard l, ∀ out, t.transliterate (encodeText word) = .ok out → Spec.Wasm.Plain out) :
    ∃ src o sp out, bundled lang = some src ∧ Ord.Ok o ∧ parseSpec o src = .ok sp ∧
      (forward sp (standardRegistry l) (encodeText word) none).1 = .ok out ∧
      a.view languages = some (if decodeText out = [] then (true, lit "…") else (false, decodeText out)) := by
  have hk : App.known languages (decodeText lang) = true := by
    simp only [known, Bool.or_eq_true, decide_eq_true_eq]
    exact .inl (List.mem_map_of_mem hlang)
  have hv : App.valid languages a.current = true := by
    obtain ⟨u, hu, hb⟩ := hb
    rw [hx.current]
    simp only [App.valid, hk, Bool.and_true, List.any_eq_true]
    exact ⟨u, hu, by simp [hb]⟩
  obtain ⟨j, i, r', g1, g2, g3⟩ := (C79_settled h hs ha hx.ok).2 hv
  obtain ⟨o, o', specs, ready, q, answers, before, after, visit, t, k1, k2, k3, k4, k5, k6, k7, k8, k9⟩ := hr j i r' _ g1 g2
  rw [hx.current] at k3 k4 k5
  obtain ⟨t', sp, src, o'', out, tr, m1, m2, m3, m4, m5, m6, _⟩ := C72_resolved_partial k1 k2 hl hlang k3 k4 k5 k6 hu hout
    (fun t' ht ask => by rw [k7] at ht; cases ht; exact k8 ask)
  rw [k7] at m1
  cases m1
  refine ⟨src, o'', sp, out, m2, m3, m4, ?_, ?_⟩
  · rw [show tracerFor [Value.undefined] = none from rfl] at m5
    rw [m5]
  · rw [g3, k9, m6]
    rfl

/-- C79 (partial): whatever happened before, the user types a word or selects a listed language.  Once nothing is left to do, the page
shows what `Hangulize` returns in Go.  The answers are those of the module in the worker, with the workers for its
translits.  Missing: words which are hangulized to nothing, for which the page looks as if it was loading; words with a byte order mark
at the start, or in the output of a translit; other languages (`C79_unknown_refuted`, `C79_inherited_refuted`). -/
theorem C79_typed_partial {l : Libraries} (hl : Reliable l) {search : Bytes} {random r : Str} {es fs : List App.Event}
    (he : ∀ e ∈ es, e.Strings) (hf : ∀ e ∈ fs, Spec.App.Automatic e ∨ ∃ random, e = .hook .specs random) {lang : Bytes}
    (hlang : lang ∈ listLangs entries) {word : Str} (hw : ∃ rs, Spells word rs) (hb : ∃ u ∈ word, white u = false) {a : App}
    (h : (openApp languages search random).steps languages (es ++ .address (.change (decodeText lang) word) r :: fs) = some a)
    (hs : Props.Settled a.hook) (ha : a.asked = some a.current)
    (hr : ∀ (j i : Nat) (r : Str) (x : Input), a.hook.jobs[j]? = some ⟨i, some r⟩ → a.hook.inputs[i]? = some x → Replies l x r)
    (hu : (runes (encodeText word)).head? ≠ some 0xFEFF)
    (hout : ∀ t ∈ standard l, ∀ out, t.transliterate (encodeText word) = .ok out → Spec.Wasm.Plain out) :
    ∃ src o sp out, bundled lang = some src ∧ Ord.Ok o ∧ parseSpec o src = .ok sp ∧
      (forward sp (standardRegistry l) (encodeText word) none).1 = .ok out ∧
      a.view languages = some (if decodeText out = [] then (true, lit "…") else (false, decodeText out)) := by
  obtain ⟨hne, hsp⟩ := languages_fine lang hlang
  have hk : App.known languages (decodeText lang) = true := by
    simp only [known, Bool.or_eq_true, decide_eq_true_eq]
    exact .inl (List.mem_map_of_mem hlang)
  have h' := h
  rw [app_steps_append] at h
  obtain ⟨b, h1, h2⟩ := Option.bind_eq_some_iff.1 h
  obtain ⟨c, h3, h4⟩ := Option.bind_eq_some_iff.1 h2
  exact fixed_shown hl hlang hb h' (Fixed.steps hk fs (typed_fixed (page_steps es he (Address.Inv.openPage search) h1) hsp hw hne hk h3) hf h4)
    hs ha hr hu hout

/-- The worker answers the calls for languages without translits. -/
theorem replies_direct {x : Input} (hx : ∀ src o sp, bundled (Value.string x.lang).text = some src → Ord.Ok o → parseSpec o src = .ok sp →
    sp.lang.translit = []) : ∃ r, Replies plain x r ∧ (bundled (Value.string x.lang).text = none → r = []) := by
  obtain ⟨specs, ready, hm, _⟩ := C71_specs (o := .written) written_ok
  have hok : ∀ e ∈ workerEvents ++ [Wasm.Event.hangulize .written id [.string x.lang, .string x.word, .undefined]], EventOk e ∧ Documented e := by
    intro e he
    simp only [workerEvents, List.mem_append, List.mem_map, List.mem_singleton] at he
    rcases he with ⟨y, _, rfl⟩ | rfl
    · exact ⟨trivial, _, _, _, rfl⟩
    · exact ⟨⟨written_ok, fun _ => List.Perm.refl _⟩, ⟨written_ok, fun _ => List.Perm.refl _⟩, _, _, _, rfl, .inr ⟨_, .inl rfl⟩⟩
  obtain ⟨q, hq⟩ := C70_no_crash_partial written_ok hm (fun e he => (hok e he).2)
  have hf : Faithful bundled ready workerAnswers
      (workerEvents ++ [Wasm.Event.hangulize .written id [.string x.lang, .string x.word, .undefined]]) := by
    intro before ask r after p a e
    have : Wasm.Event.settle ask r ∈ workerEvents ++ [Wasm.Event.hangulize .written id [.string x.lang, .string x.word, .undefined]] := by
      rw [e]; simp
    simp [workerEvents] at this
  obtain ⟨p1, h1, h2⟩ := Wasm.run_append.1 hq
  obtain ⟨p2, h3, h4⟩ := Wasm.run_cons.1 h2
  obtain ⟨ts, t, g1, g2, g3, g4⟩ := Wasm.call_good (answers := workerAnswers) (Wasm.main_ready written_ok hm)
    (fun e h' => (hok e (by simp [h'])).1) h1 (hok _ (by simp)).1 h3
  cases h4
  rcases g4 with g4 | ⟨sp, src, o, scheme, todo, _, _, _, _, done, _, k1, k2, k3, k4, _⟩
  · refine ⟨textOf t.status, ⟨.written, .written, specs, ready, q, workerAnswers, workerEvents, [], id, t, written_ok, hm,
      fun e he => (hok e he).1, hf, hq, worker_page.1, g2, ?_, rfl⟩, ?_⟩
    · rintro ask ⟨_, _, _, _, _, hp⟩
      rw [hp] at g4
      cases g4
    · intro hn
      generalize hst : t.status = st at g4
      generalize t.log = lg at g4
      cases g4 with
      | unknown => rfl
      | resolved found => rw [hn] at found; cases found
      | rejected found => rfl
  · rw [hx src o sp k1 k2 k3] at k4
    cases done <;> cases k4

theorem answered_settled (x : Input) (r : Str) : Props.Settled (answered x r) := by simp [Props.Settled, answered]

/-- All answers are those of the worker. -/
theorem answered_replies {x : Input} {r : Str} (h : Replies plain x r) : ∀ (j i : Nat) (r' : Str) (y : Input),
    (answered x r).jobs[j]? = some ⟨i, some r'⟩ → (answered x r).inputs[i]? = some y → Replies plain y r' := by
  intro j i r' y h1 h2
  cases j with
  | zero => cases h1; cases h2; exact h
  | succ j => cases h1

/-- The page is opened without a query, the user types `Roma` and selects Italian, and the worker answers. -/
example : ∃ r a, (openApp languages [] (lit "ces")).steps languages ([] ++ .address (.change (decodeText (str "ita")) (lit "Roma")) [] ::
      (before.map (.hook · []) ++ .ask :: (after r).map (.hook · []))) = some a ∧ Props.Settled a.hook ∧ a.asked = some a.current ∧
    ∃ src o sp out, bundled (str "ita") = some src ∧ Ord.Ok o ∧ parseSpec o src = .ok sp ∧
      (forward sp (standardRegistry plain) (encodeText (lit "Roma")) none).1 = .ok out ∧
      a.view languages = some (if decodeText out = [] then (true, lit "…") else (false, decodeText out)) := by
  have hlang : str "ita" ∈ listLangs entries := by rw [C65_listed]; decide +kernel
  have hw : ∃ rs, Spells (lit "Roma") rs := ⟨_, (Address.lit_spells _).2 (by decide)⟩
  obtain ⟨hne, hsp⟩ := languages_fine _ hlang
  have hk : App.known languages (decodeText (str "ita")) = true := by
    simp only [known, Bool.or_eq_true, decide_eq_true_eq]
    exact .inl (List.mem_map_of_mem hlang)
  have hf := typed_fixed (langs := languages) (a := openApp languages [] (lit "ces")) (Address.Inv.openPage []) hsp hw hne hk (random := [])
    (a' := App.render languages [] { openApp languages [] (lit "ces") with
      page := (openApp languages [] (lit "ces")).page.step (.change (decodeText (str "ita")) (lit "Roma")) }) (by
      have : (openApp languages [] (lit "ces")).broken = false := by decide +kernel
      simp only [App.step, this]
      rfl)
  have hit : (Value.string (decodeText (str "ita"))).text = str "ita" := by decide +kernel
  obtain ⟨r, hr, _⟩ := replies_direct (x := ⟨decodeText (str "ita"), lit "Roma"⟩) (by
    intro src o sp h1 h2 h3
    rw [hit] at h1
    have ht : ∀ x ∈ table, x.1 = str "ita" → x.2.2.translit = [] := by decide +kernel
    obtain ⟨la, hm, hsd⟩ := bundled_sound h1
    obtain ⟨sp', p1, p2, _⟩ := hsd o h2
    rw [h3] at p1
    cases p1
    rw [p2]
    exact ht _ hm rfl)
  obtain ⟨a, k1, k2, k3, k4⟩ := hf.answers (by simp only [App.valid, hk, Bool.and_true]; decide) rfl rfl r
  have hsteps : (openApp languages [] (lit "ces")).steps languages ([] ++ .address (.change (decodeText (str "ita")) (lit "Roma")) [] ::
      (before.map (.hook · []) ++ .ask :: (after r).map (.hook · []))) = some a := by
    have : (openApp languages [] (lit "ces")).broken = false := by decide +kernel
    rw [List.nil_append, App.steps]
    simp only [App.step, this]
    exact k1
  have hs : Props.Settled a.hook := k3 ▸ answered_settled _ _
  have ha : a.asked = some a.current := k4.trans (by rw [k2.current])
  refine ⟨r, a, hsteps, hs, ha, C79_typed_partial plain_reliable (by simp) ?_ hlang hw ⟨0x52, by decide, by decide⟩ hsteps hs ha
    (by rw [k3]; exact answered_replies hr) (by decide +kernel) ?_⟩
  · intro e he
    left
    simp only [before, after, List.map_cons, List.map_nil, List.cons_append, List.nil_append, List.mem_cons, List.not_mem_nil,
      or_false] at he
    rcases he with rfl | rfl | rfl | rfl | rfl | rfl | rfl | rfl | rfl <;> trivial
  · have h3 : ((standard plain).all fun t => match t.transliterate (encodeText (lit "Roma")) with
        | .ok out => decide (encode (runes out) = out ∧ (runes out).head? ≠ some 0xFEFF)
        | _ => false) = true := by decide +kernel
    intro t ht out ho
    have := List.all_eq_true.1 h3 t ht
    simp only [ho, decide_eq_true_eq] at this
    exact ⟨(validUtf8_iff _).2 this.1, this.2⟩

/-- A state in which nothing can happen without the user, as in `C79_settles`: the page above after the answer. -/
theorem answered_quiet {langs : List Str} {a : App} {x : Input} (hf : Fixed langs a x) {r : Str} (hh : a.hook = answered x r)
    (ha : a.asked = some x) : ∀ e, Spec.App.Automatic e → a.step langs e = none := by
  intro e he
  cases e with
  | ask => simp [App.step, hf.current, ha]
  | address e random =>
    cases e with
    | effect l w =>
      simp only [App.step]
      split
      · rfl
      · rw [if_neg (by simp [hf.has]), if_pos (hf.idle _ _)]
    | _ => exact he.elim
  | hook e random =>
    have key : a.hook.step (App.valid langs) e = none := by
      rw [hh]
      cases e with
      | input x => exact he.elim
      | specs => exact he.elim
      | render => simp [Hook.Hook.step, answered]
      | effect => simp [Hook.Hook.step, answered, Hook.Hook.due]
      | wake k => cases k <;> simp [Hook.Hook.step, answered]
      | answer j r => cases j <;> simp [Hook.Hook.step, answered]
      | resume k => cases k <;> simp [Hook.Hook.step, answered]
      | fire t => simp [Hook.Hook.step, answered]
    cases e <;> first | exact he.elim | simp [App.step, hf.ok, key]

/-- C79 fails for addresses with another language: the page is empty. -/
theorem C79_unknown_refuted : ∃ search, ∀ random, (openApp languages search random).view languages = none ∧
    ∀ e, (openApp languages search random).step languages e = none := by
  refine ⟨str "?lang=xyz&word=a", fun random => ?_⟩
  have h1 : (Address.openPage (str "?lang=xyz&word=a")).lang = some (lit "xyz") := by decide +kernel
  have h2 : App.known languages (lit "xyz") = false := by decide +kernel
  have hb : (openApp languages (str "?lang=xyz&word=a") random).broken = true := by
    simp [openApp, App.render, h1, h2]
  refine ⟨by simp [App.view, hb], ?_⟩
  intro e
  cases e with
  | address e r => cases e <;> simp [App.step, hb]
  | ask => simp [App.step, hb]
  | hook e r => cases e <;> simp [App.step, hb]

/-- C79 fails for the properties of all objects: they are taken for languages, the worker answers nothing, and the page looks as if it was
loading forever. -/
theorem C79_inherited_refuted : ∃ search es a, (∀ random, (openApp languages search random).steps languages es = some a) ∧
    Props.Settled a.hook ∧ a.asked = some a.current ∧ (∀ lang ∈ listLangs entries, a.current.lang ≠ decodeText lang) ∧
    (∀ (j i : Nat) (r : Str) (x : Input), a.hook.jobs[j]? = some ⟨i, some r⟩ → a.hook.inputs[i]? = some x → Replies plain x r) ∧
    a.view languages = some (true, lit "…") := by
  have h1 : (Address.openPage (str "?lang=constructor&word=a")).lang = some (lit "constructor") := by decide +kernel
  have h2 : App.known languages (lit "constructor") = true := by decide +kernel
  have h3 : (Address.openPage (str "?lang=constructor&word=a")).params.has (lit "lang") = true ∧
      (Address.openPage (str "?lang=constructor&word=a")).params.has (lit "word") = true ∧
      (Address.openPage (str "?lang=constructor&word=a")).word = lit "a" := by decide +kernel
  have same : ∀ random, openApp languages (str "?lang=constructor&word=a") random = openApp languages (str "?lang=constructor&word=a") [] := by
    intro random
    simp [openApp, App.render, h1]
  have hf : Fixed languages (openApp languages (str "?lang=constructor&word=a") []) ⟨lit "constructor", lit "a"⟩ :=
    ⟨h1, h3.2.2, by simp [openApp, App.render, h1], Address.effect_idle h3.1 h3.2.1, h3.2.1, by simp [openApp, App.render, h1, h2]⟩
  have hno : bundled (Value.string (lit "constructor")).text = none := by decide +kernel
  obtain ⟨r, hr, he⟩ := replies_direct (x := ⟨lit "constructor", lit "a"⟩) (by intro src o sp h; rw [hno] at h; cases h)
  cases he hno
  obtain ⟨a, k1, k2, k3, k4⟩ := hf.answers (by simp only [App.valid, h2, Bool.and_true]; decide) rfl rfl []
  refine ⟨_, _, a, fun random => by rw [same random]; exact k1, k3 ▸ answered_settled _ _, k4.trans (by rw [k2.current]), ?_,
    by rw [k3]; exact answered_replies hr, ?_⟩
  · intro lang hl e
    rw [k2.current] at e
    have hname := listed_names lang hl
    have := C69_back_partial hname.1 hname.2
    rw [C65_listed] at hl
    rw [show ofText lang = .string (decodeText lang) from rfl, ← e] at this
    rw [← this, hno] at hl
    cases hl
  · simp only [App.view, k2.ok, k2.current, k3, answered, loadingResult, App.valid, h2, Bool.and_true]
    decide

end Verif.Props
