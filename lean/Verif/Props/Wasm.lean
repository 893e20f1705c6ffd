import Verif.Proofs.JsText
import Verif.Proofs.JsBroken
import Verif.Props.Bundle

/-! C69–C72: the JavaScript API. -/

namespace Verif.Props

open Verif.Js Verif.Wasm Verif.Spec.Wasm Verif.Spec.Bundle Verif.Spec.Translit Verif.Specs

/-! ## C69 -/

/-- C69: the text of a well-formed JavaScript string arrives in Go. -/
theorem C69_to_go {s : Str} {rs : List Rune} (h : Spells s rs) : (Value.string s).text = encode rs ∧ runes (encode rs) = rs := by
  refine ⟨?_, runes_encode (spells_valid h)⟩
  simp only [Value.text, encodeText, chars_spells h]

/-- C69: each lone surrogate becomes a replacement character, and what is around it arrives. -/
theorem C69_lone {a b : Str} {ra rb : List Rune} (ha : Spells a ra) (hb : Spells b rb) {u : Nat} (hu : 0xD800 ≤ u ∧ u < 0xE000) :
    (Value.string (a ++ u :: b)).text = encode (ra ++ 0xFFFD :: rb) := by
  simp only [Value.text, encodeText]
  rw [chars_spells_append ha, chars_cons' (spells_head hb), chars_spells hb, unit_surrogate hu]
  rfl

/-- C69: what arrives in Go is valid UTF-8. -/
theorem C69_valid (s : Str) : ValidUtf8 (Value.string s).text := encode_validUtf8 _

/-- C69, without byte order marks: the text of a Go string arrives in JavaScript. -/
theorem C69_to_js_partial {s : Bytes} (h : ValidUtf8 s) (hb : (runes s).head? ≠ some 0xFEFF) :
    ∃ u, ofText s = .string u ∧ Spells u (runes s) := by
  obtain ⟨u, h1, h2⟩ := says_ofText h
  rw [if_neg hb] at h2
  exact ⟨u, h1, h2⟩

/-- C69, without byte order marks: a text which goes to JavaScript and comes back is the same. -/
theorem C69_back_partial {s : Bytes} (h : ValidUtf8 s) (hb : (runes s).head? ≠ some 0xFEFF) : (ofText s).text = s :=
  text_ofText h hb

/-- C69: a byte order mark at the start of a text is lost on the way to JavaScript, and nothing else. -/
theorem C69_bom {s : Bytes} (h : ValidUtf8 s) (hb : (runes s).head? = some 0xFEFF) :
    ∃ u, ofText s = .string u ∧ Spells u (runes s).tail := by
  obtain ⟨u, h1, h2⟩ := says_ofText h
  rw [if_pos hb] at h2
  exact ⟨u, h1, h2⟩

/-- C69 fails for a byte order mark at the start. -/
theorem C69_back_refuted : ∃ s, ValidUtf8 s ∧ (ofText s).text ≠ s :=
  ⟨encode [0xFEFF, 0x61], encode_validUtf8 _, by decide +kernel⟩

/-- C69: of a Go string which is no UTF-8 the characters arrive, and replacement characters between them, but not as many as
Go would see; a byte order mark at the start is lost as well. -/
theorem C69_broken (s : Bytes) : ∃ u rs, ofText s = .string u ∧ Spells u rs ∧
    rs.filter (· ≠ 0xFFFD) = (runes (if [0xEF, 0xBB, 0xBF] <+: s then s.drop 3 else s)).filter (· ≠ 0xFFFD) := by
  have key : ∀ s, ∃ u rs, u = units (decodeBytes none s) ∧ Spells u rs ∧ rs.filter (· ≠ 0xFFFD) = (runes s).filter (· ≠ 0xFFFD) := by
    intro s
    have h := intact_decode s.length s (Nat.le_refl _)
    refine ⟨_, _, rfl, spells_units fun r hr => ?_, h⟩
    by_cases e : r = 0xFFFD
    · subst e; decide
    · have : r ∈ intact (decodeBytes none s) := List.mem_filter.2 ⟨hr, decide_eq_true (show r ≠ runeError from e)⟩
      rw [h] at this
      exact runes_valid s r (List.mem_filter.1 this).1
  unfold ofText decodeText
  by_cases hb : bom.isPrefixOf s = true
  · obtain ⟨u, rs, h1, h2, h3⟩ := key (s.drop 3)
    refine ⟨u, rs, ?_, h2, ?_⟩
    · rw [if_pos hb, h1]
    · rw [if_pos (show [0xEF, 0xBB, 0xBF] <+: s from List.isPrefixOf_iff_prefix.1 hb), h3]
  · obtain ⟨u, rs, h1, h2, h3⟩ := key s
    refine ⟨u, rs, ?_, h2, ?_⟩
    · rw [if_neg hb, h1]
    · rw [if_neg (fun h : [0xEF, 0xBB, 0xBF] <+: s => hb (List.isPrefixOf_iff_prefix.2 h)), h3]

/-- Half of a character is one replacement character for JavaScript, and two for Go. -/
example : decodeText [0xEA, 0xB0, 0x61] = [0xFFFD, 0x61] ∧ runes [0xEA, 0xB0, 0x61] = [0xFFFD, 0xFFFD, 0x61] := by decide +kernel

/-- A letter, a pair of surrogates and a Korean syllable; a lone surrogate. -/
example : (Value.string [0x61, 0xD83D, 0xDE00, 0xAC00]).text = str "a😀가" ∧
    (Value.string [0x61, 0xD83D, 0xAC00]).text = str "a�가" ∧
    decodeText (str "a😀가") = [0x61, 0xD83D, 0xDE00, 0xAC00] := by decide +kernel

example : Spells [0x61, 0xD83D, 0xDE00, 0xAC00] [0x61, 0x1F600, 0xAC00] :=
  .basic (by omega) (.pair (by omega) (by omega) (.basic (by omega) .nil))

/-! ## C70 -/

/-- C70: whatever happens on a page before and after, a call of `hangulize` has settled its Promise as `Hangulize` does
in Go, with the translits registered before it, and has passed the same traces; or it waits for the Promise of a
translit, which has not been settled. -/
theorem C70_results {files : Files} {o : Ord} (ho : o.Ok) {langs : List Bytes} {specs : Value} {ready : Page}
    (hm : main files o langs = .ok (specs, ready)) {answers : Answers} {before after : List Event} {o' : Ord}
    {visit : List (Bytes × Value) → List (Bytes × Value)} {lang word : Value} {rest : List Value} {q : Page}
    (he : ∀ e ∈ before ++ .hangulize o' visit (lang :: word :: rest) :: after, EventOk e)
    (hf : Faithful files ready answers (before ++ .hangulize o' visit (lang :: word :: rest) :: after))
    (h : run files ready (before ++ .hangulize o' visit (lang :: word :: rest) :: after) = .ok q) :
    ∃ t, q.tasks[before.countP IsCall]? = some t ∧
      ((∃ ask, Pending t ask ∧
          ¬ Settled files ready (before ++ .hangulize o' visit (lang :: word :: rest) :: after) ask) ∨
        Finished files (registered answers before) lang.text word.text (tracerFor rest) t.status t.log) := by
  have hr := main_ready ho hm
  obtain ⟨p1, h1, h2⟩ := run_append.1 h
  obtain ⟨p2, h3, h4⟩ := run_cons.1 h2
  obtain ⟨ts, t, g1, g2, g3⟩ := call_good (answers := answers) hr (fun e h' => he e (by simp [h'])) h1
    (he _ (by simp)) h3
  obtain ⟨t', g4, g5⟩ := run_good g1 h4 (by
    intro before' ask r after' p' a e hrun hask
    refine hf (before ++ .hangulize o' visit (lang :: word :: rest) :: before') ask r after' p' a (by rw [e]; simp) ?_ hask
    exact run_append.2 ⟨p1, h1, run_cons.2 ⟨p2, h3, hrun⟩⟩) g2 g3
  refine ⟨t', g4, ?_⟩
  rcases g5.cases with ⟨ask, hp⟩ | hfin
  · exact .inl ⟨ask, hp, pending_unsettled hr h (List.mem_of_getElem? g4) hp⟩
  · rw [tracer_eq] at hfin
    exact .inr hfin

/-- C70: a Promise is settled once. -/
theorem C70_once {files : Files} {p q : Page} {evs : List Event} (h : run files p evs = .ok q) {i : Nat} {t : Task}
    (hi : p.tasks[i]? = some t) (ht : ∀ ask, ¬ Pending t ask) : q.tasks[i]? = some t := run_stable ht h hi

theorem afterTranslit_runs {o : Ord} {src : Bytes} {sp : Spec} (h : parseSpec o src = .ok sp)
    (hr : ∀ r ∈ sp.rewrite ++ sp.transcribe, Hre.checked r = true) : Runs sp := by
  intro w tr
  have hn := parseSpec_numbered h
  rw [afterTranslit_eq hn, afterRun]
  rw [partition_eq sp (normalizeScript_valid sp _)]
  simp only [Go.bind_ok]
  generalize Spec.Subword.chunks _ = sws
  obtain ⟨rows, out, h1⟩ := rewriteAll_ok (fun r hr' => Hre.checked_wellBehaved (hr r (List.mem_append_left _ hr'))) sws
  obtain ⟨rows', out', h2⟩ := transcribeAll_ok (fun r hr' => Hre.checked_wellBehaved (hr r (List.mem_append_right _ hr')))
    (Builder.subwords out)
  simp only [h1, h2, Go.bind_ok, Go.pure_eq]
  exact ⟨_, _, rfl⟩

theorem bundled_runs {lang src : Bytes} {o : Ord} {sp : Spec} (h1 : bundled lang = some src) (h2 : o.Ok)
    (h3 : parseSpec o src = .ok sp) : Runs sp := by
  obtain ⟨o', src', _, hp, g1, g2⟩ := loaded_checked ⟨lang, src, o, h1, h2, h3⟩
  refine afterTranslit_runs hp fun r hr => ?_
  rcases List.mem_append.1 hr with hr | hr
  · exact bundleCheck_checked (g1 r hr)
  · exact bundleCheck_checked (g2 r hr)

/-- C70: what the tracing function is given tells the step, the word, the reason and the rule of the trace. -/
theorem C70_traces (t : Trace) : Tells (jsTrace t) t (Cli.stepName t.step) := tells t

/-- C70, for a page which does as the documentation says: with the bundled specs nothing ends the module. -/
theorem C70_no_crash_partial {o : Ord} (ho : o.Ok) {langs : List Bytes} {specs : Value} {ready : Page}
    (hm : main bundled o langs = .ok (specs, ready)) {evs : List Event} (he : ∀ e ∈ evs, Documented e) :
    ∃ q, run bundled ready evs = .ok q := by
  have hr := main_ready ho hm
  obtain ⟨q, h, _⟩ := Wasm.Safe.run (fun lang src o sp h1 h2 h3 => bundled_runs h1 h2 h3)
    (fun o lang specs ho hc => by obtain ⟨r, s, h, _⟩ := load_runs ho lang hc; exact ⟨r, s, h⟩) evs (p := ready)
    ⟨by rw [hr.registry]; intro s v h; simp at h, hr.cache, by rw [hr.tasks]; simp⟩
    (by rw [hr.registry]; simp [Keyed]) he
  exact ⟨q, h⟩

/-- A language with a translit, and one without. -/
def twoLangs : Files := fun lang =>
  if lang = str "aa" then some (str "lang:\nid = \"aa\"\ncodes = \"a\", \"aa\"\nscript = \"Latn\"\ntranslit = \"up\"\n\
transcribe:\n\"b\" -> \"ㅂ\"\n\"a\" -> \"ㅏ\"\n")
  else if lang = str "bb" then some (str "lang:\nid = \"bb\"\ncodes = \"b\", \"bb\"\nscript = \"Latn\"\n\
transcribe:\n\"c\" -> \"ㄱ\"\n\"a\" -> \"ㅏ\"\n")
  else none

/-- A page with some events, from the start. -/
def onPage (evs : List Event) : Go Page :=
  (main twoLangs .written [str "aa", str "bb"]).bind fun x => run twoLangs x.2 evs

/-- The states of the Promises: the text they are resolved with, the number of the call they wait for, or the error. -/
def promises (p : Page) : List (Bytes ⊕ Nat ⊕ Err) := p.tasks.map fun t =>
  match t.status with
  | .resolved v => .inl v.text
  | .waiting _ _ _ _ _ ask => .inr (.inl ask)
  | .rejected e => .inr (.inr e)

/-- Two calls wait for the translit of the page, one does not; the answers come in the opposite order, and one is an Error.
Without the translit and for an unknown language the Promise is rejected at once. -/
example : let text := fun s => Value.string (decodeText (str s))
    let call := fun lang word => Event.hangulize .written id [text lang, text word, .func 7]
    let evs := [call "aa" "x", .useTranslit [text "up", .func 3], call "aa" "y", call "aa" "z", call "bb" "ca", call "cc" "ca"]
    (onPage evs).bind (fun p => .ok (promises p)) =
      .ok [.inr (.inr .translitNotImported), .inr (.inl 0), .inr (.inl 1), .inl (str "가"), .inr (.inr .specNotFound)] ∧
    (onPage (evs ++ [.settle 1 (.inl (text "ba")), .settle 0 (.inr (.object []))])).bind (fun p => .ok (promises p)) =
      .ok [.inr (.inr .translitNotImported), .inr (.inr .translit), .inl (str "바"), .inl (str "가"), .inr (.inr .specNotFound)] ∧
    (onPage evs).bind (fun p => .ok (p.asks.map fun a => (a.fn, a.arg.text))) = .ok [(3, str "y"), (3, str "z")] ∧
    (onPage evs).bind (fun p => .ok (p.tasks.map fun t => t.log.length)) = .ok [1, 1, 1, 4, 0] := by decide +kernel

/-- A translit rejects its Promise with a string. -/
def rejection : List Event := [.useTranslit [.string [0x75, 0x70], .func 3],
  .hangulize .written id [.string [0x61, 0x61], .string [0x62]], .settle 0 (.inr (.string [0x6E, 0x6F]))]

/-- C70 fails for a translit which rejects its Promise with a string: the module panics, and with it ends every other
call. -/
theorem C70_no_crash_refuted : ∃ (files : Files) (langs : List Bytes) (specs : Value) (ready : Page) (evs : List Event),
    main files .written langs = .ok (specs, ready) ∧ (∀ e ∈ evs, EventOk e) ∧ run files ready evs = .panic := by
  have h : ((main twoLangs .written [str "aa", str "bb"]).bind fun x =>
      match run twoLangs x.2 rejection with
      | .panic => .ok true
      | _ => .ok false) = .ok true := by decide +kernel
  rw [Rx.go_bind_ok] at h
  obtain ⟨⟨specs, ready⟩, h1, h2⟩ := h
  refine ⟨twoLangs, _, specs, ready, rejection, h1, ?_, ?_⟩
  rotate_left
  · split at h2
    · rename_i h3; exact h3
    · cases h2
  · intro e he
    simp only [rejection, List.mem_cons, List.not_mem_nil, or_false] at he
    rcases he with rfl | rfl | rfl
    · trivial
    · exact ⟨⟨fun _ _ _ l => List.Perm.refl _, fun l => List.Perm.refl _⟩, fun l => List.Perm.refl _⟩
    · trivial

/-- C70 fails for a tracing function which is no function: the module panics, instead of rejecting the Promise. -/
theorem C70_tracer_refuted : ∃ (files : Files) (langs : List Bytes) (specs : Value) (ready : Page) (traceFn : Value),
    main files .written langs = .ok (specs, ready) ∧
    run files ready [.hangulize .written id [ofText (str "bb"), ofText (str "ca"), traceFn]] = .panic := by
  have h : ((main twoLangs .written [str "aa", str "bb"]).bind fun x =>
      match run twoLangs x.2 [.hangulize .written id [ofText (str "bb"), ofText (str "ca"), .null]] with
      | .panic => .ok true
      | _ => .ok false) = .ok true := by decide +kernel
  rw [Rx.go_bind_ok] at h
  obtain ⟨⟨specs, ready⟩, h1, h2⟩ := h
  refine ⟨twoLangs, _, specs, ready, .null, h1, ?_⟩
  split at h2
  · rename_i h3; exact h3
  · cases h2

/-- The same with an Error is fine. -/
example : (onPage [.useTranslit [.string [0x75, 0x70], .func 3],
    .hangulize .written id [.string [0x61, 0x61], .string [0x62]], .settle 0 (.inr (.object []))]).bind (fun p =>
      .ok (promises p)) = .ok [.inr (.inr .translit)] := by decide +kernel

/-! ## C71 -/

theorem table_texts : ∀ x ∈ table, ∃ ls, x.2.1 = Hsl.text ls := by
  unfold table
  repeat refine List.forall_mem_cons.2 ⟨⟨_, rfl⟩, ?_⟩
  simp

theorem bundled_valid {lang src : Bytes} (h : bundled lang = some src) : ValidUtf8 src := by
  obtain ⟨l, hm, _⟩ := bundled_sound h
  obtain ⟨ls, e⟩ := table_texts _ hm
  simp only at e
  rw [e]
  exact Hsl.text_valid ls

theorem table_names : ∀ x ∈ table, encode (runes x.1) = x.1 ∧ (runes x.1).head? ≠ some 0xFEFF := by decide +kernel

theorem listed_names : ∀ l ∈ listLangs entries, ValidUtf8 l ∧ (runes l).head? ≠ some 0xFEFF := by
  intro l hl
  rw [C65_listed, Option.isSome_iff_exists] at hl
  obtain ⟨src, hl⟩ := hl
  obtain ⟨la, hm, _⟩ := bundled_sound hl
  obtain ⟨h1, h2⟩ := table_names _ hm
  exact ⟨(validUtf8_iff _).2 h1, h2⟩

/-- C71: the module starts, and `hangulize.specs` has an entry for each listed language, which tells what the spec says,
and no other entries. -/
theorem C71_specs {o : Ord} (ho : o.Ok) : ∃ specs ready, main bundled o (listLangs entries) = .ok (specs, ready) ∧
    (∀ lang ∈ listLangs entries, ∃ v src o' sp, specs.get (decodeText lang) = .ok v ∧ bundled lang = some src ∧ Ord.Ok o' ∧
      parseSpec o' src = .ok sp ∧ sp.lang.id = lang ∧ Describes v sp) ∧
    ∀ name, (∀ lang ∈ listLangs entries, name ≠ decodeText lang) → specs.get name = .ok .undefined := by
  obtain ⟨fields, specs, h1⟩ := jsSpecs_ok (files := bundled) ho
    (fun o lang specs ho hc => by obtain ⟨r, s, h, _⟩ := load_runs ho lang hc; exact ⟨r, s, h⟩)
    (langs := listLangs entries) (specs := []) (fun lang hl => (C65_listed lang).1 hl) (by intro l sp hl; simp at hl)
  have he := jsSpecs_entries ho h1 (by intro l sp hl; simp at hl)
  refine ⟨.object fields, { Page.init with specs }, by simp [main, h1], ?_, fun name hn => he.only hn⟩
  intro lang hl
  obtain ⟨src, o', sp, g1, g2, g3, g4⟩ := he.get (distinct_of listed_names) hl
  refine ⟨_, src, o', sp, g4, g1, g2, g3, ?_, describes g3 (bundled_valid g1)⟩
  obtain ⟨l, hm, hs⟩ := bundled_sound g1
  obtain ⟨sp', hp, e, _⟩ := hs o' g2
  rw [g3, Go.ok.injEq] at hp
  subst hp
  rw [e]
  exact table_ids _ hm

/-! ## C72 -/

/-- C72: the worker of a standard scheme returns what the translit returns, for all strings. -/
theorem C72_workers {l : Libraries} (hl : Reliable l) : ∀ t ∈ standard l, ∀ word : Value,
    ∃ out, t.transliterate word.text = .ok out ∧ workerTranslit l t.scheme word = .ok (ofText out) := by
  intro t ht word
  obtain ⟨out, ho⟩ := C66_standard_translits hl t ht word.text
  refine ⟨out, ho, ?_⟩
  have hn : ∀ s ∈ [str "cyrillic[bg]", str "cyrillic[mk]", str "cyrillic[ru]", str "cyrillic[ua]"],
      normalizeMethod s = str "cyrillic" ∧ (ofText s).text = s := by decide +kernel
  have hne : normalizeMethod (str "furigana") ≠ str "cyrillic" ∧ normalizeMethod (str "furigana") = str "furigana" ∧
      normalizeMethod (str "pinyin") ≠ str "cyrillic" ∧ normalizeMethod (str "pinyin") ≠ str "furigana" ∧
      normalizeMethod (str "pinyin") = str "pinyin" := by decide +kernel
  have hs : str "cyrillic[" ++ str "bg" ++ str "]" = str "cyrillic[bg]" ∧ str "cyrillic[" ++ str "mk" ++ str "]" = str "cyrillic[mk]" ∧
      str "cyrillic[" ++ str "ru" ++ str "]" = str "cyrillic[ru]" ∧ str "cyrillic[" ++ str "ua" ++ str "]" = str "cyrillic[ua]" := by
    decide +kernel
  have hd : str "cyrillic[mk]" ≠ str "cyrillic[bg]" ∧ str "cyrillic[ru]" ≠ str "cyrillic[bg]" ∧
      str "cyrillic[ru]" ≠ str "cyrillic[mk]" ∧ str "cyrillic[ua]" ≠ str "cyrillic[bg]" ∧
      str "cyrillic[ua]" ≠ str "cyrillic[mk]" ∧ str "cyrillic[ua]" ≠ str "cyrillic[ru]" := by decide +kernel
  obtain ⟨s1, s2, s3, s4⟩ := hs
  obtain ⟨d1, d2, d3, d4, d5, d6⟩ := hd
  simp only [standard, cyrillics, List.mem_append, List.mem_cons, List.not_mem_nil, or_false] at ht
  rcases ht with (rfl | rfl) | rfl | rfl | rfl | rfl
  · show workerTranslit l (str "furigana") word = _
    unfold workerTranslit
    rw [if_neg hne.1, if_pos hne.2.1]
    show jsResult ((furigana l).transliterate word.text) = _
    rw [ho]
    rfl
  · show workerTranslit l (str "pinyin") word = _
    unfold workerTranslit
    rw [if_neg hne.2.2.1, if_neg hne.2.2.2.1, if_pos hne.2.2.2.2]
    show jsResult ((pinyin l).transliterate word.text) = _
    rw [ho]
    rfl
  all_goals
    simp only [cyrillic, s1, s2, s3, s4] at ho ⊢
    unfold workerTranslit
    rw [if_pos (hn _ (by simp)).1]
    unfold cyrillicModule
    simp only [index, cyrillics, cyrillic, s1, s2, s3, s4, List.map_cons, List.map_nil, lookup_cons', (hn _ (List.mem_cons_self)).2,
      (hn (str "cyrillic[mk]") (by simp)).2, (hn (str "cyrillic[ru]") (by simp)).2, (hn (str "cyrillic[ua]") (by simp)).2,
      List.getElem?_cons_zero, List.getElem?_cons_succ, Go.bind_ok, if_neg d1, if_neg d2, if_neg d3, if_neg d4, if_neg d5, if_neg d6,
      if_true]
    rw [ho]
    rfl

/-- The registry of a Go program with the standard translits. -/
def standardRegistry (l : Libraries) : Registry := (standard l).map fun t => (t.scheme, t)

theorem standard_lookup {l : Libraries} {t : Translit} (ht : t ∈ standard l) : (standardRegistry l).lookup t.scheme = some t := by
  have key : ∀ (ts : List Translit), (ts.map (·.scheme)).Nodup → t ∈ ts →
      (ts.map fun t => (t.scheme, t)).lookup t.scheme = some t := by
    intro ts
    induction ts with
    | nil => simp
    | cons u ts ih =>
      intro hn hm
      simp only [List.map_cons, List.nodup_cons] at hn
      rw [List.map_cons, lookup_cons']
      split
      · rename_i e
        rcases List.mem_cons.1 hm with rfl | hm
        · rfl
        · exact absurd (e ▸ List.mem_map_of_mem hm) hn.1
      · rename_i e
        rcases List.mem_cons.1 hm with rfl | hm
        · exact absurd rfl e
        · exact ih hn.2 hm
  refine key _ ?_ ht
  rw [schemes_eq]
  decide +kernel

theorem table_single : ∀ x ∈ table, x.2.2.translit.length ≤ 1 := by decide +kernel

/-- C72: for a listed language, `Hangulize` with the workers of the page gives the same result and the same traces as with the
standard translits in Go, unless a text starts with a byte order mark. -/
theorem C72_page_partial {l : Libraries} (hl : Reliable l) {answers : Answers} {translits : Registry}
    (hw : Workers l answers translits) {sp : Spec} (hs : Loaded bundled sp) {word : Bytes} (hword : Plain word)
    (hout : ∀ t ∈ standard l, t.scheme ∈ sp.lang.translit → ∀ out, t.transliterate word = .ok out → Plain out) (tr : Tracer) :
    forward sp translits word tr = forward sp (standardRegistry l) word tr := by
  obtain ⟨lang, src', o', g1, g2, g3⟩ := hs
  obtain ⟨la, hm, hsd⟩ := bundled_sound g1
  obtain ⟨sp', hp', e1, _⟩ := hsd o' g2
  rw [g3, Go.ok.injEq] at hp'
  subst hp'
  have hlen := table_single _ hm
  have hsch := table_translits _ hm
  rw [← e1] at hlen hsch
  have key : ∀ tr, transliterateLoop translits sp.lang.translit word tr =
      transliterateLoop (standardRegistry l) sp.lang.translit word tr := by
    intro tr
    cases hx : sp.lang.translit with
    | nil => rfl
    | cons s ss =>
      rw [hx] at hlen hsch hout
      obtain rfl : ss = [] := by cases ss with | nil => rfl | cons _ _ => simp at hlen
      have := hsch s (by simp)
      rw [← schemes_eq l, List.mem_map] at this
      obtain ⟨t, ht, rfl⟩ := this
      obtain ⟨fn, h1, h2⟩ := hw t ht
      obtain ⟨out, h3, h4⟩ := C72_workers hl t ht (ofText word)
      rw [C69_back_partial hword.1 hword.2] at h3
      have hpl := hout t ht (by simp) out h3
      have h5 := h2 (ofText word) _ h4
      simp only [transliterateLoop, h1, standard_lookup ht, translitOf, h5, h3, C69_back_partial hpl.1 hpl.2]
  simp only [forward, key]

/-- C72: a page with its workers, a listed language, and a word: once no translit is pending for it, the Promise is resolved with what
`Hangulize` returns in Go with the standard translits. -/
theorem C72_resolved_partial {o : Ord} (ho : o.Ok) {specs : Value} {ready : Page}
    (hm : main bundled o (listLangs entries) = .ok (specs, ready)) {l : Libraries} (hl : Reliable l) {answers : Answers}
    {before after : List Event} {o' : Ord} {visit : List (Bytes × Value) → List (Bytes × Value)} {lang : Bytes} {u : Str}
    {rest : List Value} {q : Page} (hlang : lang ∈ listLangs entries)
    (he : ∀ e ∈ before ++ .hangulize o' visit (ofText lang :: .string u :: rest) :: after, EventOk e)
    (hf : Faithful bundled ready answers (before ++ .hangulize o' visit (ofText lang :: .string u :: rest) :: after))
    (h : run bundled ready (before ++ .hangulize o' visit (ofText lang :: .string u :: rest) :: after) = .ok q)
    (hw : Workers l answers (registered answers before)) (hu : (runes (encodeText u)).head? ≠ some 0xFEFF)
    (hout : ∀ t ∈ standard l, ∀ out, t.transliterate (encodeText u) = .ok out → Plain out)
    (hq : ∀ t, q.tasks[before.countP IsCall]? = some t → ∀ ask, ¬ Pending t ask) :
    ∃ t sp src o'' out tr, q.tasks[before.countP IsCall]? = some t ∧ bundled lang = some src ∧ Ord.Ok o'' ∧
      parseSpec o'' src = .ok sp ∧ forward sp (standardRegistry l) (encodeText u) (tracerFor rest) = (.ok out, tr) ∧
      t.status = .resolved (ofText out) ∧ t.log = logOf tr := by
  obtain ⟨t, h1, h2⟩ := C70_results ho hm he hf h
  rcases h2 with ⟨ask, hp, _⟩ | hfin
  · exact absurd hp (hq t h1 ask)
  have hname := listed_names lang hlang
  rw [C69_back_partial hname.1 hname.2] at hfin
  have hword : Plain (encodeText u) := ⟨C69_valid u, hu⟩
  have hsame : ∀ {src : Bytes} {o : Ord} {sp : Spec}, bundled lang = some src → o.Ok → parseSpec o src = .ok sp → ∀ tr,
      forward sp (registered answers before) (encodeText u) tr = forward sp (standardRegistry l) (encodeText u) tr :=
    fun g1 g2 g3 tr => C72_page_partial hl hw ⟨lang, _, _, g1, g2, g3⟩ hword (fun t ht _ => hout t ht) tr
  obtain ⟨fn, log, status⟩ := t
  simp only at hfin
  generalize hx : Value.text (.string u) = w at hfin
  cases hfin with
  | unknown hn =>
    rw [C65_listed, hn] at hlang
    cases hlang
  | @resolved src oo sp out tr' found hoo parsed hfw =>
    subst hx
    exact ⟨_, sp, src, oo, out, tr', h1, found, hoo, parsed, by rw [← hsame found hoo parsed]; exact hfw, rfl, rfl⟩
  | @rejected src oo sp e tr' found hoo parsed hfw =>
    subst hx
    obtain ⟨out, ho⟩ := loaded_succeeds ⟨lang, src, oo, found, hoo, parsed⟩ hl (translits := standardRegistry l)
      (fun t ht => standard_lookup ht) (encodeText u) (tracerFor rest)
    rw [← hsame found hoo parsed, show forward sp (registered answers before) (encodeText u) (tracerFor rest) = _ from hfw] at ho
    cases ho

/-- A page which registers a worker for each standard scheme. -/
def workerEvents : List Event := ((standard plain).zipIdx).map fun x => .useTranslit [ofText x.1.scheme, .func x.2]

/-- What the functions of that page answer. -/
def workerAnswers : Answers := fun fn word =>
  match (standard plain)[fn]? with
  | none => .inr (.object [])
  | some t =>
    match workerTranslit plain t.scheme word with
    | .ok v => .inl v
    | _ => .inr (.object [])

/-- The page meets the hypotheses of C72, with a word which the translits turn into other texts. -/
theorem worker_page : Workers plain workerAnswers (registered workerAnswers workerEvents) ∧
    (∀ t ∈ standard plain, ∀ out, t.transliterate (str "Dnes") = .ok out → Plain out) ∧
    (standard plain).map (fun t => t.transliterate (str "Dnes")) =
      [.ok (str "Dnes"), .ok (str "Dnes"), .ok (str "Днес"), .ok (str "Днес"), .ok (str "Днес"), .ok (str "Днес")] := by
  have h3 : (standard plain).map (fun t => t.transliterate (str "Dnes")) =
      [.ok (str "Dnes"), .ok (str "Dnes"), .ok (str "Днес"), .ok (str "Днес"), .ok (str "Днес"), .ok (str "Днес")] := by decide +kernel
  have h4 : ∀ s ∈ [str "Dnes", str "Днес"], encode (runes s) = s ∧ (runes s).head? ≠ some 0xFEFF := by decide +kernel
  have h5 : ∀ s ∈ [str "Dnes", str "Днес"], Plain s := fun s hs => ⟨(validUtf8_iff _).2 (h4 s hs).1, (h4 s hs).2⟩
  refine ⟨?_, ?_, h3⟩
  · intro t ht
    obtain ⟨i, hi⟩ := List.mem_iff_getElem?.1 ht
    have hw : ∀ word v, workerTranslit plain t.scheme word = .ok v → workerAnswers i word = .inl v := by
      intro word v h
      simp only [workerAnswers, hi, h]
    refine ⟨i, ?_, hw⟩
    have ht : ∀ t ∈ standard plain, (ofText t.scheme).text = t.scheme := by
      intro t ht
      have h : ∀ s ∈ (standard plain).map (·.scheme), (ofText s).text = s := by decide +kernel
      exact h _ (List.mem_map_of_mem ht)
    have key : ∀ (ts : List Translit) (n : Nat), (∀ t ∈ ts, (ofText t.scheme).text = t.scheme) → (ts.map (·.scheme)).Nodup →
        ∀ i t, ts[i]? = some t → (registered workerAnswers ((ts.zipIdx n).map fun x =>
          .useTranslit [ofText x.1.scheme, .func x.2])).lookup t.scheme = some (translitOf workerAnswers t.scheme (n + i)) := by
      intro ts
      induction ts with
      | nil => intro n _ _ i t h; simp at h
      | cons u ts ih =>
        intro n hs hd i t h
        simp only [List.map_cons, List.nodup_cons] at hd
        simp only [List.zipIdx_cons, List.map_cons, registered, lookup_cons', hs u (by simp)]
        cases i with
        | zero =>
          simp only [List.getElem?_cons_zero, Option.some.injEq] at h
          subst h
          simp
        | succ i =>
          rw [List.getElem?_cons_succ] at h
          rw [if_neg (fun e : t.scheme = u.scheme => hd.1 (e ▸ List.mem_map_of_mem (List.mem_of_getElem? h))),
            ih (n + 1) (fun t ht => hs t (by simp [ht])) hd.2 i t h]
          congr 2; omega
    have := key (standard plain) 0 ht (by rw [schemes_eq]; decide +kernel) i t hi
    rwa [Nat.zero_add] at this
  · intro t ht out ho
    have : Go.ok out ∈ (standard plain).map (fun t => t.transliterate (str "Dnes")) := ho ▸ List.mem_map_of_mem (f := fun t => t.transliterate (str "Dnes")) ht
    rw [h3] at this
    simp only [List.mem_cons, Go.ok.injEq, List.not_mem_nil, or_false] at this
    refine h5 out ?_
    rcases this with h | h | h | h | h | h <;> simp [h]

/-- C72 fails for a scheme which the Cyrillic module does not know: the module panics. -/
theorem C72_unknown_refuted : ∃ scheme : Bytes, normalizeMethod scheme = str "cyrillic" ∧
    ∀ (l : Libraries) (word : Value), workerTranslit l scheme word = .panic := by
  refine ⟨str "cyrillic[xx]", by decide +kernel, ?_⟩
  intro l word
  have h1 : normalizeMethod (str "cyrillic[xx]") = str "cyrillic" := by decide +kernel
  have h2 : (ofText (str "cyrillic[xx]")).text = str "cyrillic[xx]" := by decide +kernel
  have h3 : str "cyrillic[xx]" ≠ str "cyrillic[" ++ str "bg" ++ str "]" ∧ str "cyrillic[xx]" ≠ str "cyrillic[" ++ str "mk" ++ str "]" ∧
      str "cyrillic[xx]" ≠ str "cyrillic[" ++ str "ru" ++ str "]" ∧ str "cyrillic[xx]" ≠ str "cyrillic[" ++ str "ua" ++ str "]" := by
    decide +kernel
  unfold workerTranslit
  rw [if_pos h1]
  unfold cyrillicModule
  simp only [index, cyrillics, cyrillic, List.map_cons, List.map_nil, lookup_cons', h2, List.getElem?_cons_zero,
    List.getElem?_cons_succ, Go.bind_ok, if_neg h3.1, if_neg h3.2.1, if_neg h3.2.2.1, if_neg h3.2.2.2, List.lookup_nil]

end Verif.Props
