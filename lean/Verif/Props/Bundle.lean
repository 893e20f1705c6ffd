import Verif.Proofs.Bundled
import Verif.Model.Standard
import Verif.Props.Api
import Verif.Props.Translit

/-! C65 and C66: the bundled specs. -/

namespace Verif.Props

open Verif.Hre Verif.Rx Verif.Spec.Api Verif.Spec.Bundle Verif.Spec.Translit Verif.Specs

/-! ## C65 -/

/-- C65: `ListLangs` returns the names of the files without the extension, sorted and without repetitions. -/
theorem C65_list (names : List Bytes) :
    (∀ lang, lang ∈ listLangs names ↔ lang ++ str ".hsl" ∈ names) ∧
    (listLangs names).Pairwise (bytesLe · · = true) ∧ (names.Nodup → (listLangs names).Nodup) :=
  ⟨fun lang => mem_listLangs lang names, sorted_sort _, nodup_listLangs⟩

/-- C65: `LoadSpec` finds exactly the languages of `ListLangs`. -/
theorem C65_listed (lang : Bytes) : lang ∈ listLangs entries ↔ (bundled lang).isSome = true := by
  rw [mem_listLangs, bundled_isSome, entries]
  simp only [List.mem_map, List.append_left_inj]

theorem table_ids : ∀ x ∈ table, x.2.2.id = x.1 := by decide +kernel

/-- C65: each listed language can be loaded, whatever was called before, and the spec is the one of this language; its
script is known, its rules pass the checks of C64, a replacement uses at most the vars of its pattern and is valid text,
and transcribing rules match no NUL character and write letters which can be composed. -/
theorem C65_loads {cs : List Call} {rs : List Res} {w : World} (hc : ∀ c ∈ cs, OrdOk c)
    (h : calls bundled World.init cs = .ok (w, rs)) {o : Ord} (ho : o.Ok) {lang : Bytes}
    (hl : lang ∈ listLangs entries) :
    ∃ w' sp, call bundled w (.loadSpec o lang) = .ok (w', .spec (.inl sp)) ∧ sp.lang.id = lang ∧
      getScript sp.lang.script = some sp.script ∧
      (∀ r ∈ sp.rewrite ++ sp.transcribe, checked r = true ∧ fits r = true ∧ everyText valid r.to = true) ∧
      ∀ r ∈ sp.transcribe, avoids r.pat.re = true ∧ everyText (fun t => spelled false (runes t)) r.to = true := by
  have hk : CacheOk bundled w.specs := CacheOk.calls cs hc (by intro l sp hl; simp [World.init] at hl) h
  rw [C65_listed, Option.isSome_iff_exists] at hl
  obtain ⟨src, hs⟩ := hl
  have key : ∃ w' sp o', o'.Ok ∧ parseSpec o' src = .ok sp ∧
      call bundled w (.loadSpec o lang) = .ok (w', .spec (.inl sp)) := by
    cases hw : w.specs.lookup lang with
    | some sp =>
      obtain ⟨src', o', h1, h2, h3⟩ := hk lang sp hw
      rw [hs, Option.some.injEq] at h1
      subst h1
      exact ⟨w, sp, o', h2, h3, by simp [call, loadSpec, hw]⟩
    | none =>
      obtain ⟨l, _, hsd⟩ := bundled_sound hs
      obtain ⟨sp, hp, _⟩ := hsd o ho
      exact ⟨{ w with specs := mapSet w.specs lang sp }, sp, o, ho, hp, by simp [call, loadSpec, hw, hs, hp]⟩
  obtain ⟨w', sp, o', ho', hp, h1⟩ := key
  obtain ⟨l, hm, hsd⟩ := bundled_sound hs
  obtain ⟨sp', hp', e1, e2, _, _, _, e3, e4, _⟩ := hsd o' ho'
  rw [hp, Go.ok.injEq] at hp'
  subst hp'
  refine ⟨w', sp, h1, ?_, ?_, ?_, ?_⟩
  · rw [e1]; exact table_ids _ hm
  · rw [e1]; exact e2
  · intro r hr
    rcases List.mem_append.1 hr with hr | hr
    · have := e3 r hr
      simp only [bundleCheck, Bool.and_eq_true, and_assoc] at this
      exact this
    · have := e4 r hr
      simp only [bundleCheck, Bool.and_eq_true, and_assoc] at this
      exact ⟨this.1, this.2.1, this.2.2.1⟩
  · intro r hr
    have := e4 r hr
    simp only [bundleCheck, Bool.and_eq_true] at this
    exact ⟨this.1.2, this.2⟩

/-- The languages. -/
example : listLangs entries = ["aze", "bel", "bul", "cat", "ces", "chi", "cym", "deu", "ell", "epo", "est", "fin", "grc",
    "hbs", "hun", "isl", "ita", "jpn", "jpn-ck", "kat-1", "kat-2", "lat", "lav", "lit", "mkd", "nld", "pol", "por",
    "por-br", "ron", "rus", "slk", "slv", "spa", "sqi", "swe", "tur", "ukr", "vie", "wlm"].map str := by decide +kernel

/-- Names with another extension are left out. -/
example : listLangs (["b.hsl", ".hsl", "README.md", "a.b.hsl", "hsl"].map str) = ["", "a.b", "b"].map str := by
  decide +kernel

/-! ## C66 -/

/-- C66: no program using the bundled specs makes the library panic or loop, unless a translit of its own does. -/
theorem C66_programs {cs : List Call} (h : ∀ c ∈ cs, Fair bundled c) :
    ∃ w rs, calls bundled World.init cs = .ok (w, rs) := by
  obtain ⟨w, rs, h1, _⟩ := Safe.init.calls cs h
  exact ⟨w, rs, h1⟩

/-- C66: the same for goroutines loading and unloading specs: none of them ever panics or loops. -/
theorem C66_goroutines {o : Ord} (ho : o.Ok) (t : Thread) (specs : Cache) :
    ∃ t' specs', t.step bundled o specs = .ok (t', specs') := by
  unfold Thread.step
  split
  · exact ⟨_, _, rfl⟩
  · exact ⟨_, _, rfl⟩
  · exact ⟨_, _, rfl⟩
  · rename_i lang todo _
    split
    · exact ⟨_, _, rfl⟩
    · split
      · exact ⟨_, _, rfl⟩
      · rename_i src hf
        obtain ⟨l, _, hsd⟩ := bundled_sound hf
        obtain ⟨sp, hp, _⟩ := hsd o ho
        simp only [hp]
        exact ⟨_, _, rfl⟩

/-- C66: the standard translits return a word for every word. -/
theorem C66_standard_translits {l : Libraries} (hl : Reliable l) :
    ∀ t ∈ standard l, ∀ word, ∃ out, t.transliterate word = .ok out := by
  intro t ht word
  simp only [standard, cyrillics, List.mem_append, List.mem_cons, List.not_mem_nil, or_false] at ht
  rcases ht with (rfl | rfl) | rfl | rfl | rfl | rfl
  · obtain ⟨out, tw, _, _, h1, _⟩ := C49_typewriter _ (hl (Furigana.repeatKana (l.nfc word)))
    exact ⟨out, by simp [furigana, h1]⟩
  all_goals exact ⟨_, rfl⟩

theorem schemes_eq (l : Libraries) : (standard l).map (·.scheme) =
    ["furigana", "pinyin", "cyrillic[bg]", "cyrillic[mk]", "cyrillic[ru]", "cyrillic[ua]"].map str := by
  simp only [standard, furigana, pinyin, cyrillics, cyrillic, List.cons_append, List.nil_append, List.map_cons, List.map_nil]
  decide +kernel

theorem table_translits : ∀ x ∈ table, ∀ s ∈ x.2.2.translit,
    s ∈ ["furigana", "pinyin", "cyrillic[bg]", "cyrillic[mk]", "cyrillic[ru]", "cyrillic[ua]"].map str := by
  decide +kernel

theorem loaded_succeeds {sp : Spec} (h : Loaded bundled sp) {l : Libraries} (hl : Reliable l) {translits : Registry}
    (ht : ∀ t ∈ standard l, translits.lookup t.scheme = some t) (word : Bytes) (tr : Tracer) :
    ∃ out, (forward sp translits word tr).1 = .ok out := by
  obtain ⟨o, src, _, hp, h1, h2⟩ := loaded_checked h
  have hc : ∀ r ∈ sp.rewrite ++ sp.transcribe, checked r = true := by
    intro r hr
    rcases List.mem_append.1 hr with hr | hr
    · exact bundleCheck_checked (h1 r hr)
    · exact bundleCheck_checked (h2 r hr)
  obtain ⟨lang, src', o', g1, g2, g3⟩ := h
  obtain ⟨la, hm, hsd⟩ := bundled_sound g1
  obtain ⟨sp', hp', e1, _⟩ := hsd o' g2
  rw [g3, Go.ok.injEq] at hp'
  subst hp'
  have hx : ∀ s ∈ sp.lang.translit, ∃ t ∈ standard l, t.scheme = s := by
    intro s hs
    rw [e1] at hs
    have := table_translits _ hm s hs
    rw [← schemes_eq l, List.mem_map] at this
    obtain ⟨t, h1, h2⟩ := this
    exact ⟨t, h1, h2⟩
  have hloop : ∀ (ss : List Bytes) (w : Bytes) (tr : Tracer), (∀ s ∈ ss, ∃ t ∈ standard l, t.scheme = s) →
      ∃ out, (transliterateLoop translits ss w tr).1 = .ok out := by
    intro ss
    induction ss with
    | nil => intro w tr _; exact ⟨w, by simp [transliterateLoop]⟩
    | cons s ss ih =>
      intro w tr hs
      obtain ⟨t, h1, rfl⟩ := hs s (by simp)
      obtain ⟨out, h2⟩ := C66_standard_translits hl t h1 w
      unfold transliterateLoop
      simp only [ht t h1, h2]
      exact ih _ _ fun s hs' => hs s (by simp [hs'])
  obtain ⟨w, hw⟩ := hloop sp.lang.translit word tr hx
  exact C64_runs hp hc translits word tr hw

/-- C66: once the standard translits are installed, `Hangulize` succeeds for every listed language and every word,
whatever else was called before. -/
theorem C66_succeeds {cs : List Call} {rs : List Res} {w : World} (hc : ∀ c ∈ cs, OrdOk c)
    (h : calls bundled World.init cs = .ok (w, rs)) {l : Libraries} (hl : Reliable l)
    (ht : ∀ t ∈ standard l, (w.map 0).lookup t.scheme = some t) {o : Ord} (ho : o.Ok) {lang : Bytes}
    (hlang : lang ∈ listLangs entries) (word : Bytes) :
    ∃ w' out, call bundled w (.hangulize o lang word) = .ok (w', .word (out, none)) := by
  have hk : CacheOk bundled w.specs := CacheOk.calls cs hc (by intro l sp hl; simp [World.init] at hl) h
  obtain ⟨r, specs, h1, _, h3⟩ := load_runs ho lang hk
  obtain ⟨w', sp, h4, _⟩ := C65_loads hc h ho hlang
  simp only [call, h1, Go.bind_ok, Go.pure_eq, Go.ok.injEq, Prod.mk.injEq, Res.spec.injEq] at h4
  obtain ⟨out, h5⟩ := loaded_succeeds (h3 sp h4.2) hl (translits := (w.map 0).detach)
    (by simpa only [lookup_detach] using ht) word none
  exact ⟨{ w with specs }, out, by simp [call, h1, h4.2, h5, wordErr]⟩

/-- C66: the same for the hangulizers of loaded specs. -/
theorem C66_instances {cs : List Call} {rs : List Res} {w : World} (hc : ∀ c ∈ cs, Fair bundled c)
    (h : calls bundled World.init cs = .ok (w, rs)) {l : Libraries} (hl : Reliable l) {k : Nat} {obj : Obj}
    (hk : w.objs[k]? = some obj) (ht : ∀ t ∈ standard l, (w.map obj.registry).lookup t.scheme = some t) (word : Bytes) :
    ∃ w' out, call bundled w (.run k word) = .ok (w', .word (out, none)) := by
  obtain ⟨w1, rs1, h1, h2⟩ := Safe.init.calls cs hc
  rw [h, Go.ok.injEq, Prod.mk.injEq] at h1
  obtain ⟨rfl, rfl⟩ := h1
  obtain ⟨out, h5⟩ := loaded_succeeds (h2.objs obj (List.mem_of_getElem? hk)) hl (translits := (w.map obj.registry).detach)
    (by simpa only [lookup_detach] using ht) word (obj.traceFunc.map fun _ => ⟨[], []⟩)
  simp only [call, hk, h5, wordErr, Go.bind_ok, Go.pure_eq]
  exact ⟨_, _, rfl⟩

/-- Libraries for examples: an empty dictionary, and a tokenizer which knows no word. -/
def plain : Libraries := ⟨id, fun w => [⟨.unknown, encode (runes w), []⟩], fun _ => [], id⟩

theorem plain_reliable : Reliable plain := by
  intro word t ht
  simp only [plain, real, List.mem_filter, List.mem_singleton] at ht
  obtain ⟨rfl, _⟩ := ht
  exact ⟨by simp [Complete], by simpa [pronunciation] using encode_validUtf8 _⟩

/-- A program meeting the hypotheses: it installs translits and uses several languages. -/
example : ∀ c ∈ (standard plain).map (Call.useTranslit none) ++ [.hangulize .written (str "rus") (str "Москва"),
    .hangulize .written (str "ita") [0xFF], .unloadSpec (str "ita"), .hangulize .written (str "xyz") [], .translits none,
    .userSet 1 (str "pinyin") (fails "pinyin")], Fair bundled c := by
  have ho : Ord.written.Ok := ⟨fun _ _ _ _ => .refl _, fun _ => .refl _⟩
  intro c hc
  rcases List.mem_append.1 hc with hc | hc
  · obtain ⟨t, ht, rfl⟩ := List.mem_map.1 hc
    intro w
    obtain ⟨out, h⟩ := C66_standard_translits plain_reliable t ht w
    simp [h]
  · simp only [List.mem_cons, List.not_mem_nil, or_false] at hc
    rcases hc with rfl | rfl | rfl | rfl | rfl | rfl
    · exact ho
    · exact ho
    · trivial
    · exact ho
    · trivial
    · intro w; simp [fails]

/-- `Install` registers the standard translits, as the theorems require. -/
example : ∀ t ∈ standard plain, (install (standard plain) []).1.lookup t.scheme = some t := by
  intro t ht
  obtain ⟨_, h2, h3⟩ := C42_install (standard plain) []
  exact ((h2 (h3 (by rw [schemes_eq]; decide +kernel) (by simp))).1 t ht).2

end Verif.Props
