import Verif.Proofs.Alphabet
import Verif.Proofs.Order
import Verif.Props.Bundle
import Verif.Props.Reference

/-! C67 and C68: what the bundled specs write. -/

namespace Verif.Props

open Verif.Spec.Api Verif.Spec.Bundle Verif.Spec.Alphabet Verif.Spec.Reference Verif.Spec.Order Verif.Spec.Jamo
  Verif.Spec.Procedure Verif.Specs

/-! ## C67 -/

/-- C67: a bundled spec writes syllables, apostrophes, spaces, letters of the word which have no meaning for it, and
punctuation replacing Japanese punctuation; nothing else, whatever the word. -/
theorem C67_alphabet {sp : Spec} (h : Loaded bundled sp) {translits : Registry} {word out : Bytes} {tr : Tracer}
    (hf : (forward sp translits word tr).1 = .ok out) :
    ∃ w evs, Transliterated translits sp.lang.translit word evs w ∧
      ∀ c ∈ runes out, Written sp (runes (encode (normalized sp (runes (replacePairs sp.normPairs w))))) c := by
  obtain ⟨o, src, _, hp, h1, h2⟩ := loaded_checked h
  obtain ⟨evs, hh⟩ := (C59_reference hp translits word out tr).1 hf
  exact hangulized_letters h1 h2 hh

theorem syllable_script {c : Rune} (h : IsSyllable c) (sc : Script) : sc.is c = false := by
  have hc : Unicode.inTable [(0xAC00, 0xD7A3)] c = true := by
    simp only [Unicode.inTable, List.any_cons, List.any_nil, Bool.or_false, Bool.and_eq_true, decide_eq_true_eq]
    exact h
  have key : ∀ t, tablesDisjoint [(0xAC00, 0xD7A3)] t = true → Unicode.inTable t c = false :=
    fun t ht => not_inTable ht hc
  unfold IsSyllable at h
  cases sc with
  | latn => exact key _ (by decide +kernel)
  | cyrl =>
    simp only [Script.is, Unicode.isMark, Bool.or_eq_false_iff]
    exact ⟨key _ (by decide +kernel), key _ (by decide +kernel)⟩
  | geor => exact key _ (by decide +kernel)
  | grek => exact key _ (by decide +kernel)
  | hrkt =>
    simp only [Script.is, Bool.or_eq_false_iff, beq_eq_false_iff_ne, ne_eq]
    exact ⟨⟨by omega, key _ (by decide +kernel)⟩, key _ (by decide +kernel)⟩

theorem marks_script : ∀ sc : Script, sc.is 0x27 = false ∧ sc.is 0x20 = false := by
  intro sc
  cases sc <;> decide +kernel

theorem japanese_script : ∀ p ∈ japanese, Script.hrkt.is p.2.2.1 = false := by decide +kernel

/-- C67: no letter of the script of the language is left over. -/
theorem C67_no_letters {sp : Spec} (h : Loaded bundled sp) {translits : Registry} {word out : Bytes} {tr : Tracer}
    (hf : (forward sp translits word tr).1 = .ok out) : ∀ c ∈ runes out, sp.script.is c = false := by
  obtain ⟨w, evs, _, hw⟩ := C67_alphabet h hf
  intro c hc
  cases hw c hc with
  | syllable h => exact syllable_script h _
  | apostrophe => exact (marks_script _).1
  | space => exact (marks_script _).2
  | kept _ hm _ =>
    rw [Bool.eq_false_iff]
    exact fun e => hm (.inl e)
  | punctuation hk _ _ hj =>
    rw [hk]
    exact japanese_script _ hj

/-- C67: a word of which all letters have a meaning for the spec becomes syllables, apostrophes and spaces. -/
theorem C67_hangul {sp : Spec} (h : Loaded bundled sp) {translits : Registry} {word out : Bytes} {tr : Tracer}
    (hf : (forward sp translits word tr).1 = .ok out)
    (hm : ∀ w evs, Transliterated translits sp.lang.translit word evs w →
      ∀ c ∈ runes (encode (normalized sp (runes (replacePairs sp.normPairs w)))), Meaningful sp c) :
    ∀ c ∈ runes out, IsSyllable c ∨ c = '\''.toNat ∨ c = ' '.toNat := by
  obtain ⟨w, evs, ht, hw⟩ := C67_alphabet h hf
  intro c hc
  cases hw c hc with
  | syllable h => exact .inl h
  | apostrophe => exact .inr (.inl rfl)
  | space => exact .inr (.inr rfl)
  | kept hl hn _ => exact absurd (hm w evs ht c hl) hn
  | punctuation _ hl hn _ => exact absurd (hm w evs ht _ hl) hn

/-- C67 for programs: what `Hangulize` returns for a listed language has no letter of the script of this language. -/
theorem C67_programs {cs : List Call} {rs : List Res} {w w' : World} (hc : ∀ c ∈ cs, OrdOk c)
    (h : calls bundled World.init cs = .ok (w, rs)) {o : Ord} (ho : o.Ok) {lang word out : Bytes}
    (hl : lang ∈ listLangs entries) (hr : call bundled w (.hangulize o lang word) = .ok (w', .word (out, none))) :
    ∃ sp, Loaded bundled sp ∧ sp.lang.id = lang ∧ ∀ c ∈ runes out, sp.script.is c = false := by
  have hk : CacheOk bundled w.specs := CacheOk.calls cs hc (by intro l sp hl; simp [World.init] at hl) h
  obtain ⟨r, specs, h1, _, h3⟩ := load_runs ho lang hk
  obtain ⟨w1, sp, h4, h5, _⟩ := C65_loads hc h ho hl
  simp only [call, h1, Go.bind_ok, Go.pure_eq, Go.ok.injEq, Prod.mk.injEq, Res.spec.injEq] at h4
  obtain ⟨_, rfl⟩ := h4
  simp only [call, h1, Go.bind_ok, Go.pure_eq, Go.bind_eq_ok, Go.ok.injEq, Prod.mk.injEq, Res.word.injEq] at hr
  obtain ⟨x, hx, _, rfl⟩ := hr
  refine ⟨sp, h3 sp rfl, h5, ?_⟩
  cases hf : (forward sp (w.map 0).detach word none).1 with
  | ok y =>
    rw [hf] at hx
    simp only [wordErr, Go.ok.injEq, Prod.mk.injEq] at hx
    rw [← hx.1]
    exact C67_no_letters (h3 sp rfl) hf
  | _ => rw [hf] at hx; simp [wordErr] at hx

/-- There is such a result for each listed language and every word. -/
example {lang : Bytes} (hl : lang ∈ listLangs entries) (word : Bytes) :
    ∃ sp out, Loaded bundled sp ∧ sp.lang.id = lang ∧ (forward sp (install (standard plain) []).1 word none).1 = .ok out := by
  rw [C65_listed, Option.isSome_iff_exists] at hl
  obtain ⟨src, hs⟩ := hl
  obtain ⟨l, hm, hsd⟩ := bundled_sound hs
  have ho : Ord.written.Ok := ⟨fun _ _ _ _ => .refl _, fun _ => .refl _⟩
  obtain ⟨sp, h1, h2, _⟩ := hsd .written ho
  have hld : Loaded bundled sp := ⟨lang, src, .written, hs, ho, h1⟩
  obtain ⟨_, h3, h4⟩ := C42_install (standard plain) []
  obtain ⟨out, h5⟩ := loaded_succeeds hld plain_reliable
    (fun t ht => ((h3 (h4 (by rw [schemes_eq]; decide +kernel) (by simp))).1 t ht).2) word none
  exact ⟨sp, out, hld, by rw [h2]; exact table_ids _ hm, h5⟩

/-! ## C68 -/

theorem bundled_steady : Steady bundled := by
  intro lang src h o ho
  obtain ⟨l, _, hs⟩ := bundled_sound h
  obtain ⟨sp, h1, _, _, h2, _, h3, _⟩ := hs o ho
  exact ⟨sp, h1, h2, h3⟩

/-- C68: two specs loaded for one bundled language differ at most in the order of their replaced letters, and they work
in the same way: the words and the events are the same. -/
theorem C68_specs {sp sp' : Spec} (h : Twins bundled sp sp') :
    sp' = { sp with normPairs := sp'.normPairs } ∧
    ∀ (translits : Registry) (word : Bytes) (tr : Tracer), forward sp' translits word tr = forward sp translits word tr := by
  refine ⟨?_, fun translits word tr => bundled_steady.forward h translits word tr⟩
  obtain ⟨lang, src, o, o', h1, h2, h3, h4, h5⟩ := h
  obtain ⟨sp1, h6, h7, _⟩ := bundled_steady lang src h1 o h2
  rw [h4, Go.ok.injEq] at h6
  subst h6
  exact parseSpec_order h2 h3 h4 h5 h7

/-- C68: a program using the bundled specs returns the same results in each run, whatever the orders of iteration over
maps, and the same is passed to its tracing functions. -/
theorem C68_programs {cs cs' : List Call} (hc : Alike (SameCall bundled) cs cs') {w : World} {rs : List Res}
    (h : calls bundled World.init cs = .ok (w, rs)) :
    ∃ w' rs', calls bundled World.init cs' = .ok (w', rs') ∧ Alike (SameRes bundled) rs rs' ∧ w'.log = w.log := by
  obtain ⟨w', rs', h1, h2, h3⟩ := bundled_steady.calls hc
    (w := World.init) (w' := World.init) ⟨rfl, rfl, rfl, .nil, fun _ => .none⟩ h
  exact ⟨w', rs', h1, h3, h2.log⟩

/-- Two runs of a program. -/
example : Alike (SameCall bundled)
    [.hangulize .written (str "ita") (str "Roma"), .loadSpec .written (str "jpn"), .translits none]
    [.hangulize ⟨fun _ _ _ l => l.reverse, List.reverse⟩ (str "ita") (str "Roma"),
      .loadSpec ⟨fun _ _ _ l => l.reverse, id⟩ (str "jpn"), .translits none] :=
  .cons ⟨⟨fun _ _ _ _ => .refl _, fun _ => .refl _⟩, ⟨fun _ _ _ l => l.reverse_perm, fun l => l.reverse_perm⟩, rfl, rfl⟩
    (.cons ⟨⟨fun _ _ _ _ => .refl _, fun _ => .refl _⟩, ⟨fun _ _ _ l => l.reverse_perm, fun _ => .refl _⟩, rfl⟩
      (.cons rfl .nil))

end Verif.Props
