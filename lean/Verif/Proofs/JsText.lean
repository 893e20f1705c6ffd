import Verif.Spec.Wasm
import Verif.Proofs.Js
import Verif.Proofs.DocText
import Verif.Proofs.Bundled
import Verif.Proofs.Wasm

/-! Texts which pass between Go and JavaScript, and the specs given to JavaScript. -/

namespace Verif.Wasm

open Verif.Js Verif.Spec.Wasm

theorem isHigh_iff (u : Nat) : isHigh u = true ↔ 0xD800 ≤ u ∧ u < 0xDC00 := by simp [isHigh]
theorem isLow_iff (u : Nat) : isLow u = true ↔ 0xDC00 ≤ u ∧ u < 0xE000 := by simp [isLow]

theorem unit_basic {u : Nat} (h : u < 0xD800 ∨ 0xE000 ≤ u) : unit u = u := by
  unfold unit
  rw [if_neg]
  simp only [Bool.or_eq_true, isHigh_iff, isLow_iff]
  omega

theorem unit_surrogate {u : Nat} (h : 0xD800 ≤ u ∧ u < 0xE000) : unit u = runeError := by
  unfold unit
  rw [if_pos]
  simp only [Bool.or_eq_true, isHigh_iff, isLow_iff]
  omega

theorem chars_cons {u : Nat} (h : isHigh u = false) (s : Str) : chars (u :: s) = unit u :: chars s := by
  cases s with
  | nil => rfl
  | cons v s => simp [chars, h]

theorem chars_cons' {u : Nat} {s : Str} (h : ∀ v, s.head? = some v → isLow v = false) : chars (u :: s) = unit u :: chars s := by
  cases s with
  | nil => rfl
  | cons v s => simp [chars, h v rfl]

theorem chars_spells_append {s : Str} {rs : List Rune} (h : Spells s rs) (t : Str) : chars (s ++ t) = rs ++ chars t := by
  induction h with
  | nil => rfl
  | @basic u s rs h rest ih =>
    have : isHigh u = false := by
      rw [Bool.eq_false_iff, Ne, isHigh_iff]; omega
    rw [List.cons_append, chars_cons this, ih, unit_basic (by omega)]
    rfl
  | @pair u v s rs hu hv rest ih =>
    have h1 := (isHigh_iff u).2 hu
    have h2 := (isLow_iff v).2 hv
    simp only [List.cons_append, chars, h1, h2, Bool.and_self, if_true, ih]

theorem chars_spells {s : Str} {rs : List Rune} (h : Spells s rs) : chars s = rs := by
  simpa [chars] using chars_spells_append h []

theorem spells_valid {s : Str} {rs : List Rune} (h : Spells s rs) : ∀ r ∈ rs, validRune r = true := by
  induction h with
  | nil => simp
  | @basic u s rs h rest ih =>
    intro r hr
    rcases List.mem_cons.1 hr with rfl | hr
    · rw [validRune_iff]; omega
    · exact ih r hr
  | @pair u v s rs hu hv rest ih =>
    intro r hr
    rcases List.mem_cons.1 hr with e | hr
    · rw [validRune_iff, e]; omega
    · exact ih r hr

theorem spells_head {s : Str} {rs : List Rune} (h : Spells s rs) : ∀ v, s.head? = some v → isLow v = false := by
  intro v hv
  rw [Bool.eq_false_iff, Ne, isLow_iff]
  cases h with
  | nil => cases hv
  | basic h _ => cases hv; omega
  | pair hu _ _ => cases hv; omega

theorem spells_units {rs : List Rune} (h : ∀ r ∈ rs, validRune r = true) : Spells (units rs) rs := by
  induction rs with
  | nil => exact .nil
  | cons r rs ih =>
    have hr := h r (by simp)
    rw [validRune_iff] at hr
    have ih := ih fun x hx => h x (by simp [hx])
    show Spells (unitsOf r ++ units rs) _
    unfold unitsOf
    split
    · exact .basic (by omega) ih
    · have := Spells.pair (u := 0xD800 + (r - 0x10000) / 0x400) (v := 0xDC00 + (r - 0x10000) % 0x400) (by omega) (by omega) ih
      have e : 0x10000 + (0xD800 + (r - 0x10000) / 0x400 - 0xD800) * 0x400 + (0xDC00 + (r - 0x10000) % 0x400 - 0xDC00) = r := by
        omega
      rw [e] at this
      exact this

theorem says_ofText {s : Bytes} (h : ValidUtf8 s) : Says (ofText s) s := by
  refine ⟨decodeText s, rfl, ?_⟩
  obtain ⟨rs, hv, rfl⟩ := h
  rw [decodeText_encode hv, runes_encode hv]
  apply spells_units
  intro r hr
  split at hr
  · exact hv r (List.mem_of_mem_tail hr)
  · exact hv r hr

/-! ## Specs -/

theorem lists_map {α : Type} {Item : Value → α → Prop} {f : α → Value} : ∀ {xs : List α}, (∀ x ∈ xs, Item (f x) x) →
    Lists Item (xs.map f) xs
  | [], _ => .nil
  | x :: _, h => .cons (h x (by simp)) (lists_map fun y hy => h y (by simp [hy]))

theorem get_head (n : Str) (v : Value) (fs : List (Str × Value)) : (Value.object ((n, v) :: fs)).get n = .ok v := by
  simp [Value.get]

theorem get_tail {n m : Str} (h : n ≠ m) (v : Value) (fs : List (Str × Value)) :
    (Value.object ((m, v) :: fs)).get n = (Value.object fs).get n := by
  have : (n == m) = false := by simpa using h
  simp [Value.get, List.lookup_cons, this]

theorem path_one (v : Value) (a : String) : path v [a] = v.get (decodeText (str a)) := by
  simp only [path]
  cases v.get (decodeText (str a)) <;> rfl

theorem path_two (v : Value) (a b : String) :
    path v [a, b] = (v.get (decodeText (str a))).bind fun w => w.get (decodeText (str b)) := by
  show (v.get (decodeText (str a))).bind _ = _
  congr
  funext w
  exact path_one w b

theorem bind_of_ok (v : Value) (f : Value → Go Value) : (Go.ok v).bind f = f v := rfl

theorem describes {o : Ord} {src : Bytes} {sp : Spec} (h : parseSpec o src = .ok sp) (hs : ValidUtf8 src) :
    Describes (jsSpec sp) sp := by
  obtain ⟨h1, h2, h3, h4, h5⟩ := parseSpec_text h
  have hsrc : sp.source = src := by
    obtain ⟨d, hd, _, _, _, _, _, _, _, _, _, hsrc, _⟩ := parseSpec_fields h
    exact hsrc
  have hl : (jsSpec sp).get (decodeText (str "lang")) = .ok (jsLang sp) := get_head _ _ _
  have hc : (jsSpec sp).get (decodeText (str "config")) = .ok (jsConfig sp) := by
    rw [jsSpec, get_tail (by decide +kernel), get_head]
  refine ⟨?_, ?_, ?_, ?_, ?_, ?_⟩
  · intro f s hf
    simp only [List.mem_cons, Prod.mk.injEq, List.not_mem_nil, or_false] at hf
    rcases hf with ⟨rfl, rfl⟩ | ⟨rfl, rfl⟩ | ⟨rfl, rfl⟩ | ⟨rfl, rfl⟩ | ⟨rfl, rfl⟩ | ⟨rfl, rfl⟩
    all_goals
      refine ⟨_, ?_, says_ofText (h1 _ ?_)⟩
      rotate_left
      · simp only [List.mem_cons, true_or, or_true]
      · rw [path_two, hl, bind_of_ok, jsLang]
        repeat (first | rw [get_head] | rw [get_tail (by decide +kernel)])
  · refine ⟨_, ?_, lists_map fun s hs => says_ofText (h2 s hs)⟩
    rw [path_two, hl, bind_of_ok, jsLang]
    repeat (first | rw [get_head] | rw [get_tail (by decide +kernel)])
  · refine ⟨_, ?_, lists_map fun s hs => says_ofText (h3 s hs)⟩
    rw [path_two, hc, bind_of_ok, jsConfig, get_head]
  · refine ⟨_, ?_, says_ofText h4⟩
    rw [path_two, hc, bind_of_ok, jsConfig, get_tail (by decide +kernel), get_head]
  · refine ⟨_, ?_, lists_map (f := jsExample) fun t ht => ⟨⟨_, ?_, says_ofText (h5 t ht).1⟩, ⟨_, ?_, says_ofText (h5 t ht).2⟩⟩⟩
    · rw [path_one, jsSpec]
      repeat (first | rw [get_head] | rw [get_tail (by decide +kernel)])
    · rw [path_one, jsExample, get_head]
    · rw [path_one, jsExample, get_tail (by decide +kernel), get_head]
  · refine ⟨_, ?_, hsrc ▸ says_ofText hs⟩
    rw [path_one, jsSpec]
    repeat (first | rw [get_head] | rw [get_tail (by decide +kernel)])

theorem tells (t : Trace) : Tells (jsTrace t) t (Cli.stepName t.step) := by
  have hn : ∀ step, ValidUtf8 (Cli.stepName step) := by
    have : ∀ step, encode (runes (Cli.stepName step)) = Cli.stepName step := by
      intro step; cases step <;> decide +kernel
    exact fun step => (validUtf8_iff _).2 (this step)
  refine ⟨⟨_, ?_, says_ofText (hn _)⟩, fun h => ⟨_, ?_, says_ofText h⟩, fun h => ⟨_, ?_, says_ofText h⟩, fun h => ?_, fun r h => ?_⟩
  · rw [path_one, jsTrace]
    repeat (first | rw [get_head] | rw [get_tail (by decide +kernel)])
  · rw [path_one, jsTrace]
    repeat (first | rw [get_head] | rw [get_tail (by decide +kernel)])
  · rw [path_one, jsTrace]
    repeat (first | rw [get_head] | rw [get_tail (by decide +kernel)])
  · rw [path_one, jsTrace, h]
    repeat (first | rw [get_head] | rw [get_tail (by decide +kernel)])
    rfl
  · have hr : (jsTrace t).get (decodeText (str "rule")) = .ok (jsRule r) := by
      rw [jsTrace, h]
      repeat (first | rw [get_head] | rw [get_tail (by decide +kernel)])
      rfl
    refine ⟨?_, fun h => ⟨_, ?_, says_ofText h⟩, fun h => ⟨_, ?_, says_ofText h⟩⟩
    all_goals
      rw [path_two, hr, bind_of_ok, jsRule]
      repeat (first | rw [get_head] | rw [get_tail (by decide +kernel)])

/-- The fields of `hangulize.specs`, in the order in which the specs are loaded. -/
inductive Entries (files : Files) : List Bytes → List (Str × Value) → Prop
  | nil : Entries files [] []
  | cons {lang src : Bytes} {o : Ord} {sp : Spec} {langs : List Bytes} {fields : List (Str × Value)} (found : files lang = some src)
      (ho : o.Ok) (parsed : parseSpec o src = .ok sp) (rest : Entries files langs fields) :
      Entries files (lang :: langs) ((decodeText lang, jsSpec sp) :: fields)

theorem loaded_of {files : Files} {o : Ord} (ho : o.Ok) {lang : Bytes} {specs specs' : Cache} {sp : Spec} (hc : CacheOk files specs)
    (h : loadSpec files o lang specs = .ok (.inl sp, specs')) : ∃ src o', files lang = some src ∧ Ord.Ok o' ∧ parseSpec o' src = .ok sp := by
  rcases loadSpec_cases h with ⟨sp', h3, h4, _⟩ | ⟨_, _, h4, _⟩ | ⟨src, sp', _, h3, h4, h5, _⟩
  · cases h4
    obtain ⟨src, o', h5, h6, h7⟩ := hc _ _ h3
    exact ⟨src, o', h5, h6, h7⟩
  · cases h4
  · cases h5
    exact ⟨src, o, h3, ho, h4⟩

theorem jsSpecs_entries {files : Files} {o : Ord} (ho : o.Ok) : ∀ {langs : List Bytes} {specs specs' : Cache}
    {fields : List (Str × Value)}, jsSpecs files o langs specs = .ok (fields, specs') → CacheOk files specs →
    Entries files langs fields := by
  intro langs
  induction langs with
  | nil => intro specs specs' fields h hc; simp [jsSpecs] at h; rw [h.1]; exact .nil
  | cons lang langs ih =>
    intro specs specs' fields h hc
    simp only [jsSpecs, Go.bind_eq_ok] at h
    obtain ⟨⟨r, specs1⟩, h1, h⟩ := h
    cases r with
    | inr e => simp at h
    | inl sp =>
      simp only [Go.bind_eq_ok, Prod.exists, Go.pure_eq, Go.ok.injEq, Prod.mk.injEq] at h
      obtain ⟨fields', specs2, h2, rfl, _⟩ := h
      obtain ⟨src, o', h3, h4, h5⟩ := loaded_of ho hc h1
      exact .cons h3 h4 h5 (ih h2 (CacheOk.load ho hc h1))

theorem jsSpecs_ok {files : Files} {o : Ord} (ho : o.Ok)
    (hload : ∀ o lang specs, Ord.Ok o → CacheOk files specs → ∃ r specs', loadSpec files o lang specs = .ok (r, specs')) :
    ∀ {langs : List Bytes} {specs : Cache}, (∀ lang ∈ langs, (files lang).isSome = true) → CacheOk files specs →
    ∃ fields specs', jsSpecs files o langs specs = .ok (fields, specs') := by
  intro langs
  induction langs with
  | nil => intro specs _ _; exact ⟨_, _, rfl⟩
  | cons lang langs ih =>
    intro specs hl hc
    obtain ⟨r, specs1, h1⟩ := hload o lang specs ho hc
    have hc1 := CacheOk.load ho hc h1
    cases r with
    | inr e =>
      rcases loadSpec_cases h1 with ⟨_, _, h4, _⟩ | ⟨_, h4, _, _⟩ | ⟨_, _, _, _, _, h5, _⟩
      · cases h4
      · have := hl lang (by simp)
        rw [h4] at this
        cases this
      · cases h5
    | inl sp =>
      obtain ⟨fields, specs2, h2⟩ := ih (fun l hl' => hl l (by simp [hl'])) hc1
      exact ⟨(decodeText lang, jsSpec sp) :: fields, specs2, by simp [jsSpecs, h1, h2]⟩

/-- Names which are still different from each other in JavaScript. -/
def Distinct (langs : List Bytes) : Prop := ∀ a ∈ langs, ∀ b ∈ langs, decodeText a = decodeText b → a = b

theorem Entries.get {files : Files} {langs : List Bytes} {fields : List (Str × Value)} (h : Entries files langs fields)
    (hd : Distinct langs) {lang : Bytes} (hl : lang ∈ langs) : ∃ src o sp, files lang = some src ∧ Ord.Ok o ∧
      parseSpec o src = .ok sp ∧ (Value.object fields).get (decodeText lang) = .ok (jsSpec sp) := by
  induction h with
  | nil => simp at hl
  | @cons l src o sp langs fields found ho parsed rest ih =>
    by_cases e : lang = l
    · subst e
      exact ⟨src, o, sp, found, ho, parsed, get_head _ _ _⟩
    · have hl' : lang ∈ langs := by
        rcases List.mem_cons.1 hl with h | h
        · exact absurd h e
        · exact h
      obtain ⟨src', o', sp', h1, h2, h3, h4⟩ := ih (fun a ha b hb => hd a (by simp [ha]) b (by simp [hb])) hl'
      refine ⟨src', o', sp', h1, h2, h3, ?_⟩
      rw [get_tail]
      · exact h4
      · intro h
        exact e (hd lang (by simp [hl']) l (by simp) h)

theorem Entries.only {files : Files} {langs : List Bytes} {fields : List (Str × Value)} (h : Entries files langs fields)
    {name : Str} (hn : ∀ lang ∈ langs, name ≠ decodeText lang) : (Value.object fields).get name = .ok .undefined := by
  induction h with
  | nil => rfl
  | cons _ _ _ _ ih =>
    rw [get_tail (hn _ (by simp))]
    exact ih fun lang hl => hn lang (by simp [hl])

theorem text_ofText {s : Bytes} (h : ValidUtf8 s) (hb : (runes s).head? ≠ some 0xFEFF) : (ofText s).text = s := by
  obtain ⟨rs, hv, rfl⟩ := h
  rw [runes_encode hv] at hb
  simp only [ofText, Value.text, encodeText]
  rw [decodeText_encode hv, if_neg hb, chars_units hv]

theorem distinct_of {langs : List Bytes} (h : ∀ l ∈ langs, ValidUtf8 l ∧ (runes l).head? ≠ some 0xFEFF) : Distinct langs := by
  intro a ha b hb e
  rw [← text_ofText (h a ha).1 (h a ha).2, ← text_ofText (h b hb).1 (h b hb).2, ofText, ofText, e]

end Verif.Wasm
