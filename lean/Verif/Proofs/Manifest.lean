import Verif.Model.Manifest
import Verif.Proofs.Json
import Verif.Proofs.Bundled

/-! Proofs about `manifest.json` (C74). -/

namespace Verif.Manifest

open Verif.Js hiding chars
open Verif.Wasm Verif.Spec.Wasm Verif.Spec.Json Verif.Json

theorem exact_text (s : Bytes) : Exact (text s) s := ⟨_, rfl, spells_units (runes_valid s)⟩

theorem decodeText_eq {s : Bytes} (h : ValidUtf8 s) (hb : (runes s).head? ≠ some 0xFEFF) : decodeText s = units (runes s) := by
  obtain ⟨rs, hv, rfl⟩ := h
  rw [runes_encode hv] at hb ⊢
  rw [decodeText_encode hv, if_neg hb]

theorem all_strings (short : Bool) : ∀ ss : List Bytes, All (ss.map (Json.string short)) (ss.map text)
  | [] => .nil
  | s :: ss => .cons (reads_string short s) (all_strings short ss)

theorem lists_text : ∀ ss : List Bytes, Lists Exact (ss.map text) ss := fun _ => lists_map fun s _ => exact_text s

/-- The name of a field. -/
def name (s : String) : Str := units (runes (str s))

/-- The value of the language of a spec. -/
def langValue (s : Spec) : Value := .object [
  (name "id", text s.lang.id),
  (name "code2", text s.lang.codes.1),
  (name "code3", text s.lang.codes.2),
  (name "english", text s.lang.english),
  (name "korean", text s.lang.korean),
  (name "script", text s.lang.script),
  (name "translit", .array (s.lang.translit.map text))]

/-- The value of the configuration of a spec. -/
def configValue (s : Spec) : Value := .object [
  (name "authors", .array (s.config.authors.map text)),
  (name "stage", text s.config.stage)]

/-- The value of an example. -/
def exampleValue (exm : Bytes × Bytes) : Value := .object [(name "word", text exm.1), (name "result", text exm.2)]

/-- The value of a spec. -/
def specValue (s : Spec) : Value := .object [
  (name "lang", langValue s),
  (name "config", configValue s),
  (name "test", .array (s.test.map exampleValue))]

theorem lookup_nil' {α : Type} (k : Str) : ([] : List (Str × α)).lookup k = none := rfl

theorem lookup_none {α : Type} {k : Str} : ∀ {vs : List (Str × α)}, (∀ x ∈ vs, k ≠ x.1) → vs.lookup k = none
  | [], _ => rfl
  | x :: vs, h => by
    have : (k == x.1) = false := by simpa using h x (by simp)
    obtain ⟨a, b⟩ := x
    rw [List.lookup_cons, this]
    exact lookup_none fun y hy => h y (by simp [hy])

/-- Fields with names which are different. -/
theorem allFields : ∀ {ts : List (Bytes × List Rune)} {vs : List Value}, All (ts.map Prod.snd) vs →
    (ts.map fun f => units (runes f.1)).Nodup → AllFields ts ((ts.map fun f => units (runes f.1)).zip vs)
  | [], _, h, _ => by cases h; exact .nil
  | (k, t) :: ts, _, h, hn => by
    cases h with
    | cons h hs =>
      simp only [List.map_cons, List.nodup_cons] at hn
      refine .cons h (lookup_none fun x hx => ?_) (allFields hs hn.2)
      intro e
      rw [e] at hn
      exact hn.1 (List.of_mem_zip hx).1

theorem reads_lang (short : Bool) (s : Spec) : Reads (lang short s) (langValue s) :=
  reads_object short (allFields (vs := [text s.lang.id, text s.lang.codes.1, text s.lang.codes.2, text s.lang.english,
      text s.lang.korean, text s.lang.script, .array (s.lang.translit.map text)])
    (.cons (reads_string _ _) (.cons (reads_string _ _) (.cons (reads_string _ _) (.cons (reads_string _ _) (.cons (reads_string _ _)
      (.cons (reads_string _ _) (.cons (reads_array (all_strings short _)) .nil))))))) (by simp only [List.map_cons, List.map_nil]; decide +kernel))

theorem reads_config (short : Bool) {s : Spec} (h : configured s = true) : Reads (config short s) (configValue s) := by
  refine reads_object short (allFields (vs := [.array (s.config.authors.map text), text s.config.stage])
    (.cons ?_ (.cons (reads_string _ _) .nil)) (by simp only [List.map_cons, List.map_nil]; decide +kernel))
  simp only [h, if_true]
  exact reads_array (all_strings short _)

theorem reads_example (short : Bool) (exm : Bytes × Bytes) : Reads (exampleOf short exm) (exampleValue exm) :=
  reads_object short (allFields (vs := [text exm.1, text exm.2])
    (.cons (reads_string _ _) (.cons (reads_string _ _) .nil)) (by simp only [List.map_cons, List.map_nil]; decide +kernel))

theorem all_examples (short : Bool) : ∀ xs : List (Bytes × Bytes), All (xs.map (exampleOf short)) (xs.map exampleValue)
  | [] => .nil
  | x :: xs => .cons (reads_example short x) (all_examples short xs)

theorem reads_spec (short : Bool) {s : Spec} (h : configured s = true) : Reads (jsonSpec short s) (specValue s) :=
  reads_object short (allFields (vs := [langValue s, configValue s, .array (s.test.map exampleValue)])
    (.cons (reads_lang short s) (.cons (reads_config short h) (.cons (reads_array (all_examples short _)) .nil))) (by simp only [List.map_cons, List.map_nil]; decide +kernel))

theorem tells (s : Spec) : Tells (specValue s) s := by
  have n : ∀ f ∈ ["id", "code2", "code3", "english", "korean", "script", "translit", "authors", "stage", "word", "result", "lang",
      "config", "test"], decodeText (str f) = name f := by decide +kernel
  have hl : (specValue s).get (name "lang") = .ok (langValue s) := get_head _ _ _
  have hc : (specValue s).get (name "config") = .ok (configValue s) := by
    rw [specValue, get_tail (by decide +kernel), get_head]
  refine ⟨?_, ?_, ?_, ?_, ?_⟩
  · intro f t hf
    simp only [List.mem_cons, Prod.mk.injEq, List.not_mem_nil, or_false] at hf
    rcases hf with ⟨rfl, rfl⟩ | ⟨rfl, rfl⟩ | ⟨rfl, rfl⟩ | ⟨rfl, rfl⟩ | ⟨rfl, rfl⟩ | ⟨rfl, rfl⟩
    all_goals
      refine ⟨_, ?_, exact_text _⟩
      rw [path_two, n _ (by simp), hl, bind_of_ok, langValue, n _ (by simp)]
      repeat (first | rw [get_head] | rw [get_tail (by decide +kernel)])
  · refine ⟨_, ?_, lists_text _⟩
    rw [path_two, n _ (by simp), hl, bind_of_ok, langValue, n _ (by simp)]
    repeat (first | rw [get_head] | rw [get_tail (by decide +kernel)])
  · refine ⟨_, ?_, lists_text _⟩
    rw [path_two, n _ (by simp), hc, bind_of_ok, configValue, n _ (by simp), get_head]
  · refine ⟨_, ?_, exact_text _⟩
    rw [path_two, n _ (by simp), hc, bind_of_ok, configValue, n _ (by simp), get_tail (by decide +kernel), get_head]
  · refine ⟨_, ?_, lists_map (f := exampleValue) fun t _ => ⟨⟨_, ?_, exact_text _⟩, ⟨_, ?_, exact_text _⟩⟩⟩
    · rw [path_one, n _ (by simp), specValue]
      repeat (first | rw [get_head] | rw [get_tail (by decide +kernel)])
    · rw [path_one, n _ (by simp), exampleValue, get_head]
    · rw [path_one, n _ (by simp), exampleValue, get_tail (by decide +kernel), get_head]

/-! ## Collecting -/

/-- The specs of some languages. -/
inductive Loads (files : Files) : List Bytes → List (Bytes × Spec) → Prop
  | nil : Loads files [] []
  | cons {lang src : Bytes} {o : Ord} {sp : Spec} {langs : List Bytes} {xs : List (Bytes × Spec)} (found : files lang = some src)
      (ho : o.Ok) (parsed : parseSpec o src = .ok sp) (rest : Loads files langs xs) : Loads files (lang :: langs) ((lang, sp) :: xs)

/-- The keys of a set. -/
def addAll (m : List (Bytes × Unit)) (ts : List Bytes) : List (Bytes × Unit) := ts.foldl (fun m t => mapSet m t ()) m

theorem collect_loads {files : Files} {o : Ord} (ho : o.Ok) : ∀ {langs : List Bytes} {specs specs' : List (Bytes × Spec)}
    {ts ts' : List (Bytes × Unit)} {cache : Cache}, collect files o langs specs ts cache = .ok (specs', ts') → CacheOk files cache →
    ∃ xs, Loads files langs xs ∧ specs' = xs.foldl (fun m x => mapSet m x.1 x.2) specs ∧
      ts' = xs.foldl (fun m x => addAll m x.2.lang.translit) ts := by
  intro langs
  induction langs with
  | nil =>
    intro specs specs' ts ts' cache h hc
    simp only [collect, Go.ok.injEq, Prod.mk.injEq] at h
    exact ⟨[], .nil, h.1.symm, h.2.symm⟩
  | cons lang langs ih =>
    intro specs specs' ts ts' cache h hc
    simp only [collect, Go.bind_eq_ok] at h
    obtain ⟨⟨r, cache1⟩, h1, h⟩ := h
    cases r with
    | inr e => simp at h
    | inl sp =>
      obtain ⟨src, o', h3, h4, h5⟩ := loaded_of ho hc h1
      obtain ⟨xs, g1, g2, g3⟩ := ih h (CacheOk.load ho hc h1)
      exact ⟨(lang, sp) :: xs, .cons h3 h4 h5 g1, g2, g3⟩

theorem collect_ok {files : Files} {o : Ord} (ho : o.Ok)
    (hload : ∀ o lang specs, Ord.Ok o → CacheOk files specs → ∃ r specs', loadSpec files o lang specs = .ok (r, specs')) :
    ∀ {langs : List Bytes} {specs : List (Bytes × Spec)} {ts : List (Bytes × Unit)} {cache : Cache},
    (∀ lang ∈ langs, (files lang).isSome = true) → CacheOk files cache → ∃ r, collect files o langs specs ts cache = .ok r := by
  intro langs
  induction langs with
  | nil => intro specs ts cache _ _; exact ⟨_, rfl⟩
  | cons lang langs ih =>
    intro specs ts cache hl hc
    obtain ⟨r, specs1, h1⟩ := hload o lang cache ho hc
    have hc1 := CacheOk.load ho hc h1
    cases r with
    | inr e =>
      rcases loadSpec_cases h1 with ⟨_, _, h4, _⟩ | ⟨_, h4, _, _⟩ | ⟨_, _, _, _, _, h5, _⟩
      · cases h4
      · have := hl lang (by simp)
        rw [h4] at this
        cases this
      · cases h5
    | inl sp =>
      obtain ⟨r, h2⟩ := ih (specs := mapSet specs lang sp) (ts := addAll ts sp.lang.translit) (fun l hl' => hl l (by simp [hl'])) hc1
      exact ⟨r, by simp only [collect, h1, Go.bind_ok]; exact h2⟩

theorem Loads.langs {files : Files} {langs : List Bytes} {xs : List (Bytes × Spec)} (h : Loads files langs xs) :
    xs.map Prod.fst = langs := by
  induction h with
  | nil => rfl
  | cons _ _ _ _ ih => rw [List.map_cons, ih]

theorem Loads.mem {files : Files} {langs : List Bytes} {xs : List (Bytes × Spec)} (h : Loads files langs xs) {lang : Bytes} {sp : Spec}
    (hm : (lang, sp) ∈ xs) : ∃ src o, files lang = some src ∧ Ord.Ok o ∧ parseSpec o src = .ok sp := by
  induction h with
  | nil => simp at hm
  | cons found ho parsed _ ih =>
    rcases List.mem_cons.1 hm with e | hm
    · cases e; exact ⟨_, _, found, ho, parsed⟩
    · exact ih hm

theorem mapSet_keys {α : Type} (m : List (Bytes × α)) (k : Bytes) (v : α) (h : (m.map Prod.fst).Nodup) :
    ((mapSet m k v).map Prod.fst).Nodup := by
  simp only [mapSet, List.map_cons, List.nodup_cons]
  refine ⟨?_, h.sublist (List.filter_sublist.map _)⟩
  intro hm
  obtain ⟨x, h1, h2⟩ := List.mem_map.1 hm
  have := (List.mem_filter.1 h1).2
  simp [h2] at this

theorem mem_mapSet_keys {α : Type} (m : List (Bytes × α)) (k k' : Bytes) (v : α) :
    k' ∈ (mapSet m k v).map Prod.fst ↔ k' = k ∨ k' ∈ m.map Prod.fst := by
  simp only [mapSet, List.map_cons, List.mem_cons, List.mem_map, List.mem_filter, decide_eq_true_eq]
  constructor
  · rintro (h | ⟨x, ⟨h1, _⟩, h2⟩)
    · exact .inl h
    · exact .inr ⟨x, h1, h2⟩
  · rintro (h | ⟨x, h1, h2⟩)
    · exact .inl h
    · by_cases e : k' = k
      · exact .inl e
      · exact .inr ⟨x, ⟨h1, by rw [h2]; simpa using e⟩, h2⟩

theorem mapSet_mem {α : Type} (m : List (Bytes × α)) (k : Bytes) (v : α) {x : Bytes × α} (h : x ∈ mapSet m k v) :
    x = (k, v) ∨ x ∈ m := by
  simp only [mapSet, List.mem_cons, List.mem_filter] at h
  rcases h with h | h
  · exact .inl h
  · exact .inr h.1

theorem addAll_keys : ∀ (ts : List Bytes) (m : List (Bytes × Unit)), (m.map Prod.fst).Nodup →
    ((addAll m ts).map Prod.fst).Nodup ∧ ∀ t, t ∈ (addAll m ts).map Prod.fst ↔ t ∈ ts ∨ t ∈ m.map Prod.fst
  | [], m, h => ⟨h, by simp [addAll]⟩
  | t :: ts, m, h => by
    obtain ⟨h1, h2⟩ := addAll_keys ts (mapSet m t ()) (mapSet_keys m t () h)
    refine ⟨h1, fun t' => ?_⟩
    show t' ∈ (addAll (mapSet m t ()) ts).map Prod.fst ↔ _
    rw [h2 t', mem_mapSet_keys, List.mem_cons]
    constructor
    · rintro (h | h | h) <;> simp [h]
    · rintro ((h | h) | h) <;> simp [h]

theorem sets_keys : ∀ (xs : List (Bytes × Spec)) (m : List (Bytes × Unit)), (m.map Prod.fst).Nodup →
    ((xs.foldl (fun m x => addAll m x.2.lang.translit) m).map Prod.fst).Nodup ∧
    ∀ t, t ∈ (xs.foldl (fun m x => addAll m x.2.lang.translit) m).map Prod.fst ↔
      (∃ x ∈ xs, t ∈ x.2.lang.translit) ∨ t ∈ m.map Prod.fst
  | [], m, h => ⟨h, by simp⟩
  | x :: xs, m, h => by
    obtain ⟨h1, h2⟩ := addAll_keys x.2.lang.translit m h
    obtain ⟨h3, h4⟩ := sets_keys xs _ h1
    refine ⟨h3, fun t => ?_⟩
    rw [List.foldl_cons, h4 t, h2 t]
    simp only [List.mem_cons, exists_eq_or_imp]
    constructor
    · rintro (h | h | h) <;> simp [h]
    · rintro ((h | h) | h) <;> simp [h]

theorem maps_keys : ∀ (xs m : List (Bytes × Spec)), (m.map Prod.fst).Nodup →
    ((xs.foldl (fun m x => mapSet m x.1 x.2) m).map Prod.fst).Nodup ∧
    (∀ k, k ∈ (xs.foldl (fun m x => mapSet m x.1 x.2) m).map Prod.fst ↔ k ∈ xs.map Prod.fst ∨ k ∈ m.map Prod.fst) ∧
    ∀ x ∈ xs.foldl (fun m x => mapSet m x.1 x.2) m, x ∈ xs ∨ x ∈ m
  | [], m, h => ⟨h, by simp, by simp⟩
  | x :: xs, m, h => by
    obtain ⟨h3, h4, h5⟩ := maps_keys xs _ (mapSet_keys m x.1 x.2 h)
    refine ⟨h3, fun k => ?_, fun y hy => ?_⟩
    · rw [List.foldl_cons, h4 k, mem_mapSet_keys]
      simp only [List.map_cons, List.mem_cons]
      constructor
      · rintro (h | h | h) <;> simp [h]
      · rintro ((h | h) | h) <;> simp [h]
    · rcases h5 y hy with h | h
      · exact .inl (by simp [h])
      · rcases mapSet_mem _ _ _ h with h | h
        · exact .inl (by simp [h])
        · exact .inr h

/-! ## Sorting -/

theorem mem_of_lookup {α : Type} {k : Bytes} {v : α} : ∀ {m : List (Bytes × α)}, m.lookup k = some v → (k, v) ∈ m
  | [], h => by simp at h
  | (a, b) :: m, h => by
    rw [lookup_cons'] at h
    split at h
    · rename_i e; cases h; subst e; simp
    · exact List.mem_cons_of_mem _ (mem_of_lookup h)

theorem lookup_of_key {α : Type} {k : Bytes} : ∀ {m : List (Bytes × α)}, k ∈ m.map Prod.fst → ∃ v, m.lookup k = some v
  | [], h => by simp at h
  | (a, b) :: m, h => by
    rw [lookup_cons']
    split
    · exact ⟨_, rfl⟩
    · rename_i e
      exact lookup_of_key ((List.mem_cons.1 h).resolve_left e)

theorem filterMap_keys {α : Type} (m : List (Bytes × α)) : ∀ (ks : List Bytes), (∀ k ∈ ks, k ∈ m.map Prod.fst) →
    (ks.filterMap fun k => (m.lookup k).map fun v => (k, v)).map Prod.fst = ks
  | [], _ => rfl
  | k :: ks, h => by
    obtain ⟨v, hv⟩ := lookup_of_key (h k (by simp))
    rw [List.filterMap_cons, hv]
    simp only [Option.map_some, List.map_cons]
    rw [filterMap_keys m ks fun k hk => h k (by simp [hk])]

theorem sorted_keys {α : Type} (m : List (Bytes × α)) : (sorted m).map Prod.fst = sortStrings (m.map Prod.fst) :=
  filterMap_keys m _ fun k hk => (mem_sortStrings k _).1 hk

theorem sorted_mem {α : Type} {m : List (Bytes × α)} {x : Bytes × α} (h : x ∈ sorted m) : x ∈ m := by
  simp only [sorted, List.mem_filterMap, Option.map_eq_some_iff] at h
  obtain ⟨k, _, v, h2, rfl⟩ := h
  exact mem_of_lookup h2

/-! ## The whole -/

theorem all_map {α : Type} {f : α → List Rune} {g : α → Value} : ∀ {xs : List α}, (∀ x ∈ xs, Reads (f x) (g x)) →
    All (xs.map f) (xs.map g)
  | [], _ => .nil
  | x :: _, h => .cons (h x (by simp)) (all_map fun y hy => h y (by simp [hy]))

theorem lookup_zip {α : Type} {f : α → Str} {g : α → Value} : ∀ {xs : List α} {x : α}, x ∈ xs → (xs.map f).Nodup →
    ((xs.map f).zip (xs.map g)).lookup (f x) = some (g x)
  | [], _, h, _ => by simp at h
  | y :: ys, x, h, hn => by
    simp only [List.map_cons, List.nodup_cons] at hn
    simp only [List.map_cons, List.zip_cons_cons, List.lookup_cons]
    rcases List.mem_cons.1 h with rfl | h
    · simp
    · have : (f x == f y) = false := by
        simp only [beq_eq_false_iff_ne, ne_eq]
        intro e
        exact hn.1 (e ▸ List.mem_map_of_mem h)
      rw [this]
      exact lookup_zip h hn.2

end Verif.Manifest
