import Verif.Proofs.Manifest
import Verif.Props.Output
import Verif.Props.Wasm

/-! C74: `manifest.json`. -/

namespace Verif.Props

open Verif.Js hiding chars
open Verif.Wasm Verif.Spec.Wasm Verif.Spec.Json Verif.Specs

theorem bundled_configured {lang src : Bytes} {o : Ord} {sp : Spec} (h : bundled lang = some src) (ho : o.Ok)
    (hp : parseSpec o src = .ok sp) : Manifest.configured sp = true := by
  obtain ⟨l, _, hs⟩ := bundled_sound h
  obtain ⟨sp', h1, _, _, _, ⟨_, doc, sec, h3, h4, _⟩, _⟩ := hs o ho
  rw [hp, Go.ok.injEq] at h1
  subst h1
  have hsrc : sp.source = src := by
    obtain ⟨d, hd, _, _, _, _, _, _, _, _, _, hsrc, _⟩ := parseSpec_fields hp
    exact hsrc
  simp [Manifest.configured, hsrc, h3, h4]

/-- C74 with the order of the translits. -/
theorem manifest_text {o : Ord} (ho : o.Ok) {visit : List Bytes → List Bytes} (hv : ∀ l, (visit l).Perm l) (short : Bool)
    (version : Bytes) : ∃ file v, Manifest.main bundled o visit short version (listLangs entries) = .ok file ∧
      parse (runes file) = some v ∧
      (∃ x, path v ["version"] = .ok x ∧ Exact x version) ∧
      (∃ specs, path v ["specs"] = .ok specs ∧
        (∀ lang ∈ listLangs entries, ∃ e src o' sp, specs.get (decodeText lang) = .ok e ∧ bundled lang = some src ∧ Ord.Ok o' ∧
          parseSpec o' src = .ok sp ∧ Tells e sp) ∧
        ∀ name, (∀ lang ∈ listLangs entries, name ≠ decodeText lang) → specs.get name = .ok .undefined) ∧
      ∃ xs ts, path v ["translits"] = .ok (.array xs) ∧ Lists Exact xs ts ∧ (∃ l, ts = visit l) ∧ ts.Nodup ∧
        ∀ t, t ∈ ts ↔ ∃ lang src o' sp, bundled lang = some src ∧ Ord.Ok o' ∧ parseSpec o' src = .ok sp ∧ t ∈ sp.lang.translit := by
  obtain ⟨⟨specs, ts⟩, h1⟩ := Manifest.collect_ok (files := bundled) ho
    (fun o lang specs ho hc => by obtain ⟨r, s, h, _⟩ := load_runs ho lang hc; exact ⟨r, s, h⟩)
    (langs := listLangs entries) (specs := []) (ts := []) (cache := []) (fun lang hl => (C65_listed lang).1 hl)
    (by intro l sp hl; simp at hl)
  obtain ⟨loaded, h2, rfl, rfl⟩ := Manifest.collect_loads ho h1 (by intro l sp hl; simp at hl)
  obtain ⟨k1, k2, k3⟩ := Manifest.maps_keys loaded [] (by simp)
  obtain ⟨t1, t2⟩ := Manifest.sets_keys loaded [] (by simp)
  generalize hspecs : loaded.foldl (fun m x => mapSet m x.1 x.2) [] = specs at *
  generalize hts : loaded.foldl (fun m x => Manifest.addAll m x.2.lang.translit) [] = ts at *
  have hin : ∀ x ∈ Manifest.sorted specs, ∃ src o', bundled x.1 = some src ∧ Ord.Ok o' ∧ parseSpec o' src = .ok x.2 := by
    intro x hx
    rcases k3 x (Manifest.sorted_mem hx) with h | h
    · exact h2.mem h
    · simp at h
  have hnames : ∀ x ∈ Manifest.sorted specs, decodeText x.1 = units (runes x.1) := by
    intro x hx
    obtain ⟨src, _, h, _⟩ := hin x hx
    have := listed_names x.1 ((C65_listed x.1).2 (by rw [h]; rfl))
    exact Manifest.decodeText_eq this.1 this.2
  have hlist : ∀ x ∈ Manifest.sorted specs, x.1 ∈ listLangs entries := by
    intro x hx
    obtain ⟨src, _, h, _⟩ := hin x hx
    exact (C65_listed x.1).2 (by rw [h]; rfl)
  have hdist := distinct_of listed_names
  have hnodup : ((Manifest.sorted specs).map fun x => units (runes x.1)).Nodup := by
    have h := nodup_sort _ k1
    rw [← Manifest.sorted_keys] at h
    have e : (Manifest.sorted specs).map (fun x => units (runes x.1)) = ((Manifest.sorted specs).map Prod.fst).map decodeText := by
      rw [List.map_map]
      exact List.map_congr_left fun x hx => (hnames x hx).symm
    rw [e]
    refine List.pairwise_map.2 (List.Pairwise.imp_of_mem (fun {a b} ha hb hne e => hne ?_) h)
    obtain ⟨x, hx, rfl⟩ := List.mem_map.1 ha
    obtain ⟨y, hy, rfl⟩ := List.mem_map.1 hb
    exact hdist _ (hlist x hx) _ (hlist y hy) e
  have hspec := Json.reads_object short (Manifest.allFields
    (ts := (Manifest.sorted specs).map fun x => (x.1, Manifest.jsonSpec short x.2))
    (vs := (Manifest.sorted specs).map fun x => Manifest.specValue x.2)
    (by
      rw [List.map_map]
      refine Manifest.all_map fun x hx => ?_
      obtain ⟨src, o', g1, g2, g3⟩ := hin x hx
      exact Manifest.reads_spec short (bundled_configured g1 g2 g3))
    (by rw [List.map_map]; exact hnodup))
  rw [List.map_map] at hspec
  have hwhole := Json.reads_object short (Manifest.allFields (ts := [
      (str "version", Json.string short version),
      (str "specs", Json.object short ((Manifest.sorted specs).map fun x => (x.1, Manifest.jsonSpec short x.2))),
      (str "translits", Json.array ((visit (ts.map Prod.fst)).map (Json.string short)))])
    (.cons (Json.reads_string _ _) (.cons hspec (.cons (Json.reads_array (Manifest.all_strings short _)) .nil)))
    (by simp only [List.map_cons, List.map_nil]; decide +kernel))
  have n : ∀ f ∈ ["version", "specs", "translits"], decodeText (str f) = Manifest.name f := by decide +kernel
  refine ⟨_, _, by simp only [Manifest.main, h1, Go.bind_ok, Go.pure_eq], Json.parse_reads hwhole, ?_, ?_, ?_⟩
  · refine ⟨_, ?_, Manifest.exact_text _⟩
    rw [path_one, n _ (by simp)]
    exact get_head _ _ _
  · refine ⟨.object (((Manifest.sorted specs).map fun x => units (runes x.1)).zip
      ((Manifest.sorted specs).map fun x => Manifest.specValue x.2)), ?_, ?_, ?_⟩
    · rw [path_one, n _ (by simp)]
      exact (get_tail (by show Manifest.name "specs" ≠ Manifest.name "version"; decide +kernel) _ _).trans (get_head _ _ _)
    · intro lang hl
      have hk : lang ∈ (Manifest.sorted specs).map Prod.fst := by
        rw [Manifest.sorted_keys, mem_sortStrings, k2]
        exact .inl (by rw [h2.langs]; exact hl)
      obtain ⟨⟨l, sp⟩, hx, rfl⟩ := List.mem_map.1 hk
      obtain ⟨src, o', g1, g2, g3⟩ := hin _ hx
      refine ⟨_, src, o', sp, ?_, g1, g2, g3, Manifest.tells sp⟩
      rw [hnames _ hx]
      simp only [Value.get]
      rw [Manifest.lookup_zip (f := fun x : Bytes × Spec => units (runes x.1)) (g := fun x : Bytes × Spec => Manifest.specValue x.2) hx hnodup]
      rfl
    · intro name hn
      simp only [Value.get]
      rw [Manifest.lookup_none]
      · rfl
      · intro x hx e
        obtain ⟨y, hy, e'⟩ := List.mem_map.1 (List.of_mem_zip hx).1
        exact hn y.1 (hlist y hy) (by rw [hnames y hy, e, e'])
  · refine ⟨_, visit (ts.map Prod.fst), ?_, Manifest.lists_text _, ⟨_, rfl⟩, (hv _).nodup_iff.2 t1, fun t => ?_⟩
    · rw [path_one, n _ (by simp)]
      exact (get_tail (by show Manifest.name "translits" ≠ Manifest.name "version"; decide +kernel) _ _).trans
        ((get_tail (by show Manifest.name "translits" ≠ Manifest.name "specs"; decide +kernel) _ _).trans (get_head _ _ _))
    · rw [(hv _).mem_iff, t2 t]
      constructor
      · rintro (⟨⟨l, sp⟩, hx, ht⟩ | h)
        · obtain ⟨src, o', g1, g2, g3⟩ := h2.mem hx
          exact ⟨l, src, o', sp, g1, g2, g3, ht⟩
        · simp at h
      · rintro ⟨l, src, o', sp, g1, g2, g3, ht⟩
        have hl : l ∈ loaded.map Prod.fst := by
          rw [h2.langs]
          exact (C65_listed l).2 (by rw [g1]; rfl)
        obtain ⟨⟨l', sp'⟩, hx, rfl⟩ := List.mem_map.1 hl
        refine .inl ⟨_, hx, ?_⟩
        obtain ⟨src', o'', e1, e2, e3⟩ := h2.mem hx
        have hsame : sp'.lang = sp.lang := by
          obtain ⟨la, hm, hs⟩ := bundled_sound e1
          obtain ⟨s1, p1, q1, _⟩ := hs o'' e2
          have : src' = src := by
            have := e1.symm.trans g1
            exact Option.some.inj this
          subst this
          obtain ⟨s2, p2, q2, _⟩ := hs o' g2
          rw [e3, Go.ok.injEq] at p1
          rw [g3, Go.ok.injEq] at p2
          rw [p1, p2, q1, q2]
        rw [hsame]
        exact ht

/-- C74: the command writes JSON.  Read in JavaScript it has the version, an entry for each listed language which tells what the
spec says and no other entries, and each translit of a bundled spec once. -/
theorem C74_manifest {o : Ord} (ho : o.Ok) {visit : List Bytes → List Bytes} (hv : ∀ l, (visit l).Perm l) (short : Bool)
    (version : Bytes) : ∃ file v, Manifest.main bundled o visit short version (listLangs entries) = .ok file ∧
      parse (runes file) = some v ∧
      (∃ x, path v ["version"] = .ok x ∧ Exact x version) ∧
      (∃ specs, path v ["specs"] = .ok specs ∧
        (∀ lang ∈ listLangs entries, ∃ e src o' sp, specs.get (decodeText lang) = .ok e ∧ bundled lang = some src ∧ Ord.Ok o' ∧
          parseSpec o' src = .ok sp ∧ Tells e sp) ∧
        ∀ name, (∀ lang ∈ listLangs entries, name ≠ decodeText lang) → specs.get name = .ok .undefined) ∧
      ∃ xs ts, path v ["translits"] = .ok (.array xs) ∧ Lists Exact xs ts ∧ ts.Nodup ∧
        ∀ t, t ∈ ts ↔ ∃ lang src o' sp, bundled lang = some src ∧ Ord.Ok o' ∧ parseSpec o' src = .ok sp ∧ t ∈ sp.lang.translit := by
  obtain ⟨file, v, h1, h2, h3, h4, xs, ts, h5, h6, _, h7⟩ := manifest_text ho hv short version
  exact ⟨file, v, h1, h2, h3, h4, xs, ts, h5, h6, h7⟩

/-- What a manifest tells of a spec. -/
def erase (sp : Spec) : Spec := { sp with normPairs := [] }

theorem loads_erase : ∀ {langs : List Bytes} {xs ys : List (Bytes × Spec)}, Manifest.Loads bundled langs xs → Manifest.Loads bundled langs ys →
    xs.map (fun x => (x.1, erase x.2)) = ys.map fun x => (x.1, erase x.2) := by
  intro langs
  induction langs with
  | nil => intro xs ys h1 h2; cases h1; cases h2; rfl
  | cons lang langs ih =>
    intro xs ys h1 h2
    cases h1 with
    | cons f1 o1 p1 r1 =>
      cases h2 with
      | cons f2 o2 p2 r2 =>
        obtain ⟨e, _⟩ := C68_specs ⟨lang, _, _, _, f1, o1, o2, p1, by rw [f1, Option.some.injEq] at f2; rw [f2]; exact p2⟩
        simp only [List.map_cons, ih r1 r2]
        congr 2
        unfold erase
        rw [e]

theorem mapSet_map {α β : Type} (f : α → β) (m : List (Bytes × α)) (k : Bytes) (v : α) :
    (mapSet m k v).map (fun x => (x.1, f x.2)) = mapSet (m.map fun x => (x.1, f x.2)) k (f v) := by
  simp only [mapSet, List.map_cons, List.filter_map]
  rfl

theorem maps_map (f : Spec → Spec) : ∀ (xs m : List (Bytes × Spec)),
    (xs.foldl (fun m x => mapSet m x.1 x.2) m).map (fun x => (x.1, f x.2)) =
      (xs.map fun x => (x.1, f x.2)).foldl (fun m x => mapSet m x.1 x.2) (m.map fun x => (x.1, f x.2))
  | [], _ => rfl
  | x :: xs, m => by rw [List.foldl_cons, maps_map f xs, mapSet_map]; rfl

theorem lookup_map' {α β : Type} (f : α → β) (k : Bytes) : ∀ (m : List (Bytes × α)),
    (m.map fun x => (x.1, f x.2)).lookup k = (m.lookup k).map f
  | [] => rfl
  | (a, b) :: m => by
    rw [List.map_cons, lookup_cons', lookup_cons', lookup_map' f k m]
    split <;> rfl

theorem sorted_map {α β : Type} (f : α → β) (m : List (Bytes × α)) :
    Manifest.sorted (m.map fun x => (x.1, f x.2)) = (Manifest.sorted m).map fun x => (x.1, f x.2) := by
  unfold Manifest.sorted
  rw [List.map_map, List.map_filterMap]
  congr 1
  funext k
  rw [lookup_map', Option.map_map, Option.map_map]
  rfl

/-- C74, for one order of the translits: two builds of one version give the same text. -/
theorem C74_reproducible_partial {o o' : Ord} (ho : o.Ok) (ho' : o'.Ok) (visit : List Bytes → List Bytes) (short : Bool) (version : Bytes) :
    Manifest.main bundled o visit short version (listLangs entries) = Manifest.main bundled o' visit short version (listLangs entries) := by
  have key : ∀ o : Ord, o.Ok → ∃ xs, Manifest.Loads bundled (listLangs entries) xs ∧
      Manifest.collect bundled o (listLangs entries) [] [] [] = .ok (xs.foldl (fun m x => mapSet m x.1 x.2) [],
        xs.foldl (fun m x => Manifest.addAll m x.2.lang.translit) []) := by
    intro o ho
    obtain ⟨⟨specs, ts⟩, h1⟩ := Manifest.collect_ok (files := bundled) ho
      (fun o lang specs ho hc => by obtain ⟨r, s, h, _⟩ := load_runs ho lang hc; exact ⟨r, s, h⟩)
      (langs := listLangs entries) (specs := []) (ts := []) (cache := []) (fun lang hl => (C65_listed lang).1 hl)
      (by intro l sp hl; simp at hl)
    obtain ⟨loaded, h2, rfl, rfl⟩ := Manifest.collect_loads ho h1 (by intro l sp hl; simp at hl)
    exact ⟨loaded, h2, h1⟩
  obtain ⟨xs, h1, h2⟩ := key o ho
  obtain ⟨ys, h3, h4⟩ := key o' ho'
  have he := loads_erase h1 h3
  simp only [Manifest.main, h2, h4, Go.bind_ok]
  have hs : ∀ zs : List (Bytes × Spec), (Manifest.sorted (zs.foldl (fun m x => mapSet m x.1 x.2) [])).map
      (fun x => (x.1, Manifest.jsonSpec short x.2)) =
      (Manifest.sorted ((zs.map fun x => (x.1, erase x.2)).foldl (fun m x => mapSet m x.1 x.2) [])).map
        (fun x => (x.1, Manifest.jsonSpec short x.2)) := by
    intro zs
    have := maps_map erase zs []
    rw [List.map_nil] at this
    rw [← this, sorted_map, List.map_map]
    rfl
  have ht : ∀ (zs : List (Bytes × Spec)) m, zs.foldl (fun m (x : Bytes × Spec) => Manifest.addAll m x.2.lang.translit) m =
      (zs.map fun x => (x.1, erase x.2)).foldl (fun m x => Manifest.addAll m x.2.lang.translit) m := by
    intro zs m
    rw [List.foldl_map]
    rfl
  rw [hs xs, hs ys, ht xs, ht ys, he]

/-- A spec with two translits, and characters which JSON has to escape. -/
def escapes : Files := fun lang =>
  if lang = str "aa" then some (str "lang:\nid = \"aa\"\ncodes = \"a\", \"aa\"\nenglish = \"<a> & b\"\nscript = \"Latn\"\n\
translit = \"t\", \"u\"\ntest:\n\"a\" -> \"ㅏ\"\n")
  else none

/-- The text written for it: there is no section `config`, so that the authors are null. -/
example : Manifest.main escapes .written id true (str "1.0\n") [str "aa"] = .ok (str ("{\"version\":\"1.0\\n\",\"specs\":{\"aa\":{\"lang\":\
{\"id\":\"aa\",\"code2\":\"a\",\"code3\":\"aa\",\"english\":\"\\u003ca\\u003e \\u0026 b\",\"korean\":\"\",\"script\":\"Latn\",\"translit\":[\"t\",\"u\"]},\
\"config\":{\"authors\":null,\"stage\":\"\"},\"test\":[{\"word\":\"a\",\"result\":\"ㅏ\"}]}},\"translits\":[\"u\",\"t\"]}\n")) := by decide +kernel

/-- Reading JSON: escapes, white space, repeated names, and texts which are no JSON. -/
example : let get := fun (s : String) => (parse (runes (str s))).bind fun v => match v.get [0x61] with | .ok (.string u) => some u | _ => none
    get "{\"a\": \"\\u0041\\/\\n\"}" = some [0x41, 0x2F, 0x0A] ∧ get " { \"a\" : \"x\" , \"b\":[ ], \"a\":\"y\" } " = some [0x79] ∧
    get "{\"a\":\"x\",}" = none ∧ get "{\"a\":\"x\"" = none ∧ get "{\"a\":\"x\"}}" = none ∧ get "{\"a\":\"\\x\"}" = none ∧
    get "{\"a\":\"\n\"}" = none ∧ get "{\"a\":\"😀\"}" = some [0xD83D, 0xDE00] := by decide +kernel

/-- An order of iteration in which `t` comes first. -/
def first (t : Bytes) (l : List Bytes) : List Bytes := if t ∈ l then t :: l.erase t else l

theorem first_perm (t : Bytes) (l : List Bytes) : (first t l).Perm l := by
  unfold first
  split
  · exact (List.perm_cons_erase (by assumption)).symm
  · exact List.Perm.refl _

theorem first_head {t : Bytes} {l : List Bytes} (h : t ∈ first t l) : ∃ r, first t l = t :: r := by
  have := (first_perm t l).mem_iff.1 h
  exact ⟨l.erase t, by rw [first, if_pos this]⟩

theorem translit_first {o : Ord} (ho : o.Ok) {lang t : Bytes} (hf : (bundled lang).isSome = true)
    (ht : ∀ x ∈ table, x.1 = lang → t ∈ x.2.2.translit) {ts l : List Bytes} (hl : ts = first t l)
    (hm : ∀ t, t ∈ ts ↔ ∃ lang src o' sp, bundled lang = some src ∧ Ord.Ok o' ∧ parseSpec o' src = .ok sp ∧ t ∈ sp.lang.translit)
    {xs : List Value} (hx : Lists Exact xs ts) : ∃ x, xs.head? = some x ∧ Exact x t := by
  obtain ⟨src, hsrc⟩ := Option.isSome_iff_exists.1 hf
  obtain ⟨la, hmem, hs⟩ := bundled_sound hsrc
  obtain ⟨sp, p1, p2, _⟩ := hs o ho
  have := (hm t).2 ⟨lang, src, o, sp, hsrc, ho, p1, by rw [p2]; exact ht _ hmem rfl⟩
  subst hl
  obtain ⟨r, hr⟩ := first_head this
  rw [hr] at hx
  cases hx with
  | cons h _ => exact ⟨_, rfl, h⟩

/-- C74 fails for the text itself: the order of the translits is that of an iteration over a map, so that two builds of one
version differ. -/
theorem C74_reproducible_refuted {o : Ord} (ho : o.Ok) (short : Bool) (version : Bytes) : ∃ visit visit' : List Bytes → List Bytes,
    (∀ l, (visit l).Perm l) ∧ (∀ l, (visit' l).Perm l) ∧
    Manifest.main bundled o visit short version (listLangs entries) ≠ Manifest.main bundled o visit' short version (listLangs entries) := by
  refine ⟨first (str "furigana"), first (str "pinyin"), first_perm _, first_perm _, fun he => ?_⟩
  obtain ⟨f1, v1, a1, b1, _, _, xs1, ts1, c1, d1, ⟨l1, e1⟩, _, g1⟩ := manifest_text ho (first_perm (str "furigana")) short version
  obtain ⟨f2, v2, a2, b2, _, _, xs2, ts2, c2, d2, ⟨l2, e2⟩, _, g2⟩ := manifest_text ho (first_perm (str "pinyin")) short version
  rw [a1, a2, Go.ok.injEq] at he
  subst he
  rw [b1, Option.some.injEq] at b2
  subst b2
  rw [c1, Go.ok.injEq, Value.array.injEq] at c2
  subst c2
  obtain ⟨x, i1, u, i2, i3⟩ := translit_first ho (lang := str "jpn") (by decide +kernel)
    (by decide +kernel) e1 g1 d1
  obtain ⟨y, j1, w, j2, j3⟩ := translit_first ho (lang := str "chi") (by decide +kernel)
    (by decide +kernel) e2 g2 d2
  rw [i1, Option.some.injEq] at j1
  subst j1 i2
  rw [Value.string.injEq] at j2
  subst j2
  have := (chars_spells i3).symm.trans (chars_spells j3)
  exact absurd this (by decide +kernel)

end Verif.Props
