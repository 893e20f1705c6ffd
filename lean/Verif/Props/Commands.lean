import Verif.Model.Commands
import Verif.Spec.Table
import Verif.Props.Cli
import Verif.Props.Manifest

/-! C75: the commands `ls`, `dev` and the one without a name. -/

namespace Verif.Props

open Verif.Cli Verif.Spec.Table Verif.Specs Verif.Spec.Bundle

/-! ## ls -/

/-- The row of a spec. -/
def cells (sp : Spec) : List (Nat × List Rune) :=
  [(8, runes sp.lang.id), (8, runes sp.config.stage), (24, runes sp.lang.english), (24, runes sp.lang.korean)]

/-- The first row. -/
def heading : List (Nat × List Rune) :=
  [(8, runes (str "LANG")), (8, runes (str "STAGE")), (24, runes (str "ENG")), (24, runes (str "KOR"))]

theorem runes_blanks (n : Nat) : runes (List.replicate n (0x20 : UInt8)) = List.replicate n ' '.toNat := by
  have e : List.replicate n (0x20 : UInt8) = encode (List.replicate n ' '.toNat) := by
    induction n with
    | zero => rfl
    | succ n ih => rw [List.replicate_succ, List.replicate_succ, ih]; rfl
  rw [e]
  exact runes_encode (by intro r hr; rw [(List.mem_replicate.1 hr).2]; decide)

theorem blanks_valid (n : Nat) : ValidUtf8 (List.replicate n (0x20 : UInt8)) :=
  ⟨List.replicate n ' '.toNat, by intro r hr; rw [(List.mem_replicate.1 hr).2]; decide, by
    induction n with
    | zero => rfl
    | succ n ih => rw [List.replicate_succ, List.replicate_succ, ih]; rfl⟩

theorem padTo_cell {s : Bytes} (h : ValidUtf8 s) (width : Nat) : ValidUtf8 (padTo width s) ∧ Cell width (runes s) (runes (padTo width s)) := by
  unfold padTo
  refine ⟨h.append (blanks_valid _), List.replicate (width - (runes s).length) ' '.toNat, ?_, fun b hb => (List.mem_replicate.1 hb).2, ?_⟩
  · rw [runes_append h, runes_blanks]
  · rw [runes_append h, runes_blanks, List.length_append, List.length_replicate]
    omega

theorem template_row {a b c d : Bytes} (ha : ValidUtf8 a) (hb : ValidUtf8 b) (hc : ValidUtf8 c) (hd : ValidUtf8 d) :
    ValidUtf8 (template a b c d) ∧ ∃ line, runes (template a b c d) = line ++ ['\n'.toNat] ∧
      Row [(8, runes a), (8, runes b), (24, runes c), (24, runes d)] line := by
  obtain ⟨a1, a2⟩ := padTo_cell ha 8
  obtain ⟨b1, b2⟩ := padTo_cell hb 8
  obtain ⟨c1, c2⟩ := padTo_cell hc 24
  obtain ⟨d1, d2⟩ := padTo_cell hd 24
  have hs : ValidUtf8 (str " ") := ⟨[' '.toNat], by decide, by decide⟩
  have hn : ValidUtf8 (str "\n") := ⟨['\n'.toNat], by decide, by decide⟩
  have es : runes (str " ") = [' '.toNat] := by decide
  have en : runes (str "\n") = ['\n'.toNat] := by decide
  refine ⟨((((((a1.append hs).append b1).append hs).append c1).append hs).append d1).append hn, _, ?_,
    .cons a2 (.cons b2 (.cons c2 (.last d2)))⟩
  unfold template
  rw [runes_append ((((((a1.append hs).append b1).append hs).append c1).append hs).append d1),
    runes_append (((((a1.append hs).append b1).append hs).append c1).append hs),
    runes_append ((((a1.append hs).append b1).append hs).append c1), runes_append (((a1.append hs).append b1).append hs),
    runes_append ((a1.append hs).append b1), runes_append (a1.append hs), runes_append a1, es, en]
  simp

theorem lines_table : ∀ {sps : List Spec} {lines : List Bytes}, (∀ sp ∈ sps, ∃ o src, parseSpec o src = .ok sp) →
    forEach specLine (sps.map some) = .ok lines → Table (sps.map cells) (runes lines.flatten) := by
  intro sps
  induction sps with
  | nil => intro lines _ h; simp [forEach] at h; subst h; exact .nil
  | cons sp sps ih =>
    intro lines hp h
    simp only [List.map_cons, forEach, specLine, Go.bind_ok, Go.bind_eq_ok, Go.pure_eq, Go.ok.injEq] at h
    obtain ⟨rest, h1, rfl⟩ := h
    obtain ⟨o, src, h2⟩ := hp sp (by simp)
    obtain ⟨t1, _, _, t2, _⟩ := parseSpec_text h2
    obtain ⟨r1, line, r2, r3⟩ := template_row (t1 sp.lang.id (by simp)) t2 (t1 sp.lang.english (by simp)) (t1 sp.lang.korean (by simp))
    rw [List.flatten_cons, runes_append r1, r2, List.append_assoc]
    exact .cons r3 (ih (fun s hs => hp s (by simp [hs])) h1)

theorem ls_table {sps : List Spec} (hp : ∀ sp ∈ sps, ∃ o src, parseSpec o src = .ok sp) {files disk : Files} {o : Ord} {langs args : List Bytes}
    (h : listSpecs files disk o langs args = .ok (sps.map some)) :
    ∃ out, ls files disk o langs args = .ok out ∧ Table (heading :: sps.map cells) (runes out) := by
  obtain ⟨lines, h1⟩ := forEach_exists (f := specLine) (as := sps.map some) (by
    intro x hx
    obtain ⟨sp, _, rfl⟩ := List.mem_map.1 hx
    exact ⟨_, rfl⟩)
  refine ⟨template (str "LANG") (str "STAGE") (str "ENG") (str "KOR") ++ lines.flatten,
    by simp only [ls, h, h1, Go.bind_ok, Go.pure_eq], ?_⟩
  have hv : ∀ s ∈ ["LANG", "STAGE", "ENG", "KOR"], ValidUtf8 (str s) := by
    intro s hs
    exact ⟨runes (str s), by revert s; decide +kernel, by revert s; decide +kernel⟩
  obtain ⟨r1, line, r2, r3⟩ := template_row (hv "LANG" (by simp)) (hv "STAGE" (by simp)) (hv "ENG" (by simp)) (hv "KOR" (by simp))
  rw [runes_append r1, r2, List.append_assoc]
  exact .cons r3 (lines_table hp h1)

theorem load_listed {o : Ord} (ho : o.Ok) {lang : Bytes} (hl : (bundled lang).isSome = true) {cache : Cache} (hc : CacheOk bundled cache) :
    ∃ sp cache', loadSpec bundled o lang cache = .ok (.inl sp, cache') ∧ CacheOk bundled cache' ∧ Loaded bundled sp ∧ sp.lang.id = lang := by
  obtain ⟨r, cache', h1, h2, h3⟩ := load_runs ho lang hc
  have key : ∃ sp src o', r = .inl sp ∧ bundled lang = some src ∧ Ord.Ok o' ∧ parseSpec o' src = .ok sp := by
    rcases loadSpec_cases h1 with ⟨sp, g1, g2, _⟩ | ⟨_, g2, _, _⟩ | ⟨src, sp, _, g3, g4, g5, _⟩
    · obtain ⟨src, o', k1, k2, k3⟩ := hc lang sp g1
      exact ⟨sp, src, o', g2, k1, k2, k3⟩
    · rw [g2] at hl; cases hl
    · exact ⟨sp, src, o, g5, g3, ho, g4⟩
  obtain ⟨sp, src, o', rfl, k1, k2, k3⟩ := key
  refine ⟨sp, cache', h1, h2, h3 sp rfl, ?_⟩
  obtain ⟨la, hm, hs⟩ := bundled_sound k1
  obtain ⟨sp', p1, p2, _⟩ := hs o' k2
  rw [k3, Go.ok.injEq] at p1
  rw [p1, p2]
  exact table_ids _ hm

theorem bundledSpecs_ok {o : Ord} (ho : o.Ok) : ∀ {langs : List Bytes} {cache : Cache}, (∀ lang ∈ langs, (bundled lang).isSome = true) →
    CacheOk bundled cache → ∃ sps : List Spec, bundledSpecs bundled o langs cache = .ok (sps.map some) ∧
      sps.map (·.lang.id) = langs ∧ ∀ sp ∈ sps, Loaded bundled sp := by
  intro langs
  induction langs with
  | nil => intro cache _ _; exact ⟨[], rfl, rfl, by simp⟩
  | cons lang langs ih =>
    intro cache hl hc
    obtain ⟨sp, cache', h1, h2, h3, h4⟩ := load_listed ho (hl lang (by simp)) hc
    obtain ⟨sps, g1, g2, g3⟩ := ih (fun l hl' => hl l (by simp [hl'])) h2
    refine ⟨sp :: sps, by simp only [bundledSpecs, h1, g1, Go.bind_ok, Go.pure_eq, List.map_cons], by simp [h4, g2], ?_⟩
    intro s hs
    rcases List.mem_cons.1 hs with rfl | hs
    · exact h3
    · exact g3 s hs

/-- C75: without arguments `ls` prints a table of all bundled specs, in the order of their names. -/
theorem C75_ls {o : Ord} (ho : o.Ok) (disk : Files) : ∃ (out : Bytes) (sps : List Spec), ls bundled disk o (listLangs entries) [] = .ok out ∧
    Table (heading :: sps.map cells) (runes out) ∧ sps.map (·.lang.id) = listLangs entries ∧
    ∀ sp ∈ sps, ∃ src o', bundled sp.lang.id = some src ∧ Ord.Ok o' ∧ parseSpec o' src = .ok sp := by
  obtain ⟨sps, h1, h2, h3⟩ := bundledSpecs_ok ho (langs := listLangs entries) (cache := []) (fun lang hl => (C65_listed lang).1 hl)
    (by intro l sp hl; simp at hl)
  have hp : ∀ sp ∈ sps, ∃ src o', bundled sp.lang.id = some src ∧ Ord.Ok o' ∧ parseSpec o' src = .ok sp := by
    intro sp hs
    obtain ⟨lang, src, o', k1, k2, k3⟩ := h3 sp hs
    obtain ⟨la, hm, hs⟩ := bundled_sound k1
    obtain ⟨sp', p1, p2, _⟩ := hs o' k2
    rw [k3, Go.ok.injEq] at p1
    subst p1
    have hid := table_ids _ hm
    exact ⟨src, o', by rw [p2, hid]; exact k1, k2, k3⟩
  obtain ⟨out, g1, g2⟩ := ls_table (files := bundled) (disk := disk) (o := o) (langs := listLangs entries) (args := [])
    (fun sp hs => by obtain ⟨src, o', _, _, h⟩ := hp sp hs; exact ⟨o', src, h⟩)
    (by simp only [listSpecs, List.length_nil, if_true]; exact h1)
  exact ⟨out, sps, g1, g2, h2, hp⟩

/-- The spec of a file, if there is one. -/
def specOf (disk : Files) (o : Ord) (name : Bytes) : Option Spec :=
  (disk name).bind fun src => match parseSpec o src with | .ok sp => some sp | _ => none

theorem givenSpecs_ok (disk : Files) (o : Ord) : ∀ {names : List Bytes},
    (∀ name ∈ names, ∀ src, disk name = some src → parseSpec o src ≠ .panic ∧ parseSpec o src ≠ .hang) →
    givenSpecs disk o names = .ok ((names.filterMap (specOf disk o)).map some) := by
  intro names
  induction names with
  | nil => intro _; rfl
  | cons name names ih =>
    intro h
    have ih := ih fun n hn => h n (by simp [hn])
    unfold givenSpecs
    cases hd : disk name with
    | none => simp only [List.filterMap_cons, specOf, hd, Option.bind_none]; exact ih
    | some src =>
      have := h name (by simp) src hd
      cases hp : parseSpec o src with
      | ok sp => simp [specOf, hd, hp, ih]
      | err e => simp only [List.filterMap_cons, specOf, hd, hp, Option.bind_some]; exact ih
      | panic => exact absurd hp this.1
      | hang => exact absurd hp this.2

/-- C75: with arguments `ls` prints a table of the files which are specs, in the order of the arguments. -/
theorem C75_ls_files {files disk : Files} {o : Ord} {langs args : List Bytes} (ha : args ≠ [])
    (h : ∀ name ∈ args, ∀ src, disk name = some src → parseSpec o src ≠ .panic ∧ parseSpec o src ≠ .hang) :
    ∃ out, ls files disk o langs args = .ok out ∧ Table (heading :: (args.filterMap (specOf disk o)).map cells) (runes out) := by
  refine ls_table (fun sp hs => ?_) ?_
  · obtain ⟨name, _, h2⟩ := List.mem_filterMap.1 hs
    unfold specOf at h2
    cases hd : disk name with
    | none => simp [hd] at h2
    | some src =>
      simp only [hd, Option.bind_some] at h2
      cases hp : parseSpec o src with
      | ok sp' => simp only [hp, Option.some.injEq] at h2; exact ⟨o, src, by rw [hp, h2]⟩
      | _ => simp [hp] at h2
  · have : ¬ args.length = 0 := by simpa using ha
    rw [listSpecs, if_neg this]
    exact givenSpecs_ok disk o h

/-- Three files, one of which does not exist and one of which is no spec. -/
def threeFiles : Files := fun name =>
  if name = str "a" then some (str "lang:\nid = \"aa\"\ncodes = \"a\", \"aa\"\nenglish = \"Aaa\"\nkorean = \"아아\"\nscript = \"Latn\"\nconfig:\nstage = \"draft\"\n")
  else if name = str "b" then some (str "lang:\nscript = \"roman\"\n") else none

example : (∀ name ∈ [str "b", str "a", str "c"], ∀ src ∈ threeFiles name, ((parseSpec .written src).bind fun _ => Go.ok ()) ≠ .panic) ∧
    ls bundled threeFiles .written [] [str "b", str "a", str "c"] =
    .ok (str ("LANG     STAGE    ENG                      KOR                     \n" ++
      "aa       draft    Aaa                      아아                      \n")) := by decide +kernel

/-! ## The command without a name -/

theorem env_ok {sp : Spec} {o : Ord} {src : Bytes} (hp : parseSpec o src = .ok sp) (translits : Registry) (s : Setting) {w out : Bytes}
    {tr : Tracer} (h : (forward sp translits w tr).1 = .ok out) :
    (Env.ofSpec sp translits s.verbose s.width s.errText).hangulize w = .ok (out, none) := by
  have := (C59_reference hp translits w out tr).1 h
  simp [Env.ofSpec, (C59_reference hp translits w out _).2 this, wordErr]

/-- C75: for a listed language the command prints the result of each word which is not empty, and ends with status 0, whatever
its goroutines do when. -/
theorem C75_hangulize {o : Ord} (ho : o.Ok) {l : Libraries} (hl : Reliable l) (s : Setting) {lang : Bytes} (hlang : lang ∈ listLangs entries)
    {words : List Bytes} (hw : words ≠ []) (stdin : Bytes) :
    ∃ e p sp g, root bundled o (standardRegistry l) s (lang :: words) stdin = .ok (.inr (e, p)) ∧ Loaded bundled sp ∧ sp.lang.id = lang ∧
      (∀ w, (forward sp (standardRegistry l) w none).1 = .ok (g w)) ∧
      (¬ ∃ f : Nat → Proc, f 0 = p ∧ ∀ n, e.Step (f n) (f (n + 1))) ∧
      ∀ q, e.Steps p q → (∀ r, ¬ e.Step q r) → q.out = (words.filter (· ≠ [])).map g ∧ q.main = .exited 0 := by
  obtain ⟨sp, cache, h1, _, h3, h4⟩ := load_listed ho ((C65_listed lang).1 hlang) (cache := []) (by intro l sp hl; simp at hl)
  have hg : ∀ w, ∃ out, (forward sp (standardRegistry l) w none).1 = .ok out := fun w =>
    loaded_succeeds h3 hl (fun t ht => standard_lookup ht) w none
  have hg' : ∃ g : Bytes → Bytes, ∀ w, (forward sp (standardRegistry l) w none).1 = .ok (g w) :=
    ⟨fun w => (hg w).choose, fun w => (hg w).choose_spec⟩
  obtain ⟨g, hg'⟩ := hg'
  obtain ⟨_, src, o', _, _, hp⟩ := h3
  refine ⟨.ofSpec sp (standardRegistry l) s.verbose s.width s.errText, start (lang :: words) stdin, sp, g,
    by simp only [root, List.headD_cons, h1, Go.bind_ok, Go.pure_eq], ⟨_, src, o', by assumption, by assumption, hp⟩, h4, hg',
    fun ⟨f, _, hf⟩ => C54_terminates _ f hf, fun q hq hn => ?_⟩
  exact C54_args _ lang words stdin g hw (fun w _ _ => env_ok hp _ s (hg' w)) hq hn

/-- C75: another language is refused. -/
theorem C75_unsupported {o : Ord} (translits : Registry) (s : Setting) {lang : Bytes} (hlang : lang ∉ listLangs entries)
    (words : List Bytes) (stdin : Bytes) :
    root bundled o translits s (lang :: words) stdin = .ok (.inl (str "Lang not supported: " ++ lang ++ str "\n")) := by
  have : bundled lang = none := by
    cases h : bundled lang with
    | none => rfl
    | some src => exact absurd ((C65_listed lang).2 (by rw [h]; rfl)) hlang
  simp [root, loadSpec, this]

/-! ## dev -/

theorem forward_plain {sp : Spec} (h : sp.lang.translit = []) (t t' : Registry) (w : Bytes) (tr : Tracer) :
    forward sp t w tr = forward sp t' w tr := by
  simp only [forward, h, transliterateLoop]

/-- C75: with the source of a bundled spec without translits, `dev` does what the command does for its language. -/
theorem C75_dev_partial {o : Ord} (translits : Registry) (s : Setting) (noFile : Bytes) {disk : Files} {name lang src : Bytes}
    (hb : bundled lang = some src) (hd : disk name = some src) {sp : Spec} (hp : parseSpec o src = .ok sp) (ht : sp.lang.translit = [])
    (stdin : Bytes) : dev disk o s noFile name stdin = root bundled o translits s [lang] stdin := by
  have he : Env.ofSpec sp [] s.verbose s.width s.errText = Env.ofSpec sp translits s.verbose s.width s.errText := by
    simp only [Env.ofSpec, forward_plain ht [] translits]
  simp only [dev, hd, hp, root, List.headD_cons, loadSpec, List.lookup_nil, hb, Go.bind_ok, Go.pure_eq, he]
  rfl

/-- C75 fails for the specs with translits: `dev` ends with status 1 at the first word, and the command prints its result. -/
theorem C75_dev_refuted {o : Ord} (ho : o.Ok) {l : Libraries} (hl : Reliable l) (s : Setting) (noFile : Bytes) {disk : Files} {name lang src : Bytes}
    (hb : bundled lang = some src) (hd : disk name = some src) {sp : Spec} (hp : parseSpec o src = .ok sp) (ht : sp.lang.translit ≠ []) :
    ∃ e e' p p' out, dev disk o s noFile name (str "a\n") = .ok (.inr (e, p)) ∧
      root bundled o (standardRegistry l) s [lang] (str "a\n") = .ok (.inr (e', p')) ∧
      (∀ q, e.Steps p q → (∀ r, ¬ e.Step q r) → q.out = [] ∧ q.main = .exited 1) ∧
      ∀ q, e'.Steps p' q → (∀ r, ¬ e'.Step q r) → q.out = [out] ∧ q.main = .exited 0 := by
  obtain ⟨out, hout⟩ := loaded_succeeds ⟨lang, src, o, hb, ho, hp⟩ hl (fun t ht => standard_lookup ht) (str "a") none
  have hw : readWords [name] (str "a\n") = [str "a", []] ∧ readWords [lang] (str "a\n") = [str "a", []] := by
    constructor <;> (simp only [readWords, List.length_singleton, if_true]; decide +kernel)
  refine ⟨.ofSpec sp [] s.verbose s.width s.errText, .ofSpec sp (standardRegistry l) s.verbose s.width s.errText,
    start [name] (str "a\n"), start [lang] (str "a\n"), out, by simp only [dev, hd, hp],
    by simp only [root, List.headD_cons, loadSpec, List.lookup_nil, hb, hp, Go.bind_ok, Go.pure_eq], ?_, ?_⟩
  · intro q hq hn
    refine final_of_outcome ?_ hq hn
    rw [hw.1]
    refine .fail [[]] (r := []) (e := .translitNotImported) (by decide) ?_
    have : ∀ tr, (forward sp [] (str "a") tr).1 = .err .translitNotImported := by
      intro tr
      cases hx : sp.lang.translit with
      | nil => exact absurd hx ht
      | cons t ts => simp [forward, hx, transliterateLoop]
    simp only [Env.ofSpec, this, wordErr]
  · intro q hq hn
    refine final_of_outcome ?_ hq hn
    rw [hw.2]
    exact .word (by decide) (env_ok hp _ s hout) (.done [])

theorem written_ok : Ord.written.Ok := ⟨fun _ _ _ _ => List.Perm.refl _, fun _ => List.Perm.refl _⟩

/-- Of the bundled specs the Japanese one has translits, and the Italian one has none. -/
example : (∃ src sp, bundled (str "jpn") = some src ∧ parseSpec .written src = .ok sp ∧ sp.lang.translit ≠ []) ∧
    ∃ src sp, bundled (str "ita") = some src ∧ parseSpec .written src = .ok sp ∧ sp.lang.translit = [] := by
  have key : ∀ lang, (bundled lang).isSome = true → ∃ src sp x, bundled lang = some src ∧ parseSpec .written src = .ok sp ∧
      x ∈ table ∧ x.1 = lang ∧ sp.lang = x.2.2 := by
    intro lang h
    obtain ⟨src, hs⟩ := Option.isSome_iff_exists.1 h
    obtain ⟨la, hm, hsd⟩ := bundled_sound hs
    obtain ⟨sp, p1, p2, _⟩ := hsd .written written_ok
    exact ⟨src, sp, _, hs, p1, hm, rfl, p2⟩
  have ht : ∀ x ∈ table, (x.1 = str "jpn" → x.2.2.translit ≠ []) ∧ (x.1 = str "ita" → x.2.2.translit = []) := by decide +kernel
  obtain ⟨src, sp, x, h1, h2, h3, h4, h5⟩ := key (str "jpn") (by decide +kernel)
  obtain ⟨src', sp', x', h1', h2', h3', h4', h5'⟩ := key (str "ita") (by decide +kernel)
  exact ⟨⟨src, sp, h1, h2, by rw [h5]; exact (ht x h3).1 h4⟩, ⟨src', sp', h1', h2', by rw [h5']; exact (ht x' h3').2 h4'⟩⟩

example : Reliable plain ∧ str "jpn" ∈ listLangs entries ∧ str "xyz" ∉ listLangs entries := by
  refine ⟨plain_reliable, ?_, ?_⟩
  · rw [C65_listed]; decide +kernel
  · rw [C65_listed]; decide +kernel

end Verif.Props
