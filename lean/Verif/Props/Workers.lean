import Verif.Proofs.Workers
import Verif.Props.Bundle
import Verif.Props.Wasm

/-! # Property C91: the workers of the page -/

namespace Verif.Props

open Verif.Workers Verif.Spec.Workers Verif.Spec.Bundle Verif.Specs Verif.Wasm

/-- What holds after some events since the workers were started. -/
theorem started {methods : List Bytes} (hm : ∀ m ∈ methods, normalizeMethod m ∈ urls) {es : List Workers.Event} {s : Workers.Workers}
    (h : (spawn methods).steps es = some s) : Workers.Inv methods es s := by
  simpa using (Inv.spawn hm).steps h

/-- C91: whenever its module is loaded, the worker for hangulize handles the calls in the order in which they were made, those for the
translits first; none before it is loaded, and none is left waiting afterwards. -/
theorem C91_order {methods : List Bytes} (hm : ∀ m ∈ methods, normalizeMethod m ∈ urls) {es : List Workers.Event} {s : Workers.Workers}
    (h : (spawn methods).steps es = some s) :
    s.main.ran ++ s.main.waiting ++ s.main.inbox = methods.map .useTranslit ++ requests es ∧
    (s.main.loaded = true → s.main.waiting = []) ∧ (s.main.loaded = false → s.main.ran = []) :=
  have i := started hm h
  ⟨i.main.order, i.main.loaded, i.main.idle⟩

/-- C91: no word is hangulized, and nothing is told about the languages, before all translits are registered. -/
theorem C91_registered {methods : List Bytes} (hm : ∀ m ∈ methods, normalizeMethod m ∈ urls) {es : List Workers.Event}
    {s : Workers.Workers} (h : (spawn methods).steps es = some s) {pre post : List Workers.Call} {c : Workers.Call}
    (hr : s.main.ran = pre ++ c :: post) (hc : ∀ m, c ≠ .useTranslit m) : methods.map .useTranslit <+: pre := by
  have o := (C91_order hm h).1
  rw [hr, List.append_assoc, List.append_assoc] at o
  rcases List.append_eq_append_iff.1 o with ⟨a, h1, h2⟩ | ⟨b, h1, _⟩
  · cases a with
    | nil => exact ⟨[], by simpa using h1⟩
    | cons d a =>
      simp only [List.cons_append, List.cons.injEq] at h2
      have : d ∈ methods.map Workers.Call.useTranslit := by rw [h1]; simp
      obtain ⟨m, _, e⟩ := List.mem_map.1 this
      exact absurd (h2.1.trans e.symm) (hc m)
  · exact ⟨b, h1.symm⟩

/-- C91: while a call is left, its worker can go on; afterwards all calls have been handled. -/
theorem C91_progress {methods : List Bytes} (hm : ∀ m ∈ methods, normalizeMethod m ∈ urls) {es : List Workers.Event}
    {s : Workers.Workers} (h : (spawn methods).steps es = some s) :
    (s.step .deliver).isSome = true ∨ (s.step .load).isSome = true ∨ s.main.ran = methods.map .useTranslit ++ requests es := by
  obtain ⟨o, l, i⟩ := C91_order hm h
  cases hi : s.main.inbox with
  | cons c rest => exact .inl (by simp [Workers.Workers.step, Main.deliver, hi])
  | nil =>
    cases hl : s.main.loaded with
    | false => exact .inr (.inl (by simp [Workers.Workers.step, Main.load, hl]))
    | true =>
      rw [hi, l hl] at o
      exact .inr (.inr (by simpa using o))

/-- C91: there is one worker for each module, it loads the module of its name, and transliterates in the order of the calls the words
which are for this module; no call throws an Error. -/
theorem C91_translits {methods : List Bytes} (hm : ∀ m ∈ methods, normalizeMethod m ∈ urls) {es : List Workers.Event}
    {s : Workers.Workers} (h : (spawn methods).steps es = some s) :
    (s.sides.map Prod.fst).Nodup ∧ (∀ name, name ∈ s.sides.map Prod.fst ↔ ∃ m ∈ methods, normalizeMethod m = name) ∧
    ∀ x ∈ s.sides, x.2.thrown = 0 ∧ x.2.ran ++ x.2.waiting ++ words x.2.inbox = asks x.1 es ∧
      (x.2.ran ≠ [] → x.2.module_ = some x.1 ∧ x.2.loaded = true ∧ x.2.waiting = []) := by
  have i := started hm h
  refine ⟨i.keys, fun name => ⟨fun hn => ?_, fun ⟨m, h1, h2⟩ => h2 ▸ i.all m h1⟩, fun x hx => ?_⟩
  · exact i.only name hn
  · have j := i.sides x hx
    refine ⟨j.thrown, j.order, fun hr => ?_⟩
    rcases j.stage with ⟨_, _, h3, _⟩ | ⟨h1, _, h3, h4⟩
    · exact absurd h3 hr
    · cases hl : x.2.loaded with
      | true => exact ⟨h1, rfl, h3 hl⟩
      | false => exact absurd (h4 hl) hr

/-- C91: while a word is left, the worker for its module can go on. -/
theorem C91_side_progress {methods : List Bytes} (hm : ∀ m ∈ methods, normalizeMethod m ∈ urls) {es : List Workers.Event}
    {s : Workers.Workers} (h : (spawn methods).steps es = some s) {x : Bytes × Workers.Side} (hx : x ∈ s.sides) :
    (s.step (.deliverSide x.1)).isSome = true ∨ (s.step (.loadSide x.1)).isSome = true ∨ x.2.ran = asks x.1 es := by
  have i := started hm h
  have j := i.sides x hx
  cases hi : x.2.inbox with
  | cons c rest =>
    refine .inl ?_
    simp only [Workers.Workers.step, Option.isSome_map]
    refine update_isSome i.keys hx ?_
    cases c <;> simp [Workers.Side.deliver, hi]
  | nil =>
    rcases j.stage with ⟨_, _, _, _, _, _, h1, _⟩ | ⟨h1, _, h3, _⟩
    · simp [hi] at h1
    · cases hl : x.2.loaded with
      | false =>
        refine .inr (.inl ?_)
        simp only [Workers.Workers.step, Option.isSome_map]
        exact update_isSome i.keys hx (by simp [Workers.Side.load, hl, h1])
      | true =>
        have := j.order
        rw [hi, h3 hl] at this
        exact .inr (.inr (by simpa [words] using this))

/-- C91: every translit which is registered can be called. -/
theorem C91_asked {methods : List Bytes} (hm : ∀ m ∈ methods, normalizeMethod m ∈ urls) {es : List Workers.Event}
    {s : Workers.Workers} (h : (spawn methods).steps es = some s) {m : Bytes} (hr : Workers.Call.useTranslit m ∈ s.main.ran)
    (word : Bytes) : (s.step (.ask m word)).isSome = true := by
  have i := started hm h
  have hmem : m ∈ methods ∨ Workers.Call.useTranslit m ∈ requests es := by
    have : Workers.Call.useTranslit m ∈ methods.map .useTranslit ++ requests es := by
      rw [← i.main.order]
      simp [hr]
    rcases List.mem_append.1 this with h | h
    · exact .inl (by simpa using h)
    · exact .inr h
  rcases hmem with hmem | hmem
  · simp only [Workers.Workers.step, if_pos hr, Option.isSome_map]
    exact update_some (fun _ => rfl) (i.all m hmem)
  · exact absurd hmem (requests_plain h m)

theorem table_modules : ∀ m ∈ ["furigana", "pinyin", "cyrillic[bg]", "cyrillic[mk]", "cyrillic[ru]", "cyrillic[ua]"].map str,
    normalizeMethod m ∈ urls := by
  decide +kernel

/-- C91: there is a module for every translit of a bundled language; those are the ones which the manifest lists (C74). -/
theorem C91_bundled {sp : Spec} (hs : Loaded bundled sp) {m : Bytes} (h : m ∈ sp.lang.translit) : normalizeMethod m ∈ urls := by
  obtain ⟨lang, src', o', g1, g2, g3⟩ := hs
  obtain ⟨la, hm, hsd⟩ := bundled_sound g1
  obtain ⟨sp', hp', e1, _⟩ := hsd o' g2
  rw [g3, Go.ok.injEq] at hp'
  subst hp'
  exact table_modules m (table_translits _ hm m (e1 ▸ h))

theorem scheme_texts : ∀ m ∈ ["furigana", "pinyin", "cyrillic[bg]", "cyrillic[mk]", "cyrillic[ru]", "cyrillic[ua]"].map str,
    (Js.ofText m).text = m := by
  decide +kernel

/-- Each standard translit is the one of a bundled language. -/
theorem table_uses : ∀ m ∈ ["furigana", "pinyin", "cyrillic[bg]", "cyrillic[mk]", "cyrillic[ru]", "cyrillic[ua]"].map str,
    ∃ lang ∈ table.map Prod.fst, ∀ x ∈ table, x.1 = lang → m ∈ x.2.2.translit := by
  decide +kernel

theorem performs_lookup {answers : Spec.Wasm.Answers} {fn : Bytes → Nat} {m : Bytes} : ∀ {cs : List Workers.Call} {es : List Wasm.Event},
    Performs fn cs es → (∀ m, Workers.Call.useTranslit m ∈ cs → (Js.ofText m).text = m) → Workers.Call.useTranslit m ∈ cs →
    (Spec.Wasm.registered answers es).lookup m = some (Spec.Wasm.translitOf answers m (fn m)) := by
  intro cs es h
  induction h with
  | nil => simp
  | @useTranslit cs es method h ih =>
    intro ht hm
    simp only [Spec.Wasm.registered, ht method (by simp), List.lookup_cons]
    by_cases e : m = method
    · subst e; simp
    · rw [beq_eq_false_iff_ne.2 e]
      refine ih (fun m hm => ht m (by simp [hm])) ?_
      rcases List.mem_cons.1 hm with hm | hm
      · exact absurd (by simpa using hm) e
      · exact hm
  | hangulize lang word o visit args h ih =>
    intro ht hm
    simp only [Spec.Wasm.registered]
    exact ih (fun m hm => ht m (by simp [hm])) (by simpa using hm)
  | getVersion h ih => exact fun ht hm => ih (fun m hm => ht m (by simp [hm])) (by simpa using hm)
  | getSpecs h ih => exact fun ht hm => ih (fun m hm => ht m (by simp [hm])) (by simpa using hm)
  | settle ask r h ih =>
    intro ht hm
    simp only [Spec.Wasm.registered]
    exact ih ht hm

/-- C91: a page which starts with the translits of its manifest has all standard translits at hand whenever a word is hangulized, as
C72 and C79 ask for. -/
theorem C91_at_hand {methods : List Bytes}
    (ht : ∀ m, m ∈ methods ↔ ∃ lang src o sp, bundled lang = some src ∧ Ord.Ok o ∧ parseSpec o src = .ok sp ∧ m ∈ sp.lang.translit)
    {es : List Workers.Event} {s : Workers.Workers} (h : (spawn methods).steps es = some s) {pre post : List Workers.Call}
    {lang word : Bytes} (hr : s.main.ran = pre ++ .hangulize lang word :: post) {fn : Bytes → Nat} {evs : List Wasm.Event}
    (hp : Performs fn pre evs) {l : Libraries} {answers : Spec.Wasm.Answers}
    (ha : ∀ m ∈ methods, ∀ word v, workerTranslit l m word = .ok v → answers (fn m) word = .inl v) :
    Spec.Wasm.Workers l answers (Spec.Wasm.registered answers evs) := by
  have hmods : ∀ m ∈ methods, normalizeMethod m ∈ urls := by
    intro m hm
    obtain ⟨lang, src, o, sp, h1, h2, h3, h4⟩ := (ht m).1 hm
    exact C91_bundled ⟨lang, src, o, h1, h2, h3⟩ h4
  have hschemes : ∀ m ∈ methods, m ∈ ["furigana", "pinyin", "cyrillic[bg]", "cyrillic[mk]", "cyrillic[ru]", "cyrillic[ua]"].map str := by
    intro m hm
    obtain ⟨lang, src, o, sp, h1, h2, h3, h4⟩ := (ht m).1 hm
    obtain ⟨la, hmem, hsd⟩ := bundled_sound h1
    obtain ⟨sp', hp', e1, _⟩ := hsd o h2
    rw [h3, Go.ok.injEq] at hp'
    subst hp'
    exact table_translits _ hmem m (e1 ▸ h4)
  have hpre := C91_registered hmods h hr (by simp)
  have hall : ∀ m, Workers.Call.useTranslit m ∈ pre → m ∈ methods := by
    intro m hm
    have o := (C91_order hmods h).1
    have : Workers.Call.useTranslit m ∈ methods.map .useTranslit ++ requests es := by
      rw [← o, hr]
      simp [hm]
    rcases List.mem_append.1 this with h1 | h1
    · simpa using h1
    · exact absurd h1 (requests_plain h m)
  intro t hmem
  have hs : t.scheme ∈ ["furigana", "pinyin", "cyrillic[bg]", "cyrillic[mk]", "cyrillic[ru]", "cyrillic[ua]"].map str := by
    rw [← schemes_eq l]
    exact List.mem_map_of_mem hmem
  obtain ⟨lang, hx, hm⟩ := table_uses _ hs
  have hin : t.scheme ∈ methods := by
    obtain ⟨src, hb⟩ := Option.isSome_iff_exists.1 ((bundled_isSome lang).2 hx)
    obtain ⟨la, hmem', hsd⟩ := bundled_sound hb
    have ho : Ord.written.Ok := ⟨fun _ _ _ _ => .refl _, fun _ => .refl _⟩
    obtain ⟨sp, hp', e1, _⟩ := hsd Ord.written ho
    exact (ht _).2 ⟨lang, src, Ord.written, sp, hb, ho, hp', e1 ▸ hm _ hmem' rfl⟩
  refine ⟨fn t.scheme, performs_lookup hp (fun m hm => scheme_texts m (hschemes m (hall m hm))) ?_, ha _ hin⟩
  exact hpre.subset (List.mem_map_of_mem hin)

/-- The page with the translits of the bundled languages, and a word which is typed before anything is loaded. -/
example {l : Libraries} {answers : Spec.Wasm.Answers} (word : Bytes) {fn : Bytes → Nat}
    (ha : ∀ m word v, workerTranslit l m word = .ok v → answers (fn m) word = .inl v) :
    ∃ es s, (spawn (["furigana", "pinyin", "cyrillic[bg]", "cyrillic[mk]", "cyrillic[ru]", "cyrillic[ua]"].map str)).steps es = some s ∧
      s.main.ran.getLast? = some (.hangulize (str "rus") word) ∧
      Spec.Wasm.Workers l answers (Spec.Wasm.registered answers
        ((["furigana", "pinyin", "cyrillic[bg]", "cyrillic[mk]", "cyrillic[ru]", "cyrillic[ua]"].map str).map
          fun m => .useTranslit [Js.ofText m, .func (fn m)])) := by
  obtain ⟨s, hs, hr⟩ : ∃ s, (spawn (["furigana", "pinyin", "cyrillic[bg]", "cyrillic[mk]", "cyrillic[ru]", "cyrillic[ua]"].map str)).steps
      (.call (.hangulize (str "rus") word) :: (List.replicate 7 .deliver ++ [.load])) = some s ∧ s.main.ran =
        (["furigana", "pinyin", "cyrillic[bg]", "cyrillic[mk]", "cyrillic[ru]", "cyrillic[ua]"].map str).map .useTranslit ++
          [.hangulize (str "rus") word] := ⟨_, rfl, rfl⟩
  refine ⟨_, s, hs, by rw [hr]; simp, C91_at_hand (fun m => ⟨fun hm => ?_, ?_⟩) hs hr ?_ (fun m _ => ha m)⟩
  · obtain ⟨lang, hx, hm⟩ := table_uses m hm
    obtain ⟨src, hb⟩ := Option.isSome_iff_exists.1 ((bundled_isSome lang).2 hx)
    obtain ⟨la, hmem', hsd⟩ := bundled_sound hb
    have ho : Ord.written.Ok := ⟨fun _ _ _ _ => .refl _, fun _ => .refl _⟩
    obtain ⟨sp, hp', e1, _⟩ := hsd Ord.written ho
    exact ⟨lang, src, Ord.written, sp, hb, ho, hp', e1 ▸ hm _ hmem' rfl⟩
  · rintro ⟨lang, src, o, sp, h1, h2, h3, h4⟩
    obtain ⟨la, hmem, hsd⟩ := bundled_sound h1
    obtain ⟨sp', hp', e1, _⟩ := hsd o h2
    rw [h3, Go.ok.injEq] at hp'
    subst hp'
    exact table_translits _ hmem m (e1 ▸ h4)
  · exact .useTranslit _ (.useTranslit _ (.useTranslit _ (.useTranslit _ (.useTranslit _ (.useTranslit _ .nil)))))

/-- The calls before and after the modules are loaded. -/
example : ∃ s, (spawn [str "pinyin", str "cyrillic[ru]", str "cyrillic[bg]"]).steps
      [.call .getVersion, .deliver, .call (.hangulize (str "rus") (str "a")), .deliver, .deliver, .deliver, .load, .deliver,
        .ask (str "cyrillic[bg]") (str "b"), .ask (str "cyrillic[ru]") (str "a"), .deliverSide (str "cyrillic"),
        .deliverSide (str "cyrillic"), .loadSide (str "cyrillic"), .deliverSide (str "cyrillic")] = some s ∧
    s.main.ran = [.useTranslit (str "pinyin"), .useTranslit (str "cyrillic[ru]"), .useTranslit (str "cyrillic[bg]"), .getVersion,
      .hangulize (str "rus") (str "a")] ∧
    s.sides.map Prod.fst = [str "pinyin", str "cyrillic"] ∧
    (s.sides.map fun x => x.2.ran) = [[], [(str "cyrillic[bg]", str "b"), (str "cyrillic[ru]", str "a")]] := by
  refine ⟨_, rfl, ?_⟩
  decide +kernel

/-- A method without a module would throw an Error, and every call for it. -/
example : ∃ s, (spawn [str "hanja"]).steps [.load, .deliver, .ask (str "hanja") (str "a"), .deliverSide (str "hanja"),
    .deliverSide (str "hanja")] = some s ∧ (s.sides.map fun x => x.2.thrown) = [2] := by
  refine ⟨_, rfl, ?_⟩
  decide +kernel

end Verif.Props
