import Verif.Proofs.Api
import Verif.Props.Procedure

/-! Properties C38 and C41–C45: errors, registries, the spec cache, goroutines and instances. -/

namespace Verif.Props

open Verif.Spec.Api

/-- A bundle with one language, for examples. -/
def bundle : Files := fun lang => if lang = str "xx" then some greeting else none

/-- A translit for examples: it appends a letter. -/
def appends (scheme : String) (letter : String) : Translit := ⟨str scheme, fun w => .ok (w ++ str letter)⟩

/-- A translit which always fails. -/
def fails (scheme : String) : Translit := ⟨str scheme, fun _ => .err .unmodelled⟩

/-- A spec with translits, for examples. -/
def translated : Bytes :=
  str ("lang:\n\tcodes = \"xx\", \"xxx\"\n\tscript = \"Latn\"\n\ttranslit = \"one\", \"two\"\n" ++
    "transcribe:\n\t\"a\" -> \"ㅏ\"\n\t\"o\" -> \"ㅗ\"\n\t\"i\" -> \"ㅣ\"\n")

/-! ## C38 -/

/-- C38: an unknown language is reported with the word itself, whatever was called before. -/
theorem C38_unknown_language {files : Files} {cs : List Call} {rs : List Res} {w : World} (ho : ∀ c ∈ cs, OrdOk c)
    (h : calls files World.init cs = .ok (w, rs)) {lang : Bytes} (hf : files lang = none) (o : Ord) (word : Bytes) :
    call files w (.hangulize o lang word) = .ok (w, .word (word, some .specNotFound)) ∧
    call files w (.loadSpec o lang) = .ok (w, .spec (.inr .specNotFound)) := by
  have hc : CacheOk files w.specs := CacheOk.calls cs ho (by intro l sp hl; simp [World.init] at hl) h
  have hn : w.specs.lookup lang = none := by
    cases hl : w.specs.lookup lang with
    | none => rfl
    | some sp =>
      obtain ⟨src, _, h1, _⟩ := hc lang sp hl
      rw [hf] at h1; simp at h1
  simp [call, loadSpec, hn, hf]

/-- C38: a missing translit and a failing one are reported as such with an empty word, otherwise the word given by
the translits from left to right is hangulized. -/
theorem C38_translits {sp : Spec} {translits : Registry} {word : Bytes} (tr : Tracer) :
    (∀ e, Applied translits sp.lang.translit word (.inr e) →
      wordErr (forward sp translits word tr).1 = .ok ([], some e)) ∧
    (∀ w, Applied translits sp.lang.translit word (.inl w) →
      (∀ e, wordErr (forward sp translits word tr).1 ≠ .ok ([], some e)) ∧
      (forward sp translits word none).1 = (forward { sp with lang.translit := [] } translits w none).1) ∧
    (∀ x e, wordErr (forward sp translits word tr).1 = .ok (x, some e) →
      x = [] ∧ Applied translits sp.lang.translit word (.inr e)) := by
  have err : ∀ (ss : List Bytes) (w : Bytes) (tr : Tracer) (e : Err), Applied translits ss w (.inr e) →
      ∃ tr', transliterateLoop translits ss w tr = (.err e, tr') := by
    intro ss
    induction ss with
    | nil => intro w tr e h; cases h
    | cons s ss ih =>
      intro w tr e h
      cases h with
      | next h1 h2 h3 => simp only [transliterateLoop, h1, h2]; exact ih _ _ _ h3
      | missing h1 => exact ⟨tr, by simp [transliterateLoop, h1]⟩
      | fails h1 h2 => exact ⟨tr, by simp [transliterateLoop, h1, h2]⟩
  have good : ∀ (ss : List Bytes) (w : Bytes) (tr : Tracer) (w' : Bytes), Applied translits ss w (.inl w') →
      ∃ tr', transliterateLoop translits ss w tr = (.ok w', tr') := by
    intro ss
    induction ss with
    | nil => intro w tr w' h; cases h; exact ⟨tr, rfl⟩
    | cons s ss ih =>
      intro w tr w' h
      cases h with
      | next h1 h2 h3 => simp only [transliterateLoop, h1, h2]; exact ih _ _ _ h3
  have back : ∀ (ss : List Bytes) (w : Bytes) (tr tr' : Tracer) (e : Err),
      transliterateLoop translits ss w tr = (.err e, tr') → Applied translits ss w (.inr e) := by
    intro ss
    induction ss with
    | nil => intro w tr tr' e h; simp [transliterateLoop] at h
    | cons s ss ih =>
      intro w tr tr' e h
      simp only [transliterateLoop] at h
      cases hl : translits.lookup s with
      | none =>
        simp only [hl, Prod.mk.injEq, Go.err.injEq] at h
        rw [← h.1]
        exact .missing hl
      | some t =>
        simp only [hl] at h
        cases ht : t.transliterate w with
        | ok w1 => simp only [ht] at h; exact .next hl ht (ih _ _ _ _ h)
        | err e1 =>
          simp only [ht, Prod.mk.injEq, Go.err.injEq] at h
          rw [← h.1]
          exact .fails hl ht
        | panic => simp [ht] at h
        | hang => simp [ht] at h
  have only : ∀ (tr : Tracer) e, (forward sp translits word tr).1 = .err e →
      Applied translits sp.lang.translit word (.inr e) := by
    intro tr e h
    unfold forward at h
    dsimp only at h
    cases hr : transliterateLoop translits sp.lang.translit word (tr.trace { step := .input, word }) with
    | mk r tr' =>
      rw [hr] at h
      cases r with
      | ok w =>
        simp only at h
        have := afterTranslit_noErr sp w tr'
        cases ha : afterTranslit sp w tr' with
        | ok p => simp [ha] at h
        | err e' => exact absurd ha (this e')
        | panic => simp [ha] at h
        | hang => simp [ha] at h
      | err e' =>
        simp only [Go.err.injEq] at h
        exact h ▸ back _ _ _ _ _ hr
      | panic => simp at h
      | hang => simp at h
  have deterministic : ∀ (ss : List Bytes) (w w' : Bytes) (e : Err), Applied translits ss w (.inl w') →
      ¬ Applied translits ss w (.inr e) := by
    intro ss w w' e h1 h2
    obtain ⟨_, a⟩ := good ss w none w' h1
    obtain ⟨_, b⟩ := err ss w none e h2
    rw [a] at b; simp at b
  refine ⟨?_, ?_, ?_⟩
  · intro e h
    obtain ⟨tr', h1⟩ := err _ _ (tr.trace { step := .input, word }) e h
    simp [forward, h1, wordErr]
  · intro w h
    constructor
    · intro e he
      cases hf : (forward sp translits word tr).1 with
      | ok x => simp [hf, wordErr] at he
      | err e' => exact deterministic _ _ _ _ h (only tr e' hf)
      | panic => simp [hf, wordErr] at he
      | hang => simp [hf, wordErr] at he
    · obtain ⟨tr', h1⟩ := good _ _ (Tracer.trace none { step := .input, word }) w h
      have htr : tr' = none := by
        have : ∀ (ss : List Bytes) (w w' : Bytes) (tr' : Tracer),
            transliterateLoop translits ss w none = (.ok w', tr') → tr' = none := by
          intro ss
          induction ss with
          | nil => intro w w' tr' h; simp only [transliterateLoop, Prod.mk.injEq] at h; exact h.2.symm
          | cons s ss ih =>
            intro w w' tr' h
            simp only [transliterateLoop] at h
            split at h
            · simp at h
            · split at h
              · exact ih _ _ _ h
              all_goals simp at h
        exact this _ _ _ _ h1
      subst htr
      simp only [forward, h1, transliterateLoop]
      rfl
  · intro x e h
    cases hf : (forward sp translits word tr).1 with
    | ok x => simp [hf, wordErr] at h
    | err e' =>
      simp only [hf, wordErr, Go.ok.injEq, Prod.mk.injEq, Option.some.injEq] at h
      exact ⟨h.1.symm, h.2 ▸ only tr e' hf⟩
    | panic => simp [hf, wordErr] at h
    | hang => simp [hf, wordErr] at h

example : (call bundle World.init (.hangulize .written (str "yy") (str "hello"))).bind (fun p =>
      match p.2 with | .word r => .ok r | _ => .panic) = .ok (str "hello", some .specNotFound) := by decide +kernel

example : (parseSpec Ord.written translated).bind (fun sp => .ok
      [wordErr (hangulize sp [(str "one", appends "one" "o"), (str "two", appends "two" "i")] (str "a")),
       wordErr (hangulize sp [(str "one", appends "one" "o")] (str "a")),
       wordErr (hangulize sp [(str "one", fails "one"), (str "two", appends "two" "i")] (str "a"))]) =
    .ok [.ok (str "아오이", none), .ok ([], some .translitNotImported), .ok ([], some .translit)] := by
  decide +kernel

/-! ## C41 -/

/-- C41: after any calls, a registry holds for each scheme the first translit used since its last removal, the
booleans say whether the call changed the registry, and `Translits` returns a new map with the same contents. -/
theorem C41_registry {files : Files} {cs : List Call} {rs : List Res} {w : World}
    (h : calls files World.init cs = .ok (w, rs)) {who : Option Nat} {a : Nat} (ha : w.registry who = some a) :
    (∀ s t, (w.map a).lookup s = some t ↔ Holds (changesOf who cs rs) s t) ∧
    (∀ t, ∃ w' b, call files w (.useTranslit who t) = .ok (w', .bool b) ∧
      (b = true ↔ ¬ ∃ t', Holds (changesOf who cs rs) t.scheme t') ∧ (b = false → w'.map a = w.map a)) ∧
    (∀ s, ∃ w' b, call files w (.unuseTranslit who s) = .ok (w', .bool b) ∧
      (b = true ↔ ∃ t', Holds (changesOf who cs rs) s t') ∧ (b = false → w'.map a = w.map a)) ∧
    (∃ w' m, call files w (.translits who) = .ok (w', .map m) ∧ w.maps.length ≤ m ∧
      (∀ s, (w'.map m).lookup s = (w.map a).lookup s) ∧ w'.map a = w.map a) := by
  have hi := Inv.calls cs Inv.init h
  simp only [List.nil_append] at hi
  have hold : ∀ s t, (w.map a).lookup s = some t ↔ Holds (changesOf who cs rs) s t := by
    intro s t
    rw [hi.holds who a ha, holder_holds]
  have hex : ∀ s, (w.map a).lookup s = none ↔ ¬ ∃ t', Holds (changesOf who cs rs) s t' := by
    intro s
    constructor
    · rintro h1 ⟨t', h2⟩
      rw [(hold s t').2 h2] at h1; simp at h1
    · intro h1
      cases hl : (w.map a).lookup s with
      | none => rfl
      | some t => exact absurd ⟨t, (hold s t).1 hl⟩ h1
  have hlt := hi.registry_lt ha
  refine ⟨hold, ?_, ?_, ?_⟩
  · intro t
    refine ⟨_, _, by simp only [call, ha]; rfl, ?_, ?_⟩
    · rw [add_bool, hex]
    · intro hb
      rw [map_set w hlt, if_pos rfl]
      cases hl : (w.map a).lookup t.scheme with
      | none => rw [(add_bool _ _).2 hl] at hb; simp at hb
      | some t' => simp [Registry.add, hl]
  · intro s
    refine ⟨_, _, by simp only [call, ha]; rfl, ?_, ?_⟩
    · rw [remove_bool, ne_eq, hex, Classical.not_not]
    · intro hb
      rw [map_set w hlt, if_pos rfl]
      cases hl : (w.map a).lookup s with
      | none => simp [Registry.remove, hl]
      | some t' => rw [(remove_bool _ _).2 (by simp [hl])] at hb; simp at hb
  · refine ⟨_, _, by simp only [call, ha]; rfl, Nat.le_refl _, ?_, ?_⟩
    · intro s
      simp only [World.map, List.getElem?_concat_length, Option.getD_some]
      exact lookup_detach _ s
    · exact map_append w hlt _ _ _

/-- C41: writing to a map returned by `Translits` changes no registry. -/
theorem C41_independent {files : Files} {cs : List Call} {rs : List Res} {w w' : World}
    (h : calls files World.init cs = .ok (w, rs)) {who : Option Nat} {a : Nat} (ha : w.registry who = some a)
    {m : Nat} {key : Bytes} {r : Res}
    (hc : (∃ t, call files w (.userSet m key t) = .ok (w', r)) ∨ call files w (.userDelete m key) = .ok (w', r)) :
    w'.registry who = some a ∧ w'.map a = w.map a := by
  have hi := Inv.calls cs Inv.init h
  rcases hc with ⟨t, hc⟩ | hc
  · obtain ⟨h1, h2, _⟩ := hi.frame hc (by simp [owner]) ha
    exact ⟨registry_frame ha h2, h1⟩
  · obtain ⟨h1, h2, _⟩ := hi.frame hc (by simp [owner]) ha
    exact ⟨registry_frame ha h2, h1⟩

/-- What a result says, in decidable terms. -/
def resBool : Res → Option Bool
  | .bool b => some b
  | _ => none

/-- The letters appended by what is registered for a scheme. -/
def appended (r : Registry) (s : String) : Option (Go Bytes) := (r.lookup (str s)).map fun t => t.transliterate []

example : (calls bundle World.init [.useTranslit none (appends "x" "1"), .useTranslit none (appends "x" "2"),
      .translits none, .unuseTranslit none (str "x"), .unuseTranslit none (str "x"),
      .useTranslit none (appends "x" "3"), .userDelete 1 (str "x")]).bind (fun p =>
      .ok (p.2.map resBool, appended (p.1.map 0) "x", appended (p.1.map 1) "x")) =
    .ok ([some true, some false, none, some true, some false, some true, none], some (.ok (str "3")), none) := by
  decide +kernel

/-! ## C42 -/

/-- C42: `Install` registers all translits, or changes nothing: whether it does depends on none of the schemes being
taken (the standard ones are different from one another). -/
theorem C42_install (ts : List Translit) (r : Registry) :
    ((install ts r).2 = false → ∀ s, (install ts r).1.lookup s = r.lookup s) ∧
    ((install ts r).2 = true → (∀ t ∈ ts, r.lookup t.scheme = none ∧ (install ts r).1.lookup t.scheme = some t) ∧
      ∀ s, s ∉ ts.map (·.scheme) → (install ts r).1.lookup s = r.lookup s) ∧
    ((ts.map (·.scheme)).Nodup → (∀ t ∈ ts, r.lookup t.scheme = none) → (install ts r).2 = true) := by
  have key : ∀ (ts done : List Translit) (r' : Registry), (∀ t ∈ done, r.lookup t.scheme = none) →
      (∀ t ∈ done, r'.lookup t.scheme = some t) →
      (∀ s, s ∉ done.map (·.scheme) → r'.lookup s = r.lookup s) →
      ((installLoop r' done ts).2 = false → ∀ s, (installLoop r' done ts).1.lookup s = r.lookup s) ∧
      ((installLoop r' done ts).2 = true →
        (∀ t ∈ done ++ ts, r.lookup t.scheme = none ∧ (installLoop r' done ts).1.lookup t.scheme = some t) ∧
        ∀ s, s ∉ (done ++ ts).map (·.scheme) → (installLoop r' done ts).1.lookup s = r.lookup s) ∧
      (((done ++ ts).map (·.scheme)).Nodup → (∀ t ∈ ts, r.lookup t.scheme = none) →
        (installLoop r' done ts).2 = true) := by
    intro ts
    induction ts with
    | nil =>
      intro done r' h1 h2 h3
      simp only [installLoop, List.append_nil]
      refine ⟨by simp, fun _ => ⟨fun t ht => ⟨h1 t ht, h2 t ht⟩, h3⟩, fun _ _ => trivial⟩
    | cons t ts ih =>
      intro done r' h1 h2 h3
      simp only [installLoop]
      cases hl : r'.lookup t.scheme with
      | some t' =>
        have e : r'.add t = (r', false) := by simp [Registry.add, hl]
        rw [e]
        simp only [Bool.false_eq_true, false_implies, true_and]
        refine ⟨?_, ?_⟩
        · intro _ s
          rw [uninstall_lookup]
          by_cases hs : s ∈ done.map (·.scheme)
          · obtain ⟨t1, ht1, rfl⟩ := List.mem_map.1 hs
            simp [hs, h1 t1 ht1]
          · simp only [hs, ↓reduceIte, h3 s hs]
        · intro hnd hnone
          exfalso
          have : t.scheme ∉ done.map (·.scheme) := by
            rw [List.map_append, List.nodup_append] at hnd
            intro hmem
            exact hnd.2.2 _ hmem _ (by simp) rfl
          rw [h3 _ this, hnone t (by simp)] at hl
          simp at hl
      | none =>
        have e : r'.add t = (mapSet r' t.scheme t, true) := by simp [Registry.add, hl]
        rw [e]
        have hnot : t.scheme ∉ done.map (·.scheme) := by
          intro hs
          obtain ⟨t1, ht1, e1⟩ := List.mem_map.1 hs
          have := h2 t1 ht1
          rw [e1, hl] at this; simp at this
        have := ih (done ++ [t]) (mapSet r' t.scheme t)
          (by
            intro t1 ht1
            simp only [List.mem_append, List.mem_singleton] at ht1
            rcases ht1 with ht1 | rfl
            · exact h1 t1 ht1
            · rw [← h3 _ hnot]; exact hl)
          (by
            intro t1 ht1
            rw [lookup_mapSet]
            simp only [List.mem_append, List.mem_singleton] at ht1
            rcases ht1 with ht1 | rfl
            · rw [if_neg, h2 t1 ht1]
              intro e1
              exact hnot (List.mem_map.2 ⟨t1, ht1, e1⟩)
            · simp)
          (by
            intro s hs
            simp only [List.map_append, List.map_cons, List.map_nil, List.mem_append, List.mem_singleton, not_or] at hs
            rw [lookup_mapSet, if_neg hs.2, h3 s hs.1])
        simp only [List.append_assoc, List.cons_append, List.nil_append] at this
        refine ⟨this.1, this.2.1, fun h4 h5 => this.2.2 h4 fun t1 ht1 => h5 t1 (by simp [ht1])⟩
  have := key ts [] r (by simp) (by simp) (by simp)
  simpa [install] using this

/-- What installing three translits gives, in decidable terms. -/
def installed (r : Registry) : Bool × List (Option (Go Bytes)) :=
  let r := install [appends "a" "1", appends "b" "2", appends "c" "3"] r
  (r.2, [appended r.1 "a", appended r.1 "b", appended r.1 "c"])

example : installed [(str "c", appends "c" "x")] = (false, [none, none, some (.ok (str "x"))]) ∧
    installed [(str "d", appends "d" "x")] =
      (true, [some (.ok (str "1")), some (.ok (str "2")), some (.ok (str "3"))]) := by
  decide +kernel

/-! ## C43 -/

/-- C43: in any sequence of calls, `LoadSpec` returns a spec parsed from the bundled source of the language it was
asked for, or reports that there is none; and `Hangulize` uses such a spec. -/
theorem C43_cache {files : Files} {cs : List Call} {rs : List Res} {w w' : World} (ho : ∀ c ∈ cs, OrdOk c)
    (h : calls files World.init cs = .ok (w, rs)) {o : Ord} (ho' : o.Ok) {lang : Bytes} :
    (∀ r, call files w (.loadSpec o lang) = .ok (w', .spec r) →
      (files lang = none ∧ r = .inr .specNotFound) ∨
      ∃ src o' sp, files lang = some src ∧ o'.Ok ∧ parseSpec o' src = .ok sp ∧ r = .inl sp) ∧
    (∀ word r, call files w (.hangulize o lang word) = .ok (w', .word r) →
      (files lang = none ∧ r = (word, some .specNotFound)) ∨
      ∃ src o' sp, files lang = some src ∧ o'.Ok ∧ parseSpec o' src = .ok sp ∧
        .ok r = wordErr (hangulize sp (w.map 0).detach word)) := by
  have hc : CacheOk files w.specs := CacheOk.calls cs ho (by intro l sp hl; simp [World.init] at hl) h
  have key : ∀ r specs, loadSpec files o lang w.specs = .ok (r, specs) →
      (files lang = none ∧ r = .inr .specNotFound) ∨
      ∃ src o' sp, files lang = some src ∧ o'.Ok ∧ parseSpec o' src = .ok sp ∧ r = .inl sp := by
    intro r specs hl
    rcases loadSpec_cases hl with ⟨sp, h1, h2, _⟩ | ⟨_, h1, h2, _⟩ | ⟨src, sp, _, h1, h2, h3, _⟩
    · obtain ⟨src, o', h3, h4, h5⟩ := hc lang sp h1
      exact .inr ⟨src, o', sp, h3, h4, h5, h2⟩
    · exact .inl ⟨h1, h2⟩
    · exact .inr ⟨src, o, sp, h1, ho', h2, h3⟩
  constructor
  · intro r hr
    simp only [call, Go.bind_eq_ok, Prod.exists, Go.pure_eq, Go.ok.injEq, Prod.mk.injEq, Res.spec.injEq] at hr
    obtain ⟨r', specs, h1, _, rfl⟩ := hr
    exact key r' specs h1
  · intro word r hr
    simp only [call, Go.bind_eq_ok, Prod.exists] at hr
    obtain ⟨r', specs, h1, h2⟩ := hr
    rcases key r' specs h1 with ⟨h3, rfl⟩ | ⟨src, o', sp, h3, h4, h5, rfl⟩
    · simp only [Go.pure_eq, Go.ok.injEq, Prod.mk.injEq, Res.word.injEq] at h2
      exact .inl ⟨h3, h2.2.symm⟩
    · simp only [Go.bind_eq_ok, Go.pure_eq, Go.ok.injEq, Prod.mk.injEq, Res.word.injEq] at h2
      obtain ⟨r1, h6, _, rfl⟩ := h2
      exact .inr ⟨src, o', sp, h3, h4, h5, h6.symm⟩

/-- The codes of a spec returned by a call. -/
def resId : Res → Option (Bytes ⊕ Err)
  | .spec (.inl sp) => some (.inl sp.lang.codes.1)
  | .spec (.inr e) => some (.inr e)
  | _ => none

example : (calls bundle World.init [.loadSpec .written (str "xx"), .unloadSpec (str "xx"),
      .loadSpec .written (str "yy"), .hangulize .written (str "xx") (str "hello"), .loadSpec .written (str "xx")]).bind
      (fun p => .ok (p.2.map resId)) =
    .ok [some (.inl (str "xx")), none, some (.inr .specNotFound), none, some (.inl (str "xx"))] := by decide +kernel

/-! ## C44 -/

/-- C44 is false: the map of cached specs is not locked, and two goroutines which load a spec for the first time
may write it at the same time. -/
theorem C44_race_refuted : ∃ c, Reach bundle ⟨[], [⟨.at [.load (str "xx")], []⟩, ⟨.at [.load (str "xx")], []⟩]⟩ c ∧
    c.Race := by
  obtain ⟨sp, hp⟩ : ∃ sp, parseSpec Ord.written greeting = .ok sp := by
    have h : ((parseSpec Ord.written greeting).bind fun sp => .ok sp.lang.codes.1) = .ok (str "xx") := by decide +kernel
    rw [Rx.go_bind_ok] at h
    obtain ⟨sp, h1, _⟩ := h
    exact ⟨sp, h1⟩
  have ho : Ord.written.Ok := ⟨fun _ _ _ _ => .refl _, fun _ => .refl _⟩
  have hs : ∀ rs, Thread.step bundle Ord.written ⟨.at [.load (str "xx")], rs⟩ [] =
      .ok (⟨.store (str "xx") sp [], rs⟩, []) := by
    intro rs; simp [Thread.step, bundle, hp]
  refine ⟨_, .step (.step (.refl _) (.mk 0 ho rfl (hs []))) (.mk 1 ho rfl (hs [])), ?_⟩
  exact ⟨0, 1, _, _, by simp, rfl, rfl, rfl, by simp [Thread.next]⟩

/-- A goroutine which only loads specs that are cached or do not exist. -/
def Quiet (files : Files) (specs : Cache) (t : Thread) : Prop :=
  ∃ todo, t.pc = .at todo ∧ ∀ c ∈ todo, ∃ lang, c = .load lang ∧ (specs.lookup lang ≠ none ∨ files lang = none)

/-- C44 (partial): goroutines which only load specs that were cached before they started, or that do not exist, never
access the map in a conflicting way, in any interleaving; and the map stays as it was.  Missing: loading a spec for
the first time, with which it is false (`C44_race_refuted`). -/
theorem C44_race_partial {files : Files} {specs : Cache} {threads : List Thread}
    (hq : ∀ t ∈ threads, Quiet files specs t) {c : Machine} (h : Reach files ⟨specs, threads⟩ c) :
    ¬ c.Race ∧ c.specs = specs := by
  have key : c.specs = specs ∧ ∀ t ∈ c.threads, Quiet files specs t := by
    induction h with
    | refl => exact ⟨rfl, hq⟩
    | step _ s ih =>
      obtain ⟨e, hq'⟩ := ih
      cases s with
      | mk i ho hi hs =>
        rename_i b t t' o specs'
        obtain ⟨todo, hpc, htodo⟩ := hq' t (List.mem_of_getElem? hi)
        have hstep : specs' = specs ∧ Quiet files specs t' := by
          unfold Thread.step at hs
          rw [hpc, e] at hs
          cases todo with
          | nil =>
            simp only [Go.ok.injEq, Prod.mk.injEq] at hs
            exact ⟨hs.2.symm, hs.1 ▸ ⟨[], hpc, by simp⟩⟩
          | cons x todo =>
            obtain ⟨lang, rfl, hl⟩ := htodo x (by simp)
            simp only at hs
            cases hlk : specs.lookup lang with
            | some sp =>
              simp only [hlk, Go.ok.injEq, Prod.mk.injEq] at hs
              exact ⟨hs.2.symm, hs.1 ▸ ⟨todo, rfl, fun c hc => htodo c (by simp [hc])⟩⟩
            | none =>
              have hf : files lang = none := by
                rcases hl with hl | hl
                · exact absurd hlk hl
                · exact hl
              simp only [hlk, hf, Go.ok.injEq, Prod.mk.injEq] at hs
              exact ⟨hs.2.symm, hs.1 ▸ ⟨todo, rfl, fun c hc => htodo c (by simp [hc])⟩⟩
        refine ⟨hstep.1, fun u hu => ?_⟩
        rcases List.mem_or_eq_of_mem_set hu with hu | rfl
        · exact hq' u hu
        · exact hstep.2
  refine ⟨?_, key.1⟩
  rintro ⟨i, j, t, u, _, hi, _, hw, _⟩
  obtain ⟨todo, hpc, htodo⟩ := key.2 t (List.mem_of_getElem? hi)
  unfold Thread.next at hw
  rw [hpc] at hw
  cases todo with
  | nil => simp at hw
  | cons x todo =>
    obtain ⟨lang, rfl, _⟩ := htodo x (by simp)
    simp at hw

/-- C44 (partial): whatever the interleaving, if the accesses to the map were atomic, each goroutine would get specs
parsed from the bundled sources of the languages it asked for. -/
theorem C44_results_partial {files : Files} {threads : List Thread}
    (hs : ∀ t ∈ threads, ∃ todo, t.pc = .at todo ∧ t.results = []) {c : Machine}
    (h : Reach files ⟨[], threads⟩ c) {t : Thread} (ht : t ∈ c.threads) :
    ∀ lang r, (lang, r) ∈ t.results → (files lang = none ∧ r = .inr .specNotFound) ∨
      ∃ src o sp, files lang = some src ∧ o.Ok ∧ parseSpec o src = .ok sp ∧ r = .inl sp := by
  let good : Bytes → Spec ⊕ Err → Prop := fun lang r => (files lang = none ∧ r = .inr .specNotFound) ∨
      ∃ src o sp, files lang = some src ∧ o.Ok ∧ parseSpec o src = .ok sp ∧ r = .inl sp
  have key : CacheOk files c.specs ∧ ∀ t ∈ c.threads, (∀ lang r, (lang, r) ∈ t.results → good lang r) ∧
      ∀ lang sp todo, t.pc = .store lang sp todo → good lang (.inl sp) := by
    clear ht t
    induction h with
    | refl =>
      refine ⟨by intro l sp hl; simp at hl, fun t ht => ?_⟩
      obtain ⟨todo, h1, h2⟩ := hs t ht
      exact ⟨by simp [h2], by simp [h1]⟩
    | step _ s ih =>
      obtain ⟨hc, hq⟩ := ih
      cases s with
      | mk i ho hi hstep =>
        rename_i b t t' o specs'
        obtain ⟨h1, h2⟩ := hq t (List.mem_of_getElem? hi)
        have snoc : ∀ lang r, good lang r → ∀ l x, (l, x) ∈ t.results ++ [(lang, r)] → good l x := by
          intro lang r hg l x hm
          simp only [List.mem_append, List.mem_singleton, Prod.mk.injEq] at hm
          rcases hm with hm | ⟨rfl, rfl⟩
          · exact h1 l x hm
          · exact hg
        have new : CacheOk files specs' ∧ (∀ lang r, (lang, r) ∈ t'.results → good lang r) ∧
            ∀ lang sp todo, t'.pc = .store lang sp todo → good lang (.inl sp) := by
          unfold Thread.step at hstep
          split at hstep
          · simp only [Go.ok.injEq, Prod.mk.injEq] at hstep
            obtain ⟨rfl, rfl⟩ := hstep
            exact ⟨hc, h1, h2⟩
          · simp only [Go.ok.injEq, Prod.mk.injEq] at hstep
            obtain ⟨rfl, rfl⟩ := hstep
            exact ⟨hc.delete _, h1, by simp⟩
          · rename_i lang sp todo hpc
            simp only [Go.ok.injEq, Prod.mk.injEq] at hstep
            obtain ⟨rfl, rfl⟩ := hstep
            have hg := h2 lang sp todo hpc
            refine ⟨?_, snoc _ _ hg, by simp⟩
            rcases hg with ⟨_, h4⟩ | ⟨src, o', sp', h4, h5, h6, h7⟩
            · simp at h4
            · simp only [Sum.inl.injEq] at h7
              subst h7
              intro l x hl
              rw [lookup_mapSet] at hl
              by_cases e : l = lang
              · subst e
                simp only [↓reduceIte, Option.some.injEq] at hl
                exact hl ▸ ⟨src, o', h4, h5, h6⟩
              · rw [if_neg e] at hl; exact hc l x hl
          · rename_i lang todo hpc
            split at hstep
            · rename_i sp hl
              simp only [Go.ok.injEq, Prod.mk.injEq] at hstep
              obtain ⟨rfl, rfl⟩ := hstep
              obtain ⟨src, o', h3, h4, h5⟩ := hc _ _ hl
              exact ⟨hc, snoc _ _ (.inr ⟨src, o', sp, h3, h4, h5, rfl⟩), by simp⟩
            · split at hstep
              · rename_i hf
                simp only [Go.ok.injEq, Prod.mk.injEq] at hstep
                obtain ⟨rfl, rfl⟩ := hstep
                exact ⟨hc, snoc _ _ (.inl ⟨hf, rfl⟩), by simp⟩
              · rename_i src hf
                split at hstep
                · rename_i sp hp
                  simp only [Go.ok.injEq, Prod.mk.injEq] at hstep
                  obtain ⟨rfl, rfl⟩ := hstep
                  refine ⟨hc, h1, ?_⟩
                  intro l x td he
                  simp only [Pc.store.injEq] at he
                  obtain ⟨rfl, rfl, _⟩ := he
                  exact .inr ⟨src, o, sp, hf, ho, hp, rfl⟩
                all_goals simp at hstep
        refine ⟨new.1, fun u hu => ?_⟩
        rcases List.mem_or_eq_of_mem_set hu with hu | rfl
        · exact hq u hu
        · exact new.2
  exact (key.2 t ht).1

/-- Three goroutines on a cached language and a missing one. -/
example (sp : Spec) : ∀ t ∈ [⟨.at [.load (str "xx"), .load (str "yy")], []⟩, ⟨.at [.load (str "xx")], []⟩,
    (⟨.at [.load (str "xx"), .load (str "xx")], []⟩ : Thread)], Quiet bundle [(str "xx", sp)] t := by
  have h1 : List.lookup (str "xx") [(str "xx", sp)] ≠ none := by simp
  have h2 : bundle (str "yy") = none := by decide +kernel
  intro t ht
  simp only [List.mem_cons, List.not_mem_nil, or_false] at ht
  rcases ht with rfl | rfl | rfl
  · exact ⟨_, rfl, by simp [h2]⟩
  · exact ⟨_, rfl, by simp⟩
  · exact ⟨_, rfl, by simp⟩

/-! ## C45 -/

/-- C45: calls which are not on a hangulizer (which may be on others, on the package, or writes by the user) change
neither its spec, its tracing function nor its translits, and it returns the same. -/
theorem C45_instances {files : Files} {cs cs' : List Call} {rs rs' : List Res} {w w' : World}
    (h : calls files World.init cs = .ok (w, rs)) {k : Nat} {obj : Obj} (hk : w.objs[k]? = some obj)
    (h' : calls files w cs' = .ok (w', rs')) (ho : ∀ c ∈ cs', owner c ≠ some (some k)) :
    w'.objs[k]? = some obj ∧ w'.map obj.registry = w.map obj.registry ∧
    ∀ word, returns (call files w' (.run k word)) = returns (call files w (.run k word)) := by
  have hi := Inv.calls cs Inv.init h
  have ha : w.registry (some k) = some obj.registry := by simp [World.registry, hk]
  obtain ⟨h1, h2, _⟩ := hi.frames cs' h' ho ha
  have h3 : w'.objs[k]? = some obj := (h2 k rfl).trans hk
  refine ⟨h3, h1, fun word => ?_⟩
  simp only [call, h3, hk, h1, returns]
  cases wordErr (forward obj.spec (w.map obj.registry).detach word (obj.traceFunc.map fun _ => ⟨[], []⟩)).1 <;> rfl

/-- C45: calls on hangulizers, and writes by the user, do not change what the functions of the package do. -/
theorem C45_package {files : Files} {cs cs' : List Call} {rs rs' : List Res} {w w' : World}
    (h : calls files World.init cs = .ok (w, rs)) (h' : calls files w cs' = .ok (w', rs'))
    (ho : ∀ c ∈ cs', owner c ≠ some none) :
    w'.map 0 = w.map 0 ∧ w'.specs = w.specs ∧
    (∀ o lang word, returns (call files w' (.hangulize o lang word)) = returns (call files w (.hangulize o lang word))) ∧
    ∀ o lang, returns (call files w' (.loadSpec o lang)) = returns (call files w (.loadSpec o lang)) := by
  have hi := Inv.calls cs Inv.init h
  obtain ⟨h1, _, h2⟩ := hi.frames cs' h' ho (who := none) rfl
  have h2 := h2 rfl
  refine ⟨h1, h2, fun o lang word => ?_, fun o lang => ?_⟩
  · simp only [call, h1, h2, returns]
    cases loadSpec files o lang w.specs with
    | ok p =>
      obtain ⟨r, specs⟩ := p
      simp only [Go.bind_ok]
      cases r with
      | inr e => rfl
      | inl sp =>
        simp only
        cases wordErr (forward sp (w.map 0).detach word none).1 <;> rfl
    | _ => rfl
  · simp only [call, h2, returns]
    cases loadSpec files o lang w.specs <;> rfl

example : (parseSpec Ord.written translated).bind (fun sp =>
      (calls bundle World.init [.new sp, .new sp, .useTranslit (some 0) (appends "one" "o"),
        .useTranslit (some 0) (appends "two" "i"), .run 0 (str "a"), .run 1 (str "a")]).bind fun p =>
      .ok (p.2.map fun r => match r with | .word r => some r | _ => none)) =
    .ok [none, none, none, none, some (str "아오이", none), some ([], some .translitNotImported)] := by decide +kernel

end Verif.Props
