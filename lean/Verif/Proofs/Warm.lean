import Verif.Proofs.Goroutines
import Verif.Proofs.Bundled

/-! # Goroutines: what a call leaves behind -/

namespace Verif.Goroutines

open Verif.Spec.Goroutines Verif.Spec.Bundle Verif.Specs

/-- Who comes to the end of the translits has used the tokenizer. -/
theorem tokenizes_true {r : Registry} (hr : Consistent r) : ∀ {ss : List Bytes} {word out : Bytes} {tr : Tracer},
    (transliterateLoop r ss word tr).1 = .ok out → str "furigana" ∈ ss → tokenizes r ss word = true
  | [], _, _, _, _, h => by simp at h
  | s :: ss, word, out, tr, ho, h => by
    simp only [transliterateLoop] at ho
    simp only [tokenizes]
    cases hl : r.lookup s with
    | none => simp [hl] at ho
    | some t =>
      have e : t.scheme = s := hr _ (mem_of_lookup hl)
      simp only [hl] at ho
      cases ht : t.transliterate word with
      | ok w =>
        rw [ht] at ho
        simp only [ht, Bool.or_eq_true, beq_iff_eq, e]
        by_cases hs : s = str "furigana"
        · exact .inl hs
        · refine .inr (tokenizes_true hr ho ?_)
          rcases List.mem_cons.1 h with h | h
          · exact absurd h.symm hs
          · exact h
      | _ => simp [ht] at ho

theorem forward_tokenizes {r : Registry} (hr : Consistent r) {sp : Spec} {word out : Bytes}
    (hw : wordErr (Verif.forward sp r word none).1 = .ok (out, none)) (h : str "furigana" ∈ sp.lang.translit) :
    tokenizes r sp.lang.translit word = true := by
  have hf : (Verif.forward sp r word none).1 = .ok out := by
    cases hx : (Verif.forward sp r word none).1 <;> simp [hx, wordErr] at hw
    rw [hw]
  simp only [Verif.forward] at hf
  split at hf
  · rename_i w tr e
    refine tokenizes_true hr (out := w) (tr := Tracer.trace none { step := .input, word := word }) ?_ h
    rw [e]
  · rename_i hne
    exact (hne out _ (Prod.ext hf rfl)).elim

/-- What is cached stays cached, and the tokenizer stays. -/
structure Ext (m m' : Memory) : Prop where
  specs : ∀ lang, (m.specs.lookup lang).isSome = true → (m'.specs.lookup lang).isSome = true
  kagome : m.kagome = true → m'.kagome = true

theorem same_translit {lang : Bytes} {m m' : Memory} (h : CacheOk bundled m.specs) (h' : CacheOk bundled m'.specs) {sp sp' : Spec}
    (hs : m.specs.lookup lang = some sp) (hs' : m'.specs.lookup lang = some sp') : sp.lang = sp'.lang := by
  obtain ⟨src, o, h1, h2, h3⟩ := h lang sp hs
  obtain ⟨src', o', h1', h2', h3'⟩ := h' lang sp' hs'
  rw [h1, Option.some.injEq] at h1'
  subst h1'
  obtain ⟨la, _, hsd⟩ := bundled_sound h1
  obtain ⟨x, p1, e1, _⟩ := hsd o h2
  obtain ⟨y, p2, e2, _⟩ := hsd o' h2'
  rw [h3, Go.ok.injEq] at p1
  rw [h3', Go.ok.injEq] at p2
  rw [p1, p2, e1, e2]

theorem Calm.mono {m m' : Memory} (h : CacheOk bundled m.specs) (h' : CacheOk bundled m'.specs) (he : Ext m m') {c : Call}
    (hc : Calm bundled m c) : Calm bundled m' c := by
  cases c with
  | load lang => exact hc.imp (he.specs lang) id
  | hangulize lang word =>
    rcases hc with ⟨_, h2⟩ | ⟨sp, h1, h2⟩
    · refine .inl ⟨?_, h2⟩
      cases hl : m'.specs.lookup lang with
      | none => rfl
      | some sp =>
        obtain ⟨_, _, h3, _⟩ := h' lang sp hl
        rw [h2] at h3
        simp at h3
    · obtain ⟨sp', hs'⟩ := Option.isSome_iff_exists.1 (he.specs lang (by simp [h1]))
      refine .inr ⟨sp', hs', ?_⟩
      rw [← same_translit h h' h1 hs']
      exact h2.imp he.kagome id
  | run sp translits word => exact ⟨hc.1, hc.2.imp he.kagome id⟩
  | unload => exact hc.elim
  | install => exact hc.elim
  | unuse => exact hc.elim

/-- The memory with a tokenizer. -/
abbrev Memory.ready (m : Memory) : Memory := { m with kagome := true }

/-- Where a goroutine is, in terms of what is cached. -/
def Spot (m : Memory) (t : Thread) : Prop :=
  match t.pc with
  | .start => True
  | .store sp => (∃ src o, bundled t.lang = some src ∧ o.Ok ∧ parseSpec o src = .ok sp) ∧
    ∃ c rest, t.todo = c :: rest ∧ (c = .load t.lang ∨ ∃ word, c = .hangulize t.lang word)
  | .detach sp => ∃ lang word rest, t.todo = .hangulize lang word :: rest ∧ ∃ sp', m.specs.lookup lang = some sp' ∧ sp'.lang = sp.lang
  | .check r => ∃ c rest, t.todo = c :: rest ∧ (Succeeded c (.word r) → Calm bundled m.ready c)
  | .make r => ∃ c rest, t.todo = c :: rest ∧ (Succeeded c (.word r) → Calm bundled m.ready c)
  | _ => ∃ c rest, t.todo = c :: rest ∧ ∀ b, ¬ Succeeded c (.bool b)

/-- What holds for a goroutine with given calls. -/
structure Left (m : Memory) (calls : List Call) (t : Thread) : Prop where
  done : ∃ done, calls = done ++ t.todo ∧ List.Forall₂ (fun c r => Succeeded c r → Calm bundled m c) done t.results
  gentle : ∀ c ∈ t.todo, ∀ lang, c ≠ .unload lang
  spot : Spot m t

theorem Left.mono {m m' : Memory} (h : CacheOk bundled m.specs) (h' : CacheOk bundled m'.specs) (he : Ext m m') {calls : List Call}
    {t : Thread} (hl : Left m calls t) : Left m' calls t := by
  obtain ⟨⟨done, h1, h2⟩, h3, h4⟩ := hl
  have her : Ext m.ready m'.ready := ⟨he.specs, fun _ => rfl⟩
  refine ⟨⟨done, h1, h2.imp fun c r hc hs => Calm.mono h h' he (hc hs)⟩, h3, ?_⟩
  obtain ⟨pc, todo, results⟩ := t
  cases pc with
  | start => trivial
  | store => exact h4
  | detach sp =>
    obtain ⟨lang, word, rest, e, sp', e1, e2⟩ := h4
    obtain ⟨sp'', hs⟩ := Option.isSome_iff_exists.1 (he.specs lang (by simp [e1]))
    exact ⟨lang, word, rest, e, sp'', hs, by rw [← same_translit h h' e1 hs, e2]⟩
  | check r =>
    obtain ⟨c, rest, e, hc⟩ := h4
    exact ⟨c, rest, e, fun hs => Calm.mono (m := m.ready) (m' := m'.ready) h h' her (hc hs)⟩
  | make r =>
    obtain ⟨c, rest, e, hc⟩ := h4
    exact ⟨c, rest, e, fun hs => Calm.mono (m := m.ready) (m' := m'.ready) h h' her (hc hs)⟩
  | look => exact h4
  | add => exact h4
  | find => exact h4
  | delete => exact h4

theorem Left.ret {m : Memory} {calls : List Call} {t : Thread} (h : Left m calls t) {c : Call} {rest : List Call}
    (ht : t.todo = c :: rest) {r : Res} (hr : Succeeded c r → Calm bundled m c) : Left m calls (t.ret r) := by
  obtain ⟨⟨done, h1, h2⟩, h3, _⟩ := h
  rw [ht] at h1 h3
  refine ⟨⟨done ++ [c], ?_, ?_⟩, ?_, trivial⟩
  · simp [Thread.ret, ht, h1]
  · exact List.rel_append h2 (.cons hr .nil)
  · simp only [Thread.ret, ht, List.tail_cons]
    exact fun c hc => h3 c (by simp [hc])

theorem Left.goto {m : Memory} {calls : List Call} {t : Thread} (h : Left m calls t) {pc : Pc} (hp : Spot m (t.goto pc)) :
    Left m calls (t.goto pc) := ⟨h.done, h.gentle, hp⟩

theorem Left.installing {m : Memory} {calls : List Call} {t : Thread} (h : Left m calls t) {c : Call} {rest : List Call}
    (ht : t.todo = c :: rest) (hc : ∀ b, ¬ Succeeded c (.bool b)) (done ts : List Translit) : Left m calls (t.installing done ts) := by
  cases ts with
  | nil => exact h.ret ht fun hs => (hc _ hs).elim
  | cons x ts => exact h.goto ⟨c, rest, ht, hc⟩

theorem Left.removing {m : Memory} {calls : List Call} {t : Thread} (h : Left m calls t) {c : Call} {rest : List Call}
    (ht : t.todo = c :: rest) (hc : ∀ b, ¬ Succeeded c (.bool b)) (b : Bool) (ss : List Bytes) : Left m calls (t.removing b ss) := by
  cases ss with
  | nil => exact h.ret ht fun hs => (hc _ hs).elim
  | cons x ts => exact h.goto ⟨c, rest, ht, hc⟩

/-- `Hangulize` up to the tokenizer. -/
theorem Left.forward {m : Memory} {calls : List Call} {t t' : Thread} (h : Left m calls t) {c : Call} {rest : List Call}
    (ht : t.todo = c :: rest) {sp : Spec} {translits : Registry} {word : Bytes}
    (hc : ∀ out e, Succeeded c (.word (out, e)) → e = none ∧ Consistent translits)
    (hready : Succeeded c (.word ([], none)) → Calm bundled m.ready c)
    (hplain : Succeeded c (.word ([], none)) → str "furigana" ∉ sp.lang.translit → Calm bundled m c)
    (hf : t.forward sp translits word = .ok t') : Left m calls t' := by
  have hw0 : ∀ out, Succeeded c (.word (out, none)) → Succeeded c (.word ([], none)) := by
    intro out hs
    cases c <;> exact hs
  simp only [Thread.forward, Go.bind_eq_ok, Go.pure_eq, Go.ok.injEq] at hf
  obtain ⟨⟨out, e⟩, hw, rfl⟩ := hf
  cases htk : tokenizes translits sp.lang.translit word with
  | true =>
    refine h.goto ⟨c, rest, ht, fun hs => ?_⟩
    obtain ⟨rfl, _⟩ := hc _ _ hs
    exact hready (hw0 _ hs)
  | false =>
    refine h.ret ht fun hs => ?_
    obtain ⟨rfl, h2⟩ := hc _ _ hs
    refine hplain (hw0 _ hs) fun hmem => ?_
    rw [forward_tokenizes h2 hw hmem] at htk
    simp at htk

/-- What holds for the shared variables. -/
structure Good (m : Memory) : Prop where
  cache : CacheOk bundled m.specs
  registry : Consistent m.registry

theorem Left.loaded {m : Memory} {calls : List Call} {t : Thread} (h : Left m calls t) {c : Call} {rest : List Call}
    (ht : t.todo = c :: rest) (hc : c = .load t.lang ∨ ∃ word, c = .hangulize t.lang word) {sp : Spec}
    (hl : m.specs.lookup t.lang = some sp) : Left m calls (t.loaded (.inl sp)) := by
  rcases hc with hc | ⟨word, hc⟩
  · have e : t.loaded (.inl sp) = t.ret (.spec (.inl sp)) := by simp [Thread.loaded, ht, hc]
    rw [e]
    refine h.ret ht fun _ => ?_
    rw [hc]
    exact .inl (by simp [hl])
  · have e : t.loaded (.inl sp) = t.goto (.detach sp) := by simp [Thread.loaded, ht, hc]
    rw [e]
    exact h.goto ⟨t.lang, word, rest, by rw [← hc]; exact ht, sp, hl, rfl⟩

theorem Left.load {m : Memory} {calls : List Call} {t t' : Thread} (h : Left m calls t) {c : Call} {rest : List Call}
    (ht : t.todo = c :: rest) (hc : c = .load t.lang ∨ ∃ word, c = .hangulize t.lang word) {o : Ord} (ho : o.Ok)
    (hs : t.load bundled o m.specs = .ok t') : Left m calls t' := by
  simp only [Thread.load] at hs
  cases hl : m.specs.lookup t.lang with
  | some sp =>
    simp only [hl, Go.ok.injEq] at hs
    exact hs ▸ h.loaded ht hc hl
  | none =>
    simp only [hl] at hs
    cases hf : bundled t.lang with
    | none =>
      simp only [hf, Go.ok.injEq] at hs
      subst hs
      rcases hc with hc | ⟨word, hc⟩
      · have e : t.loaded (.inr .specNotFound) = t.ret (.spec (.inr .specNotFound)) := by simp [Thread.loaded, ht, hc]
        rw [e]
        exact h.ret ht fun hs => by rw [hc] at hs; exact hs.elim
      · have e : t.loaded (.inr .specNotFound) = t.ret (.word (word, some .specNotFound)) := by simp [Thread.loaded, ht, hc]
        rw [e]
        exact h.ret ht fun hs => by rw [hc] at hs; exact hs.elim
    | some src =>
      simp only [hf] at hs
      cases hp : parseSpec o src with
      | ok sp =>
        simp only [hp, Go.ok.injEq] at hs
        subst hs
        exact h.goto ⟨⟨src, o, hf, ho, hp⟩, c, rest, ht, hc⟩
      | err => simp [hp] at hs
      | panic => simp [hp] at hs
      | hang => simp [hp] at hs

theorem Ext.refl (m : Memory) : Ext m m := ⟨fun _ h => h, id⟩

theorem Left.step {m : Memory} (hg : Good m) {calls : List Call} {t t' : Thread} (h : Left m calls t) {o : Ord} (ho : o.Ok)
    {m' : Memory} (hs : t.step bundled o m = .ok (t', m')) : Good m' ∧ Ext m m' ∧ Left m' calls t' := by
  have same : m' = m → Left m calls t' → Good m' ∧ Ext m m' ∧ Left m' calls t' := fun e h => by subst e; exact ⟨hg, .refl _, h⟩
  have hp := h.spot
  obtain ⟨pc, todo, results⟩ := t
  cases pc with
  | start =>
    cases todo with
    | nil =>
      simp only [Thread.step, Go.ok.injEq, Prod.mk.injEq] at hs
      exact same hs.2.symm (hs.1 ▸ h)
    | cons c todo =>
      cases c with
      | load lang =>
        simp only [Thread.step, Go.bind_eq_ok, Go.pure_eq, Go.ok.injEq, Prod.mk.injEq] at hs
        obtain ⟨t1, ht1, e1, e2⟩ := hs
        exact same e2.symm (e1 ▸ h.load rfl (.inl rfl) ho ht1)
      | hangulize lang word =>
        simp only [Thread.step, Go.bind_eq_ok, Go.pure_eq, Go.ok.injEq, Prod.mk.injEq] at hs
        obtain ⟨t1, ht1, e1, e2⟩ := hs
        exact same e2.symm (e1 ▸ h.load rfl (.inr ⟨word, rfl⟩) ho ht1)
      | unload lang => exact absurd rfl (h.gentle _ (by simp) lang)
      | run sp translits word =>
        simp only [Thread.step, Go.bind_eq_ok, Go.pure_eq, Go.ok.injEq, Prod.mk.injEq] at hs
        obtain ⟨t1, ht1, e1, e2⟩ := hs
        refine same e2.symm (e1 ▸ h.forward rfl ?_ ?_ ?_ ht1)
        · intro out e hs
          cases e with
          | none => exact ⟨rfl, hs⟩
          | some e => exact hs.elim
        · exact fun hs => ⟨hs, .inl rfl⟩
        · exact fun hs hn => ⟨hs, .inr hn⟩
      | install ts =>
        simp only [Thread.step, Go.ok.injEq, Prod.mk.injEq] at hs
        exact same hs.2.symm (hs.1 ▸ h.installing rfl (fun _ hs => hs) [] ts)
      | unuse s =>
        simp only [Thread.step, Go.ok.injEq, Prod.mk.injEq] at hs
        exact same hs.2.symm (hs.1 ▸ h.goto ⟨_, _, rfl, fun _ hs => hs⟩)
  | store sp =>
    obtain ⟨⟨src, o', hb, ho', hpa⟩, c, rest, e, hc⟩ := hp
    simp only [Thread.step, Go.ok.injEq, Prod.mk.injEq] at hs
    obtain ⟨rfl, rfl⟩ := hs
    have hg' : CacheOk bundled (mapSet m.specs (Thread.lang ⟨.store sp, todo, results⟩) sp) := by
      intro l x hl
      rw [lookup_mapSet] at hl
      split at hl
      · rename_i e
        subst e
        simp only [Option.some.injEq] at hl
        exact ⟨src, o', hb, ho', hl ▸ hpa⟩
      · exact hg.cache l x hl
    have hext : Ext m { m with specs := mapSet m.specs (Thread.lang ⟨.store sp, todo, results⟩) sp } := by
      refine ⟨fun l hl => ?_, id⟩
      simp only [lookup_mapSet]
      split
      · rfl
      · exact hl
    refine ⟨⟨hg', hg.registry⟩, hext, ?_⟩
    exact (h.mono hg.cache hg' hext).loaded e hc (by simp only [lookup_mapSet, if_true])
  | detach sp =>
    obtain ⟨lang, word, rest, e, sp', hl, hla⟩ := hp
    simp only at e
    subst e
    simp only [Thread.step, Go.bind_eq_ok, Go.pure_eq, Go.ok.injEq, Prod.mk.injEq] at hs
    obtain ⟨t1, ht1, e1, e2⟩ := hs
    refine same e2.symm (e1 ▸ h.forward rfl ?_ ?_ ?_ ht1)
    · intro out e hs
      cases e with
      | none => exact ⟨rfl, consistent_detach hg.registry⟩
      | some e => exact hs.elim
    · exact fun _ => .inr ⟨sp', hl, .inl rfl⟩
    · exact fun _ hn => .inr ⟨sp', hl, .inr (by rw [hla]; exact hn)⟩
  | check r =>
    obtain ⟨c, rest, e, hc⟩ := hp
    simp only [Thread.step, Go.ok.injEq, Prod.mk.injEq] at hs
    refine same hs.2.symm (hs.1 ▸ ?_)
    cases hk : m.kagome with
    | true =>
      have em : m.ready = m := by
        cases m
        simp only at hk
        simp [Memory.ready, hk]
      rw [em] at hc
      exact h.ret e hc
    | false => exact h.goto ⟨c, rest, e, hc⟩
  | make r =>
    obtain ⟨c, rest, e, hc⟩ := hp
    simp only [Thread.step, Go.ok.injEq, Prod.mk.injEq] at hs
    obtain ⟨rfl, rfl⟩ := hs
    have hext : Ext m m.ready := ⟨fun _ h => h, fun _ => rfl⟩
    exact ⟨⟨hg.cache, hg.registry⟩, hext, (h.mono hg.cache (m' := m.ready) hg.cache hext).ret e hc⟩
  | look done x ts =>
    obtain ⟨c, rest, e, hc⟩ := hp
    simp only [Thread.step] at hs
    split at hs
    · simp only [Go.ok.injEq, Prod.mk.injEq] at hs
      exact same hs.2.symm (hs.1 ▸ h.removing e hc _ _)
    · simp only [Go.ok.injEq, Prod.mk.injEq] at hs
      exact same hs.2.symm (hs.1 ▸ h.goto ⟨c, rest, e, hc⟩)
  | add done x ts =>
    obtain ⟨c, rest, e, hc⟩ := hp
    simp only [Thread.step, Go.ok.injEq, Prod.mk.injEq] at hs
    obtain ⟨rfl, rfl⟩ := hs
    have hext : Ext m { m with registry := mapSet m.registry x.scheme x } := ⟨fun _ h => h, id⟩
    refine ⟨⟨hg.cache, ?_⟩, hext, (Left.mono hg.cache (m' := { m with registry := mapSet m.registry x.scheme x }) hg.cache hext h).installing e hc _ _⟩
    intro y hy
    rcases List.mem_cons.1 hy with rfl | hy
    · rfl
    · exact hg.registry y (List.mem_filter.1 hy).1
  | find s ss last =>
    obtain ⟨c, rest, e, hc⟩ := hp
    simp only [Thread.step] at hs
    split at hs
    · simp only [Go.ok.injEq, Prod.mk.injEq] at hs
      exact same hs.2.symm (hs.1 ▸ h.goto ⟨c, rest, e, hc⟩)
    · simp only [Go.ok.injEq, Prod.mk.injEq] at hs
      exact same hs.2.symm (hs.1 ▸ h.removing e hc _ _)
  | delete s ss last =>
    obtain ⟨c, rest, e, hc⟩ := hp
    simp only [Thread.step, Go.ok.injEq, Prod.mk.injEq] at hs
    obtain ⟨rfl, rfl⟩ := hs
    have hext : Ext m { m with registry := mapDelete m.registry s } := ⟨fun _ h => h, id⟩
    refine ⟨⟨hg.cache, ?_⟩, hext, (Left.mono hg.cache (m' := { m with registry := mapDelete m.registry s }) hg.cache hext h).removing e hc _ _⟩
    exact fun y hy => hg.registry y (List.mem_filter.1 hy).1

theorem Left.reach {m : Memory} (hg : Good m) {progs : List (List Call)} (h : ∀ p ∈ progs, ∀ c ∈ p, ∀ lang, c ≠ .unload lang)
    {c : Machine} (hr : Reach bundled ⟨m, progs.map Spec.Goroutines.routine⟩ c) :
    Good c.memory ∧ c.threads.length = progs.length ∧
      ∀ (i : Nat) p t, progs[i]? = some p → c.threads[i]? = some t → Left c.memory p t := by
  generalize hc0 : (⟨m, progs.map Spec.Goroutines.routine⟩ : Machine) = c0 at hr
  induction hr with
  | refl =>
    subst hc0
    refine ⟨hg, by simp, fun i p t hp ht => ?_⟩
    simp only [List.getElem?_map, hp, Option.map_some, Option.some.injEq] at ht
    subst ht
    exact ⟨⟨[], rfl, .nil⟩, h p (List.mem_of_getElem? hp), trivial⟩
  | @step b _ _ s ih =>
    obtain ⟨h1, h2, h3⟩ := ih
    cases s with
    | @mk i t t' o m' ho hi hs =>
      have hlt : i < b.threads.length := (List.getElem?_eq_some_iff.1 hi).1
      have hp : progs[i]? = some progs[i] := List.getElem?_eq_getElem (h2 ▸ hlt)
      obtain ⟨hg', he, hinv'⟩ := (h3 i _ t hp hi).step h1 ho hs
      refine ⟨hg', by simpa using h2, fun j p u hj hu => ?_⟩
      rw [List.getElem?_set] at hu
      by_cases hij : i = j
      · subst hij
        simp only [if_pos, hlt, Option.some.injEq] at hu
        subst hu
        rw [hp, Option.some.injEq] at hj
        exact hj ▸ hinv'
      · rw [if_neg hij] at hu
        exact (h3 j p u hj hu).mono h1.cache hg'.cache he

end Verif.Goroutines
