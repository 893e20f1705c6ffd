import Verif.Proofs.Single
import Verif.Proofs.Warm
import Verif.Props.Wasm

/-! # Property C92: goroutines which share the library -/

namespace Verif.Props

open Verif.Goroutines Verif.Spec.Goroutines Verif.Spec.Bundle Verif.Specs

/-- C92: goroutines which use only specs that are cached or do not exist, and the tokenizer only if it has been made, never access a
shared variable in a conflicting way; all calls return what they would return in a program with one goroutine, and nothing changes. -/
theorem C92_calm {files : Files} {m : Memory} (hm : Consistent m.registry) {progs : List (List Goroutines.Call)}
    (h : ∀ p ∈ progs, ∀ c ∈ p, Calm files m c) {c : Goroutines.Machine} (hr : Goroutines.Reach files ⟨m, progs.map routine⟩ c) :
    ¬ c.Race ∧ c.memory = m ∧ ∀ (i : Nat) p t, progs[i]? = some p → c.threads[i]? = some t →
      ∃ done, p = done ++ t.todo ∧ List.Forall₂ (Alone files m) done t.results := by
  obtain ⟨h1, h2, h3⟩ := Inv.reach hm h hr
  refine ⟨?_, h1, fun i p t hp ht => (h3 i p t hp ht).done⟩
  rintro ⟨i, j, t, u, x, a, _, hi, _, hw, _⟩
  have hlt : i < progs.length := h2 ▸ (List.getElem?_eq_some_iff.1 hi).1
  exact (h3 i _ t (List.getElem?_eq_getElem hlt) hi).reads x hw

/-- Many goroutines with one spec which is cached, and a language which does not exist. -/
example (word : Bytes) : ∃ m : Memory, Consistent m.registry ∧ (m.specs.lookup (str "xx")).isSome = true ∧ ∀ n c,
    Goroutines.Reach bundle ⟨m, (List.replicate n [.load (str "xx"), .hangulize (str "xx") word, .hangulize (str "yy") word]).map routine⟩ c →
    ¬ c.Race := by
  obtain ⟨sp, hp⟩ : ∃ sp, parseSpec Ord.written greeting = .ok sp := by
    have h : ((parseSpec Ord.written greeting).bind fun sp => .ok sp.lang.codes.1) = .ok (str "xx") := by decide +kernel
    rw [Rx.go_bind_ok] at h
    obtain ⟨sp, h1, _⟩ := h
    exact ⟨sp, h1⟩
  have e : (str "yy" == str "xx") = false := by decide +kernel
  refine ⟨⟨[(str "xx", sp)], [], true⟩, by simp [Consistent], by simp, fun n c hr => ?_⟩
  refine (C92_calm (by simp [Consistent]) ?_ hr).1
  intro p hp c hc
  rw [List.eq_of_mem_replicate hp] at hc
  simp only [List.mem_cons, List.not_mem_nil, or_false] at hc
  rcases hc with rfl | rfl | rfl
  · exact .inl (by simp)
  · exact .inr ⟨sp, by simp, .inl rfl⟩
  · exact .inl ⟨by simp [List.lookup_cons, e], by decide +kernel⟩

/-- A call which cannot make the library panic or loop. -/
def Harmless : Goroutines.Call → Prop
  | .run sp translits _ => Loaded bundled sp ∧ ∀ s t, translits.lookup s = some t → Returns t
  | _ => True

/-- C92: with the bundled specs and translits which return, each of these goroutines can always go on, until it has made its calls. -/
theorem C92_bundled {m : Memory} (hm : Consistent m.registry) (hc : CacheOk bundled m.specs)
    (ht : ∀ s t, m.registry.lookup s = some t → Returns t) {progs : List (List Goroutines.Call)}
    (h : ∀ p ∈ progs, ∀ c ∈ p, Calm bundled m c) (hh : ∀ p ∈ progs, ∀ c ∈ p, Harmless c) {c : Goroutines.Machine}
    (hr : Goroutines.Reach bundled ⟨m, progs.map routine⟩ c) {t : Goroutines.Thread} (hmem : t ∈ c.threads) (o : Ord) :
    (∃ t' m', t.step bundled o c.memory = .ok (t', m')) ∧ (t.todo = [] → t.pc = .start) := by
  obtain ⟨h1, h2, h3⟩ := Inv.reach hm h hr
  obtain ⟨i, hlt, hi⟩ := List.getElem_of_mem hmem
  have hp : progs[i]? = some (progs[i]'(h2 ▸ hlt)) := List.getElem?_eq_getElem _
  have hinv := h3 i _ t hp (by rw [List.getElem?_eq_getElem hlt, hi])
  have hh := hh _ (List.mem_of_getElem? hp)
  obtain ⟨⟨done, e, _⟩, hcalm, hplace⟩ := hinv
  rw [e] at hh
  have run : ∀ (t : Goroutines.Thread) sp translits word, Loaded bundled sp → (∀ s t, translits.lookup s = some t → Returns t) →
      ∃ t', t.forward sp translits word = .ok t' := by
    intro t sp translits word hs hr
    obtain ⟨r, hr⟩ := wordErr_runs (loaded_runs hs hr word none)
    exact ⟨_, by simp only [Goroutines.Thread.forward, hr]; rfl⟩
  rw [h1]
  obtain ⟨pc, todo, results⟩ := t
  cases pc with
  | start =>
    refine ⟨?_, fun _ => rfl⟩
    cases todo with
    | nil => exact ⟨_, _, rfl⟩
    | cons c todo =>
      have hc' := hcalm c (by simp)
      cases c with
      | load lang =>
        simp only [Goroutines.Thread.step, Goroutines.Thread.load, Goroutines.Thread.lang]
        cases hl : m.specs.lookup lang with
        | some sp => exact ⟨_, _, rfl⟩
        | none =>
          have hf : bundled lang = none := by simpa [Calm, hl] using hc'
          simp only [hf]
          exact ⟨_, _, rfl⟩
      | hangulize lang word =>
        simp only [Goroutines.Thread.step, Goroutines.Thread.load, Goroutines.Thread.lang]
        rcases hc' with ⟨hl, hf⟩ | ⟨sp, hl, _⟩
        · simp only [hl, hf]
          exact ⟨_, _, rfl⟩
        · simp only [hl]
          exact ⟨_, _, rfl⟩
      | run sp translits word =>
        obtain ⟨h4, h5⟩ := hh (.run sp translits word) (by simp)
        obtain ⟨t', e⟩ := run ⟨.start, .run sp translits word :: todo, results⟩ sp translits word h4 h5
        simp only [Goroutines.Thread.step, e]
        exact ⟨_, _, rfl⟩
      | unload lang => exact hc'.elim
      | install ts => exact hc'.elim
      | unuse s => exact hc'.elim
  | detach sp =>
    obtain ⟨lang, word, rest, e1, hl, _⟩ := hplace
    simp only at e1
    subst e1
    obtain ⟨src, o', g1, g2, g3⟩ := hc lang sp hl
    obtain ⟨t', e⟩ := run ⟨.detach sp, .hangulize lang word :: rest, results⟩ sp m.registry.detach word ⟨lang, src, o', g1, g2, g3⟩
      (fun s t hs => ht s t (by rwa [lookup_detach] at hs))
    simp only [Goroutines.Thread.step, e]
    exact ⟨⟨_, _, rfl⟩, by simp⟩
  | check r =>
    obtain ⟨c, rest, e1, _, hk⟩ := hplace
    simp only at e1
    subst e1
    exact ⟨⟨_, _, rfl⟩, by simp⟩
  | store => exact hplace.elim
  | make => exact hplace.elim
  | look => exact hplace.elim
  | add => exact hplace.elim
  | find => exact hplace.elim
  | delete => exact hplace.elim

/-! ## What goes wrong -/

/-- The next goroutine to go. -/
theorem go {files : Files} {c0 c : Goroutines.Machine} (h : Goroutines.Reach files c0 c) (i : Nat) {t t' : Goroutines.Thread} {m : Memory}
    (hi : c.threads[i]? = some t) (hs : t.step files Ord.written c.memory = .ok (t', m)) :
    Goroutines.Reach files c0 ⟨m, c.threads.set i t'⟩ :=
  .step h (.mk i ⟨fun _ _ _ _ => .refl _, fun _ => .refl _⟩ hi hs)

/-- C92 fails for hangulizers which share nothing but the standard translits: two goroutines which hangulize Japanese words for the first time,
each with a hangulizer and translits of its own, may both be about to write the tokenizer of `furigana.T`. -/
theorem C92_tokenizer_refuted {l : Libraries} (hl : Reliable l) {sp : Spec} (hs : Loaded bundled sp)
    (hj : sp.lang.translit = [str "furigana"]) (m : Memory) (hk : m.kagome = false) (w1 w2 : Bytes) :
    ∃ c, Goroutines.Reach bundled ⟨m, [[.run sp (standardRegistry l) w1], [.run sp (standardRegistry l) w2]].map routine⟩ c ∧ c.Race := by
  have htok : ∀ w, tokenizes (standardRegistry l) sp.lang.translit w = true := by
    intro w
    have e : (standardRegistry l).lookup (str "furigana") = some (furigana l) :=
      standard_lookup (l := l) (t := furigana l) (by simp [standard])
    rw [hj, tokenizes, e]
    simp [furigana]
  have run : ∀ w, ∃ r, ∀ t : Goroutines.Thread, t.forward sp (standardRegistry l) w = .ok (t.goto (.check r)) := by
    intro w
    obtain ⟨out, h⟩ := loaded_succeeds hs hl (fun t ht => standard_lookup ht) w none
    exact ⟨(out, none), fun t => by simp only [Goroutines.Thread.forward, h, wordErr, htok]; rfl⟩
  obtain ⟨r1, e1⟩ := run w1
  obtain ⟨r2, e2⟩ := run w2
  have s1 := go (files := bundled) (.refl ⟨m, [[.run sp (standardRegistry l) w1], [.run sp (standardRegistry l) w2]].map routine⟩) 0 rfl
    (m := m) (t' := ⟨.check r1, _, []⟩) (by simp only [routine, Goroutines.Thread.step, e1]; rfl)
  have s2 := go s1 1 rfl (m := m) (t' := ⟨.check r2, _, []⟩) (by simp only [routine, Goroutines.Thread.step, e2]; rfl)
  have s3 := go s2 0 rfl (m := m) (t' := ⟨.make r1, _, []⟩) (by simp only [Goroutines.Thread.step, hk]; rfl)
  have s4 := go s3 1 rfl (m := m) (t' := ⟨.make r2, _, []⟩) (by simp only [Goroutines.Thread.step, hk]; rfl)
  exact ⟨_, s4, 0, 1, _, _, .kagome, .write, by simp, rfl, rfl, rfl, rfl⟩

theorem installing_pc (pc pc' : Goroutines.Pc) {todo : List Goroutines.Call} {rs : List Goroutines.Res} (done rest : List Translit) :
    (⟨pc', todo, rs⟩ : Goroutines.Thread).installing done rest = (⟨pc, todo, rs⟩ : Goroutines.Thread).installing done rest := by
  cases rest <;> rfl

/-- A goroutine installs further translits, of which none is registered, without anybody else. -/
theorem installs {files : Files} {c0 : Goroutines.Machine} {call : Goroutines.Call} {todo : List Goroutines.Call} {u : Goroutines.Thread} :
    ∀ (rest done : List Translit) (m : Memory), (rest.map (·.scheme)).Nodup → (∀ t ∈ rest, m.registry.lookup t.scheme = none) →
    Goroutines.Reach files c0 ⟨m, [(⟨.start, call :: todo, []⟩ : Goroutines.Thread).installing done rest, u]⟩ →
    ∃ m', Goroutines.Reach files c0 ⟨m', [⟨.start, todo, [.bool true]⟩, u]⟩ ∧
      (∀ s, s ∉ rest.map (·.scheme) → m'.registry.lookup s = m.registry.lookup s)
  | [], done, m, _, _, h => ⟨m, h, fun _ _ => rfl⟩
  | x :: rest, done, m, hn, hl, h => by
    simp only [List.map_cons, List.nodup_cons] at hn
    have s1 := go h 0 rfl (m := m) (t' := ⟨.add done x rest, call :: todo, []⟩) (by
      simp only [Goroutines.Thread.installing, Goroutines.Thread.goto, Goroutines.Thread.step, hl x (by simp)])
    have s2 := go s1 0 rfl (m := { m with registry := mapSet m.registry x.scheme x }) rfl
    obtain ⟨m', h1, h2⟩ := installs rest (done ++ [x]) { m with registry := mapSet m.registry x.scheme x } hn.2 (by
      intro t ht
      have e : t.scheme ≠ x.scheme := fun e => hn.1 (List.mem_map.2 ⟨t, ht, e⟩)
      rw [lookup_mapSet, if_neg e]
      exact hl t (by simp [ht])) (installing_pc .start (.add done x rest) _ _ ▸ s2)
    refine ⟨m', h1, fun s hs => ?_⟩
    simp only [List.map_cons, List.mem_cons, not_or] at hs
    rw [h2 s hs.2, lookup_mapSet, if_neg hs.1]

/-- C92 fails for `Install`: if two goroutines install the translits, one of them may be told that all are installed, although the
other one has removed the first one again. -/
theorem C92_install_refuted {files : Files} {a b : Translit} {rest : List Translit} (hn : ((a :: b :: rest).map (·.scheme)).Nodup)
    (m : Memory) (he : m.registry = []) :
    ∃ c, Goroutines.Reach files ⟨m, [[.install (a :: b :: rest)], [.install (a :: b :: rest)]].map routine⟩ c ∧
      c.threads.map (·.results) = [[.bool true], [.bool false]] ∧ c.threads.map (·.todo) = [[], []] ∧
      c.memory.registry.lookup a.scheme = none := by
  have hab : b.scheme ≠ a.scheme := by
    simp only [List.map_cons, List.nodup_cons, List.mem_cons, not_or] at hn
    exact fun e => hn.1.1 e.symm
  obtain ⟨specs, registry, kagome⟩ := m
  simp only at he
  subst he
  have s1 := go (files := files) (.refl ⟨⟨specs, [], kagome⟩, [[.install (a :: b :: rest)], [.install (a :: b :: rest)]].map routine⟩) 0 rfl
    (t' := ⟨.look [] a (b :: rest), _, []⟩) rfl
  have s2 := go s1 1 rfl (t' := ⟨.look [] a (b :: rest), _, []⟩) rfl
  have s3 := go s2 0 rfl (t' := ⟨.add [] a (b :: rest), _, []⟩) rfl
  have s4 := go s3 1 rfl (t' := ⟨.add [] a (b :: rest), _, []⟩) rfl
  have s5 := go s4 0 rfl (t' := ⟨.look [a] b rest, _, []⟩) rfl
  have s6 := go s5 1 rfl (t' := ⟨.look [a] b rest, _, []⟩) rfl
  have l1 : (mapSet (mapSet [] a.scheme a) a.scheme a).lookup b.scheme = none := by
    rw [lookup_mapSet, if_neg hab, lookup_mapSet, if_neg hab]; rfl
  have s7 := go s6 0 rfl (t' := ⟨.add [a] b rest, _, []⟩) (by simp only [Goroutines.Thread.step, l1]; rfl)
  have s8 := go s7 0 rfl (t' := (⟨.add [a] b rest, [.install (a :: b :: rest)], []⟩ : Goroutines.Thread).installing [a, b] rest) rfl
  rw [installing_pc .start (.add [a] b rest)] at s8
  have l2 : (mapSet (mapSet (mapSet [] a.scheme a) a.scheme a) b.scheme b).lookup b.scheme = some b := by
    rw [lookup_mapSet, if_pos rfl]
  have l3 : (mapSet (mapSet (mapSet [] a.scheme a) a.scheme a) b.scheme b).lookup a.scheme = some a := by
    rw [lookup_mapSet, if_neg (Ne.symm hab), lookup_mapSet, if_pos rfl]
  have s9 := go s8 1 rfl (t' := ⟨.find a.scheme [] (some false), _, []⟩) (by simp only [Goroutines.Thread.step, l2]; rfl)
  have s10 := go s9 1 rfl (t' := ⟨.delete a.scheme [] (some false), _, []⟩) (by simp only [Goroutines.Thread.step, l3]; rfl)
  have s11 := go s10 1 rfl (t' := ⟨.start, [], [.bool false]⟩) rfl
  obtain ⟨m', h1, h2⟩ := installs (u := ⟨.start, [], [.bool false]⟩) rest [a, b] _ (by
    simp only [List.map_cons, List.nodup_cons] at hn
    exact hn.2.2) (by
    intro t ht
    simp only [List.map_cons, List.nodup_cons, List.mem_cons, not_or] at hn
    have e1 : t.scheme ≠ a.scheme := fun e => hn.1.2 (e ▸ List.mem_map_of_mem ht)
    have e2 : t.scheme ≠ b.scheme := fun e => hn.2.1 (e ▸ List.mem_map_of_mem ht)
    simp only [lookup_mapDelete, lookup_mapSet, if_neg e1, if_neg e2]
    rfl) s11
  refine ⟨_, h1, rfl, rfl, ?_⟩
  rw [h2 _ (by
    simp only [List.map_cons, List.nodup_cons, List.mem_cons, not_or] at hn
    exact hn.1.2)]
  simp [lookup_mapDelete]

/-- So it does for the standard translits. -/
example (l : Libraries) : ∃ c, Goroutines.Reach bundled ⟨⟨[], [], false⟩, [[.install (standard l)], [.install (standard l)]].map routine⟩ c ∧
    c.threads.map (·.results) = [[.bool true], [.bool false]] ∧ c.threads.map (·.todo) = [[], []] ∧
    c.memory.registry.lookup (str "furigana") = none :=
  C92_install_refuted (a := furigana l) (b := pinyin l) (rest := cyrillics l)
    (by have := schemes_eq l; simp only [standard, List.cons_append, List.nil_append] at this; rw [this]; decide +kernel) _ rfl

/-- C92: with the bundled specs, and if no goroutine unloads a spec, whatever has succeeded once is safe from then on: goroutines which
use the same specs and translits, with any words, never access a shared variable in a conflicting way, and change nothing. -/
theorem C92_warm {m : Memory} (hm : Consistent m.registry) (hc : CacheOk bundled m.specs) {progs : List (List Goroutines.Call)}
    (h : ∀ p ∈ progs, ∀ c ∈ p, ∀ lang, c ≠ .unload lang) {c : Goroutines.Machine}
    (hr : Goroutines.Reach bundled ⟨m, progs.map routine⟩ c) {progs' : List (List Goroutines.Call)}
    (h' : ∀ p ∈ progs', ∀ call ∈ p, ∃ (i : Nat) (p : List Goroutines.Call) (t : Goroutines.Thread) (k : Nat) (call₀ : Goroutines.Call)
      (r : Goroutines.Res), progs[i]? = some p ∧ c.threads[i]? = some t ∧ p[k]? = some call₀ ∧ t.results[k]? = some r ∧
      Succeeded call₀ r ∧ Covers call₀ call) {c' : Goroutines.Machine}
    (hr' : Goroutines.Reach bundled ⟨c.memory, progs'.map routine⟩ c') :
    ¬ c'.Race ∧ c'.memory = c.memory ∧ ∀ (i : Nat) p t, progs'[i]? = some p → c'.threads[i]? = some t →
      ∃ done, p = done ++ t.todo ∧ List.Forall₂ (Alone bundled c.memory) done t.results := by
  obtain ⟨hg, _, hl⟩ := Left.reach ⟨hc, hm⟩ h hr
  refine C92_calm hg.registry (fun p hp call hcall => ?_) hr'
  obtain ⟨i, p, t, k, call₀, r, h1, h2, h3, h4, h5, h6⟩ := h' p hp call hcall
  obtain ⟨⟨done, e, hd⟩, _, _⟩ := hl i p t h1 h2
  obtain ⟨hlen, hd⟩ := List.forall₂_iff_get.1 hd
  have hk : k < t.results.length := (List.getElem?_eq_some_iff.1 h4).1
  have hcalm := hd k (hlen ▸ hk) hk
  have e1 : done.get ⟨k, hlen ▸ hk⟩ = call₀ := by
    rw [e, List.getElem?_append_left (hlen ▸ hk), List.getElem?_eq_getElem (hlen ▸ hk), Option.some.injEq] at h3
    exact h3
  have e2 : t.results.get ⟨k, hk⟩ = r := by
    rw [List.getElem?_eq_getElem hk, Option.some.injEq] at h4
    exact h4
  rw [e1, e2] at hcalm
  have hcalm := hcalm h5
  cases h6 with
  | load => exact hcalm
  | hangulize => exact hcalm
  | spec lang word =>
    rcases hcalm with ⟨_, h⟩ | ⟨sp, h, _⟩
    · exact .inr h
    · exact .inl (by simp [h])
  | run => exact hcalm

/-- One goroutine hangulizes a word of any bundled language, then any number of goroutines hangulize words of it. -/
example {l : Libraries} (hl : Reliable l) {lang : Bytes} (hb : (bundled lang).isSome = true) (word : Bytes) :
    ∃ c out, Goroutines.Reach bundled ⟨⟨[], standardRegistry l, false⟩, [[.hangulize lang word]].map routine⟩ c ∧
      c.threads.map (·.results) = [[.word (out, none)]] ∧
      ∀ (words : List (List Bytes)) c', Goroutines.Reach bundled
        ⟨c.memory, (words.map fun ws => ws.map fun w => .hangulize lang w).map routine⟩ c' → ¬ c'.Race := by
  obtain ⟨src, hsrc⟩ := Option.isSome_iff_exists.1 hb
  obtain ⟨la, _, hsd⟩ := bundled_sound hsrc
  have ho : Ord.written.Ok := ⟨fun _ _ _ _ => .refl _, fun _ => .refl _⟩
  obtain ⟨sp, hp, _⟩ := hsd Ord.written ho
  have hs : Loaded bundled sp := ⟨lang, src, Ord.written, hsrc, ho, hp⟩
  obtain ⟨out, hf⟩ := loaded_succeeds (translits := (standardRegistry l).detach) hs hl
    (fun t ht => by rw [lookup_detach]; exact standard_lookup ht) word none
  have s1 := go (files := bundled) (.refl ⟨⟨[], standardRegistry l, false⟩, [[.hangulize lang word]].map routine⟩) 0 rfl
    (t' := ⟨.store sp, _, []⟩) (by
      simp only [routine, Goroutines.Thread.step, Goroutines.Thread.load, Goroutines.Thread.lang, List.lookup_nil, hsrc, hp]; rfl)
  have s2 := go s1 0 rfl (t' := ⟨.detach sp, _, []⟩) rfl
  have key : ∃ c, Goroutines.Reach bundled ⟨⟨[], standardRegistry l, false⟩, [[.hangulize lang word]].map routine⟩ c ∧
      c.threads = [⟨.start, [], [.word (out, none)]⟩] := by
    cases htk : tokenizes (standardRegistry l).detach sp.lang.translit word with
    | false =>
      have s3 := go s2 0 rfl (t' := ⟨.start, [], [.word (out, none)]⟩) (by
        simp only [Goroutines.Thread.step, Goroutines.Thread.forward, hf, wordErr, htk]; rfl)
      exact ⟨_, s3, rfl⟩
    | true =>
      have s3 := go s2 0 rfl (t' := ⟨.check (out, none), _, []⟩) (by
        simp only [Goroutines.Thread.step, Goroutines.Thread.forward, hf, wordErr, htk]; rfl)
      have s4 := go s3 0 rfl (t' := ⟨.make (out, none), _, []⟩) rfl
      have s5 := go s4 0 rfl (t' := ⟨.start, [], [.word (out, none)]⟩) rfl
      exact ⟨_, s5, rfl⟩
  obtain ⟨c, hr, e⟩ := key
  refine ⟨c, out, hr, by rw [e]; rfl, fun words c' hr' => ?_⟩
  refine (C92_warm (by simp [Consistent, standardRegistry]) ?_ ?_ hr ?_ hr').1
  · intro l sp h
    simp at h
  · simp
  · intro p hp call hcall
    obtain ⟨ws, _, rfl⟩ := List.mem_map.1 hp
    obtain ⟨w, _, rfl⟩ := List.mem_map.1 hcall
    exact ⟨0, _, _, 0, _, .word (out, none), rfl, by rw [e]; rfl, rfl, rfl, trivial, .hangulize lang word w⟩

/-- C92: a program with one goroutine, whatever it calls, is a sequence of calls of the library: whenever none of its calls is under
way, the shared variables are what the calls made of them one after another, and the results are those of the calls. -/
theorem C92_single {files : Files} {m : Memory} {calls : List Goroutines.Call} {c : Goroutines.Machine}
    (hr : Goroutines.Reach files ⟨m, [routine calls]⟩ c) :
    ∃ t, c.threads = [t] ∧ (t.pc = .start → ∃ done, calls = done ++ t.todo ∧ Serially files m done t.results c.memory) := by
  obtain ⟨t, e, done, m₀, h1, h2, h3⟩ := Single.reach hr
  refine ⟨t, e, fun hp => ⟨done, h1, ?_⟩⟩
  simp only [Within, hp] at h3
  rw [h3]
  exact h2

/-- Loads a spec, unloads it, and then installs two translits, removes one of them and fails to install both again: only the
other one remains. -/
example {sp : Spec} {src lang : Bytes} {a b : Translit} (hab : b.scheme ≠ a.scheme) :
    ∃ c, Goroutines.Reach (fun _ => some src) ⟨⟨[(lang, sp)], [], false⟩,
        [routine [.load lang, .unload lang, .install [a, b], .unuse a.scheme, .install [a, b]]]⟩ c ∧
      c.threads = [⟨.start, [], [.spec (.inl sp), .unit, .bool true, .bool true, .bool false]⟩] ∧ c.memory.specs = [] ∧
      c.memory.registry.lookup a.scheme = none ∧ c.memory.registry.lookup b.scheme = some b := by
  have s1 := go (files := fun _ => some src) (.refl ⟨⟨[(lang, sp)], [], false⟩,
    [routine [.load lang, .unload lang, .install [a, b], .unuse a.scheme, .install [a, b]]]⟩) 0 rfl
    (m := ⟨[(lang, sp)], [], false⟩) (t' := ⟨.start, [.unload lang, .install [a, b], .unuse a.scheme, .install [a, b]], [.spec (.inl sp)]⟩) (by
      simp [routine, Goroutines.Thread.step, Goroutines.Thread.load, Goroutines.Thread.lang, Goroutines.Thread.loaded, Goroutines.Thread.ret])
  have s2 := go s1 0 rfl (m := ⟨[], [], false⟩) (t' := ⟨.start, [.install [a, b], .unuse a.scheme, .install [a, b]], [.spec (.inl sp), .unit]⟩) (by
      simp [Goroutines.Thread.step, Goroutines.Thread.ret, mapDelete])
  have s3 := go s2 0 rfl (t' := ⟨.look [] a [b], _, [.spec (.inl sp), .unit]⟩) rfl
  have s4 := go s3 0 rfl (t' := ⟨.add [] a [b], _, [.spec (.inl sp), .unit]⟩) rfl
  have s5 := go s4 0 rfl (t' := ⟨.look [a] b [], _, [.spec (.inl sp), .unit]⟩) rfl
  have l1 : (mapSet [] a.scheme a).lookup b.scheme = none := by
    rw [lookup_mapSet, if_neg hab]; rfl
  have s6 := go s5 0 rfl (t' := ⟨.add [a] b [], _, [.spec (.inl sp), .unit]⟩) (by simp only [Goroutines.Thread.step, l1]; rfl)
  have s7 := go s6 0 rfl (t' := ⟨.start, _, [.spec (.inl sp), .unit, .bool true]⟩) rfl
  have s8 := go s7 0 rfl (t' := ⟨.find a.scheme [] none, _, [.spec (.inl sp), .unit, .bool true]⟩) rfl
  have l2 : (mapSet (mapSet [] a.scheme a) b.scheme b).lookup a.scheme = some a := by
    rw [lookup_mapSet, if_neg (Ne.symm hab), lookup_mapSet, if_pos rfl]
  have s9 := go s8 0 rfl (t' := ⟨.delete a.scheme [] none, _, [.spec (.inl sp), .unit, .bool true]⟩) (by
    simp only [Goroutines.Thread.step, l2]; rfl)
  have s10 := go s9 0 rfl (t' := ⟨.start, _, [.spec (.inl sp), .unit, .bool true, .bool true]⟩) rfl
  have s11 := go s10 0 rfl (t' := ⟨.look [] a [b], _, [.spec (.inl sp), .unit, .bool true, .bool true]⟩) rfl
  have l3 : (mapDelete (mapSet (mapSet [] a.scheme a) b.scheme b) a.scheme).lookup a.scheme = none := by
    simp [lookup_mapDelete]
  have s12 := go s11 0 rfl (t' := ⟨.add [] a [b], _, [.spec (.inl sp), .unit, .bool true, .bool true]⟩) (by
    simp only [Goroutines.Thread.step, l3]; rfl)
  have s13 := go s12 0 rfl (t' := ⟨.look [a] b [], _, [.spec (.inl sp), .unit, .bool true, .bool true]⟩) rfl
  have l4 : (mapSet (mapDelete (mapSet (mapSet [] a.scheme a) b.scheme b) a.scheme) a.scheme a).lookup b.scheme = some b := by
    rw [lookup_mapSet, if_neg hab, lookup_mapDelete, if_neg hab, lookup_mapSet, if_pos rfl]
  have l5 : (mapSet (mapDelete (mapSet (mapSet [] a.scheme a) b.scheme b) a.scheme) a.scheme a).lookup a.scheme = some a := by
    rw [lookup_mapSet, if_pos rfl]
  have s14 := go s13 0 rfl (t' := ⟨.find a.scheme [] (some false), _, [.spec (.inl sp), .unit, .bool true, .bool true]⟩) (by
    simp only [Goroutines.Thread.step, l4]; rfl)
  have s15 := go s14 0 rfl (t' := ⟨.delete a.scheme [] (some false), _, [.spec (.inl sp), .unit, .bool true, .bool true]⟩) (by
    simp only [Goroutines.Thread.step, l5]; rfl)
  have s16 := go s15 0 rfl
    (m := ⟨[], mapDelete (mapSet (mapDelete (mapSet (mapSet [] a.scheme a) b.scheme b) a.scheme) a.scheme a) a.scheme, false⟩) (t' := ⟨.start, [], [.spec (.inl sp), .unit, .bool true, .bool true, .bool false]⟩) rfl
  refine ⟨_, s16, by simp only [List.set_cons_zero], by simp only, ?_, ?_⟩
  · simp only [lookup_mapDelete, if_true]
  · simp only
    rw [lookup_mapDelete, if_neg hab]
    exact l4

end Verif.Props
