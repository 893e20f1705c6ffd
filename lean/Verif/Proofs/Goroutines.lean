import Verif.Spec.Goroutines
import Verif.Proofs.Api
import Mathlib.Data.List.Forall2

/-! # Goroutines which share the library -/

namespace Verif.Goroutines

open Verif.Spec.Goroutines

theorem mem_of_lookup {α : Type} {k : Bytes} {v : α} : ∀ {l : List (Bytes × α)}, l.lookup k = some v → (k, v) ∈ l
  | [], h => by simp at h
  | (a, b) :: l, h => by
    rw [List.lookup_cons] at h
    by_cases e : k = a
    · subst e
      simp only [beq_self_eq_true, Option.some.injEq] at h
      simp [h]
    · have : (k == a) = false := by simpa using e
      rw [this] at h
      simp [mem_of_lookup h]

/-- Without the scheme of the tokenizer it is not used. -/
theorem tokenizes_false {r : Registry} (hr : Consistent r) : ∀ {ss : List Bytes} {word : Bytes}, str "furigana" ∉ ss →
    tokenizes r ss word = false
  | [], _, _ => rfl
  | s :: ss, word, h => by
    simp only [tokenizes]
    cases hl : r.lookup s with
    | none => rfl
    | some t =>
      have e : t.scheme = s := hr _ (mem_of_lookup hl)
      have h1 : (t.scheme == str "furigana") = false := by
        rw [e]
        simpa using fun e' : s = str "furigana" => h (by simp [e'])
      simp only [h1, Bool.false_or]
      cases t.transliterate word with
      | ok w => exact tokenizes_false hr fun h' => h (by simp [h'])
      | _ => rfl

theorem consistent_detach {r : Registry} (h : Consistent r) : Consistent r.detach := by
  induction r with
  | nil => exact h
  | cons p r ih =>
    have ih := ih fun x hx => h x (by simp [hx])
    simp only [Registry.detach] at ih
    simp only [Registry.detach, List.foldr_cons, mapSet]
    intro x hx
    rcases List.mem_cons.1 hx with rfl | hx
    · exact h p (by simp)
    · exact ih x (List.mem_filter.1 hx).1

/-- Where a goroutine is if it makes calm calls only. -/
def Place (files : Files) (m : Memory) (t : Thread) : Prop :=
  match t.pc with
  | .start => True
  | .detach sp => ∃ lang word rest, t.todo = .hangulize lang word :: rest ∧ m.specs.lookup lang = some sp ∧
    (m.kagome = true ∨ str "furigana" ∉ sp.lang.translit)
  | .check r => ∃ c rest, t.todo = c :: rest ∧ Alone files m c (.word r) ∧ m.kagome = true
  | _ => False

/-- What holds for a goroutine with given calls. -/
structure Inv (files : Files) (m : Memory) (calls : List Call) (t : Thread) : Prop where
  done : ∃ done, calls = done ++ t.todo ∧ List.Forall₂ (Alone files m) done t.results
  calm : ∀ c ∈ t.todo, Calm files m c
  place : Place files m t

theorem Inv.routine {files : Files} {m : Memory} {calls : List Call} (h : ∀ c ∈ calls, Calm files m c) :
    Inv files m calls (Spec.Goroutines.routine calls) :=
  ⟨⟨[], rfl, .nil⟩, h, trivial⟩

theorem Inv.ret {files : Files} {m : Memory} {calls : List Call} {t : Thread} (h : Inv files m calls t) {c : Call} {rest : List Call}
    (ht : t.todo = c :: rest) {r : Res} (hr : Alone files m c r) : Inv files m calls (t.ret r) := by
  obtain ⟨⟨done, h1, h2⟩, h3, _⟩ := h
  rw [ht] at h1 h3
  refine ⟨⟨done ++ [c], ?_, ?_⟩, ?_, trivial⟩
  · simp [Thread.ret, ht, h1]
  · exact List.rel_append h2 (.cons hr .nil)
  · simp only [Thread.ret, ht, List.tail_cons]
    exact fun c hc => h3 c (by simp [hc])

/-- `Hangulize` up to the tokenizer. -/
theorem Inv.forward {files : Files} {m : Memory} {calls : List Call} {t t' : Thread} (h : Inv files m calls t) {c : Call}
    {rest : List Call} (ht : t.todo = c :: rest) {sp : Spec} {translits : Registry} {word : Bytes}
    (ha : ∀ r, wordErr (Verif.forward sp translits word none).1 = .ok r → Alone files m c (.word r))
    (hk : m.kagome = true ∨ tokenizes translits sp.lang.translit word = false) (hf : t.forward sp translits word = .ok t') :
    Inv files m calls t' := by
  simp only [Thread.forward] at hf
  cases hw : wordErr (Verif.forward sp translits word none).1 with
  | ok r =>
    rw [hw] at hf
    change Go.ok _ = _ at hf
    simp only [Go.ok.injEq] at hf
    cases htk : tokenizes translits sp.lang.translit word with
    | false =>
      rw [htk] at hf
      subst hf
      exact h.ret ht (ha r hw)
    | true =>
      rw [htk] at hf
      subst hf
      have hk : m.kagome = true := by simpa [htk] using hk
      exact ⟨h.done, h.calm, c, rest, ht, ha r hw, hk⟩
  | err e => rw [hw] at hf; exact absurd hf (by simp [bind, Go.bind])
  | panic => rw [hw] at hf; exact absurd hf (by simp [bind, Go.bind])
  | hang => rw [hw] at hf; exact absurd hf (by simp [bind, Go.bind])

theorem Inv.step {files : Files} {m : Memory} (hm : Consistent m.registry) {calls : List Call} {t t' : Thread}
    (h : Inv files m calls t) {o : Ord} (ho : o.Ok) {m' : Memory} (hs : t.step files o m = .ok (t', m')) :
    m' = m ∧ Inv files m calls t' := by
  obtain ⟨pc, todo, results⟩ := t
  have hp := h.place
  cases pc with
  | start =>
    cases todo with
    | nil =>
      simp only [Thread.step, Go.ok.injEq, Prod.mk.injEq] at hs
      exact ⟨hs.2.symm, hs.1 ▸ h⟩
    | cons c todo =>
      have hc := h.calm c (by simp)
      cases c with
      | load lang =>
        simp only [Thread.step, Thread.load, Thread.lang] at hs
        cases hl : m.specs.lookup lang with
        | some sp =>
          rw [hl] at hs
          change Go.ok _ = _ at hs
          simp only [Go.ok.injEq, Prod.mk.injEq] at hs
          refine ⟨hs.2.symm, hs.1 ▸ ?_⟩
          exact h.ret (r := .spec (.inl sp)) rfl ⟨o, world m, ho, by simp [Verif.call, loadSpec, world, hl, bind, Go.bind, pure]⟩
        | none =>
          have hf : files lang = none := by simpa [Calm, hl] using hc
          rw [hl] at hs
          simp only [hf] at hs
          change Go.ok _ = _ at hs
          simp only [Go.ok.injEq, Prod.mk.injEq] at hs
          refine ⟨hs.2.symm, hs.1 ▸ ?_⟩
          exact h.ret (r := .spec (.inr .specNotFound)) rfl
            ⟨o, world m, ho, by simp [Verif.call, loadSpec, world, hl, hf, bind, Go.bind, pure]⟩
      | hangulize lang word =>
        simp only [Thread.step, Thread.load, Thread.lang] at hs
        rcases hc with ⟨hl, hf⟩ | ⟨sp, hl, hk⟩
        · rw [hl] at hs
          simp only [hf] at hs
          change Go.ok _ = _ at hs
          simp only [Go.ok.injEq, Prod.mk.injEq] at hs
          refine ⟨hs.2.symm, hs.1 ▸ ?_⟩
          exact h.ret (r := .word (word, some .specNotFound)) rfl
            ⟨o, world m, ho, by simp [Verif.call, loadSpec, world, hl, hf, bind, Go.bind, pure]⟩
        · rw [hl] at hs
          change Go.ok _ = _ at hs
          simp only [Go.ok.injEq, Prod.mk.injEq] at hs
          refine ⟨hs.2.symm, hs.1 ▸ ?_⟩
          exact ⟨h.done, h.calm, lang, word, todo, rfl, hl, hk⟩
      | unload lang => exact hc.elim
      | install ts => exact hc.elim
      | unuse s => exact hc.elim
      | run sp translits word =>
        obtain ⟨h1, h2⟩ := hc
        simp only [Thread.step, Go.bind_eq_ok, Go.pure_eq, Go.ok.injEq, Prod.mk.injEq] at hs
        obtain ⟨t1, ht1, e1, e2⟩ := hs
        refine ⟨e2.symm, e1 ▸ h.forward rfl (fun r hr => hr) ?_ ht1⟩
        exact h2.imp id (tokenizes_false h1)
  | detach sp =>
    obtain ⟨lang, word, rest, e, hl, hk⟩ := hp
    simp only at e
    subst e
    simp only [Thread.step, Go.bind_eq_ok, Go.pure_eq, Go.ok.injEq, Prod.mk.injEq] at hs
    obtain ⟨t1, ht1, e1, e2⟩ := hs
    refine ⟨e2.symm, e1 ▸ h.forward rfl (fun r hr => ?_) ?_ ht1⟩
    · refine ⟨o, world m, ho, ?_⟩
      have e3 : (world m).map 0 = m.registry := rfl
      have e4 : (world m).specs = m.specs := rfl
      have e5 : loadSpec files o lang m.specs = .ok (.inl sp, m.specs) := by simp [loadSpec, hl]
      simp [Verif.call, e3, e4, e5, hr]
      rfl
    · exact hk.imp id (tokenizes_false (consistent_detach hm))
  | check r =>
    obtain ⟨c, rest, e, ha, hk⟩ := hp
    simp only [Thread.step, hk, if_true, Go.ok.injEq, Prod.mk.injEq] at hs
    exact ⟨hs.2.symm, hs.1 ▸ h.ret e ha⟩
  | store => exact hp.elim
  | make => exact hp.elim
  | look => exact hp.elim
  | add => exact hp.elim
  | find => exact hp.elim
  | delete => exact hp.elim

/-- Such goroutines never write. -/
theorem Inv.reads {files : Files} {m : Memory} {calls : List Call} {t : Thread} (h : Inv files m calls t) (x : Loc) :
    t.next ≠ some (x, .write) := by
  obtain ⟨pc, todo, results⟩ := t
  have hp := h.place
  cases pc with
  | start =>
    cases todo with
    | nil => simp [Thread.next]
    | cons c todo =>
      have hc := h.calm c (by simp)
      cases c <;> first | exact hc.elim | simp [Thread.next]
  | detach => simp [Thread.next]
  | check => simp [Thread.next]
  | _ => exact hp.elim

theorem Inv.reach {files : Files} {m : Memory} (hm : Consistent m.registry) {progs : List (List Call)}
    (h : ∀ p ∈ progs, ∀ c ∈ p, Calm files m c) {c : Machine} (hr : Reach files ⟨m, progs.map Spec.Goroutines.routine⟩ c) :
    c.memory = m ∧ c.threads.length = progs.length ∧
      ∀ (i : Nat) p t, progs[i]? = some p → c.threads[i]? = some t → Inv files m p t := by
  generalize hc0 : (⟨m, progs.map Spec.Goroutines.routine⟩ : Machine) = c0 at hr
  induction hr with
  | refl =>
    subst hc0
    refine ⟨rfl, by simp, fun i p t hp ht => ?_⟩
    simp only [List.getElem?_map, hp, Option.map_some, Option.some.injEq] at ht
    subst ht
    exact Inv.routine (h p (List.mem_of_getElem? hp))
  | @step b _ _ s ih =>
    obtain ⟨h1, h2, h3⟩ := ih
    cases s with
    | @mk i t t' o m' ho hi hs =>
      have hlt : i < b.threads.length := (List.getElem?_eq_some_iff.1 hi).1
      have hp : progs[i]? = some progs[i] := List.getElem?_eq_getElem (h2 ▸ hlt)
      have hinv := h3 i _ t hp hi
      rw [h1] at hs
      obtain ⟨e, hinv'⟩ := hinv.step hm ho hs
      refine ⟨e, by simpa using h2, fun j p u hj hu => ?_⟩
      rw [List.getElem?_set] at hu
      by_cases hij : i = j
      · subst hij
        simp only [if_pos, hlt, Option.some.injEq] at hu
        subst hu
        rw [hp, Option.some.injEq] at hj
        exact hj ▸ hinv'
      · rw [if_neg hij] at hu
        exact h3 j p u hj hu

end Verif.Goroutines
