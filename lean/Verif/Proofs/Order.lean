import Verif.Props.SpecFile
import Verif.Proofs.Bundle
import Verif.Proofs.Api
import Verif.Spec.Order

/-! Specs parsed with different orders of iteration over maps. -/

namespace Verif

open Hsl Verif.Spec.Strings Verif.Spec.Order

/-- With at most one macro, only the order of the replaced letters differs. -/
theorem parseSpec_order {o o' : Ord} (ho : o.Ok) (ho' : o'.Ok) {src : Bytes} {sp sp' : Spec}
    (h : parseSpec o src = .ok sp) (h' : parseSpec o' src = .ok sp') (hm : sp.macros.length ≤ 1) :
    sp' = { sp with normPairs := sp'.normPairs } := by
  obtain ⟨d, hd, l1, c1, m1, v1, n1, ⟨rp, r1, rr1⟩, ⟨tp, t1, tt1⟩, x1, s1, so1, p1, np1, nl1⟩ := parseSpec_fields h
  obtain ⟨d', hd', l2, c2, m2, v2, n2, ⟨rp', r2, rr2⟩, ⟨tp', t2, tt2⟩, x2, s2, so2, p2, np2, nl2⟩ := parseSpec_fields h'
  rw [hd, Go.ok.injEq] at hd'
  subst hd'
  rw [l1, Go.ok.injEq] at l2
  rw [c1, Go.ok.injEq] at c2
  rw [m1, Go.ok.injEq] at m2
  rw [v1, Go.ok.injEq] at v2
  rw [n1, Go.ok.injEq] at n2
  rw [r1, Go.ok.injEq] at r2
  rw [t1, Go.ok.injEq] at t2
  rw [x1, Go.ok.injEq] at x2
  subst r2 t2
  rw [← l2, s1, Option.some.injEq] at s2
  have key : ∀ (s : RuleSection) (ps : List Pair) (i : Nat),
      newRulesLoop (o'.macros s) sp.macros sp.vars i ps = newRulesLoop (o.macros s) sp.macros sp.vars i ps := by
    intro s ps
    induction ps with
    | nil => intro i; rfl
    | cons p ps ih =>
      intro i
      simp only [newRulesLoop, perm_of_short (ho.1 _ _ _ sp.macros) hm, perm_of_short (ho'.1 _ _ _ sp.macros) hm, ih]
  rw [← m2, ← v2, key, rr1, Go.ok.injEq] at rr2
  rw [← m2, ← v2, key, tt1, Go.ok.injEq] at tt2
  obtain ⟨lang, config, macros, vars, normalize, rewrite, transcribe, test, source, script, puncts, normPairs, normLetters⟩ := sp'
  simp only at l2 c2 m2 v2 n2 rr2 tt2 x2 s2 so2 p2 np2 nl2
  subst l2 c2 m2 v2 n2 rr2 tt2 x2 s2 so2 p2 nl2
  simp only [so1, p1, nl1]

/-- If moreover no replaced letter is a prefix of another one, both work in the same way. -/
theorem forward_order {o o' : Ord} (ho : o.Ok) (ho' : o'.Ok) {src : Bytes} {sp sp' : Spec}
    (h : parseSpec o src = .ok sp) (h' : parseSpec o' src = .ok sp') (hm : sp.macros.length ≤ 1)
    (hf : PrefixFree (normArgs sp.normalize)) (translits : List (Bytes × Translit)) (word : Bytes) (tr : Tracer) :
    forward sp' translits word tr = forward sp translits word tr := by
  have e := Props.C28_order_partial ho ho' h h' hf
  have e' := parseSpec_order ho ho' h h' hm
  obtain ⟨np, hnp⟩ : ∃ np, sp'.normPairs = np := ⟨_, rfl⟩
  rw [hnp] at e'
  subst e'
  have p : ∀ w, partition { sp with normPairs := np } w = partition sp w := fun _ => rfl
  have r : ∀ w tr, rewriteStep { sp with normPairs := np } w tr = rewriteStep sp w tr := fun _ _ => rfl
  have t : ∀ w tr, transcribeStep { sp with normPairs := np } w tr = transcribeStep sp w tr := fun _ _ => rfl
  have l : ∀ w tr, localizeStep { sp with normPairs := np } w tr = localizeStep sp w tr := fun _ _ => rfl
  simp only [forward, afterTranslit, e, p, r, t, l]

/-! ## Programs -/

/-- All files are specs with at most one macro, and no replaced letter is a prefix of another one. -/
def Steady (files : Files) : Prop :=
  ∀ lang src, files lang = some src → ∀ o : Ord, o.Ok →
    ∃ sp, parseSpec o src = .ok sp ∧ sp.macros.length ≤ 1 ∧ PrefixFree (normArgs sp.normalize)

theorem Steady.forward {files : Files} (hs : Steady files) {sp sp' : Spec} (h : Twins files sp sp')
    (translits : List (Bytes × Translit)) (word : Bytes) (tr : Tracer) :
    Verif.forward sp' translits word tr = Verif.forward sp translits word tr := by
  obtain ⟨lang, src, o, o', h1, h2, h3, h4, h5⟩ := h
  obtain ⟨sp1, h6, h7, h8⟩ := hs lang src h1 o h2
  rw [h4, Go.ok.injEq] at h6
  subst h6
  exact forward_order h2 h3 h4 h5 h7 h8 translits word tr

/-- Hangulizers of two runs. -/
def SameObj (files : Files) (a b : Obj) : Prop :=
  Twins files a.spec b.spec ∧ b.registry = a.registry ∧ b.traceFunc = a.traceFunc

/-- States of two runs. -/
structure SameWorld (files : Files) (w w' : World) : Prop where
  maps : w'.maps = w.maps
  given : w'.given = w.given
  log : w'.log = w.log
  objs : Alike (SameObj files) w.objs w'.objs
  specs : ∀ lang, Both (Twins files) (w.specs.lookup lang) (w'.specs.lookup lang)

theorem Spec.Order.Alike.length {α : Type} {R : α → α → Prop} {as bs : List α} (h : Alike R as bs) : bs.length = as.length := by
  induction h with
  | nil => rfl
  | cons _ _ ih => simp [ih]

theorem Spec.Order.Alike.get {α : Type} {R : α → α → Prop} {as bs : List α} (h : Alike R as bs) (i : Nat) :
    Both R as[i]? bs[i]? := by
  induction h generalizing i with
  | nil => exact .none
  | cons h _ ih =>
    cases i with
    | zero => exact .some h
    | succ i => exact ih i

theorem Spec.Order.Alike.snoc {α : Type} {R : α → α → Prop} {as bs : List α} (h : Alike R as bs) {a b : α} (hab : R a b) :
    Alike R (as ++ [a]) (bs ++ [b]) := by
  induction h with
  | nil => exact .cons hab .nil
  | cons h _ ih => exact .cons h ih

theorem Spec.Order.Alike.set {α : Type} {R : α → α → Prop} {as bs : List α} (h : Alike R as bs) (i : Nat) {a b : α} (hab : R a b) :
    Alike R (as.set i a) (bs.set i b) := by
  induction h generalizing i with
  | nil => exact .nil
  | cons h t ih =>
    cases i with
    | zero => exact .cons hab t
    | succ i => exact .cons h (ih i)

theorem SameWorld.registry {files : Files} {w w' : World} (h : SameWorld files w w') (who : Option Nat) :
    w'.registry who = w.registry who := by
  cases who with
  | none => rfl
  | some k =>
    have := h.objs.get k
    simp only [World.registry]
    generalize w.objs[k]? = a at this ⊢
    generalize w'.objs[k]? = b at this ⊢
    cases this with
    | none => rfl
    | some h => simp [h.2.1]

theorem SameWorld.map {files : Files} {w w' : World} (h : SameWorld files w w') (a : Nat) : w'.map a = w.map a := by
  rw [World.map, World.map, h.maps]

/-- Specs or errors of two runs. -/
def SameSpec (files : Files) : Spec ⊕ Err → Spec ⊕ Err → Prop
  | .inl sp, .inl sp' => Twins files sp sp'
  | .inr e, .inr e' => e' = e
  | _, _ => False

theorem Steady.load {files : Files} (hs : Steady files) {o o' : Ord} (ho : o.Ok) (ho' : o'.Ok) (lang : Bytes)
    {specs specs' : Cache} (h : ∀ l, Both (Twins files) (specs.lookup l) (specs'.lookup l)) :
    ∃ r r' c c', loadSpec files o lang specs = .ok (r, c) ∧ loadSpec files o' lang specs' = .ok (r', c') ∧
      SameSpec files r r' ∧ ∀ l, Both (Twins files) (c.lookup l) (c'.lookup l) := by
  unfold loadSpec
  have hl := h lang
  generalize e : specs.lookup lang = a at hl ⊢
  generalize e' : specs'.lookup lang = b at hl ⊢
  cases hl with
  | some ht => exact ⟨_, _, _, _, rfl, rfl, ht, h⟩
  | none =>
    cases hf : files lang with
    | none => exact ⟨_, _, _, _, rfl, rfl, rfl, h⟩
    | some src =>
      obtain ⟨sp, h1, _⟩ := hs lang src hf o ho
      obtain ⟨sp', h2, _⟩ := hs lang src hf o' ho'
      simp only [h1, h2]
      have ht : Twins files sp sp' := ⟨lang, src, o, o', hf, ho, ho', h1, h2⟩
      refine ⟨_, _, _, _, rfl, rfl, ht, fun l => ?_⟩
      rw [lookup_mapSet, lookup_mapSet]
      split
      · exact .some ht
      · exact h l

theorem Steady.call {files : Files} (hs : Steady files) {w w' : World} (hw : SameWorld files w w') {c c' : Call}
    (hc : SameCall files c c') {w1 : World} {r : Res} (h : Verif.call files w c = .ok (w1, r)) :
    ∃ w1' r', Verif.call files w' c' = .ok (w1', r') ∧ SameWorld files w1 w1' ∧ SameRes files r r' := by
  obtain ⟨hm, hg, hlog, hobj, hspec⟩ := hw
  have hw : SameWorld files w w' := ⟨hm, hg, hlog, hobj, hspec⟩
  cases c with
  | loadSpec o lang =>
    cases c' with
    | loadSpec o' lang' =>
      obtain ⟨ho, ho', rfl⟩ := hc
      obtain ⟨x, x', s, s', h1, h2, h3, h4⟩ := hs.load ho ho' lang' hspec
      simp only [Verif.call, h1, Go.bind_ok, Go.pure_eq, Go.ok.injEq, Prod.mk.injEq] at h
      obtain ⟨rfl, rfl⟩ := h
      refine ⟨{ w' with specs := s' }, .spec x', by simp [Verif.call, h2], ⟨hm, hg, hlog, hobj, h4⟩, ?_⟩
      cases x <;> cases x' <;> simp_all [SameSpec, SameRes]
    | _ => simp [SameCall] at hc
  | hangulize o lang word =>
    cases c' with
    | hangulize o' lang' word' =>
      obtain ⟨ho, ho', rfl, rfl⟩ := hc
      obtain ⟨x, x', s, s', h1, h2, h3, h4⟩ := hs.load ho ho' lang' hspec
      cases x with
      | inr e =>
        cases x' with
        | inl _ => exact absurd h3 (by simp [SameSpec])
        | inr e' =>
          simp only [SameSpec] at h3
          subst h3
          simp only [Verif.call, h1, Go.bind_ok, Go.pure_eq, Go.ok.injEq, Prod.mk.injEq] at h
          obtain ⟨rfl, rfl⟩ := h
          exact ⟨{ w' with specs := s' }, _, by simp only [Verif.call, h2, Go.bind_ok, Go.pure_eq], ⟨hm, hg, hlog, hobj, h4⟩, rfl⟩
      | inl sp =>
        cases x' with
        | inr _ => exact absurd h3 (by simp [SameSpec])
        | inl sp' =>
          simp only [Verif.call, h1, Go.bind_ok, Go.pure_eq, Go.bind_eq_ok, Go.ok.injEq, Prod.mk.injEq] at h
          obtain ⟨y, h5, rfl, rfl⟩ := h
          refine ⟨{ w' with specs := s' }, .word y, ?_, ⟨hm, hg, hlog, hobj, h4⟩, rfl⟩
          simp only [Verif.call, h2, Go.bind_ok, Go.pure_eq, hw.map, hs.forward h3, h5]
    | _ => simp [SameCall] at hc
  | new sp =>
    cases c' with
    | new sp' =>
      simp only [Verif.call, Go.ok.injEq, Prod.mk.injEq] at h
      obtain ⟨rfl, rfl⟩ := h
      refine ⟨_, _, rfl, ⟨by simp [hm], hg, hlog, hobj.snoc ⟨hc, by simp [hm], rfl⟩, hspec⟩, ?_⟩
      simp [SameRes, hobj.length]
    | _ => simp [SameCall] at hc
  | unloadSpec lang =>
    obtain rfl : c' = .unloadSpec lang := by cases c' <;> simp_all [SameCall]
    simp only [Verif.call, Go.ok.injEq, Prod.mk.injEq] at h
    obtain ⟨rfl, rfl⟩ := h
    refine ⟨_, _, rfl, ⟨hm, hg, hlog, hobj, fun l => ?_⟩, rfl⟩
    simp only [lookup_mapDelete]
    split
    · exact .none
    · exact hspec l
  | useTranslit who t =>
    obtain rfl : c' = .useTranslit who t := by cases c' <;> simp_all [SameCall]
    simp only [Verif.call, hw.registry] at h ⊢
    split at h
    · simp only [Go.ok.injEq, Prod.mk.injEq] at h
      obtain ⟨rfl, rfl⟩ := h
      exact ⟨_, _, rfl, hw, rfl⟩
    · simp only [Go.ok.injEq, Prod.mk.injEq] at h
      obtain ⟨rfl, rfl⟩ := h
      refine ⟨_, _, rfl, ⟨by simp [hm, hw.map], hg, hlog, hobj, hspec⟩, by simp [SameRes, hw.map]⟩
  | unuseTranslit who s =>
    obtain rfl : c' = .unuseTranslit who s := by cases c' <;> simp_all [SameCall]
    simp only [Verif.call, hw.registry] at h ⊢
    split at h
    · simp only [Go.ok.injEq, Prod.mk.injEq] at h
      obtain ⟨rfl, rfl⟩ := h
      exact ⟨_, _, rfl, hw, rfl⟩
    · simp only [Go.ok.injEq, Prod.mk.injEq] at h
      obtain ⟨rfl, rfl⟩ := h
      refine ⟨_, _, rfl, ⟨by simp [hm, hw.map], hg, hlog, hobj, hspec⟩, by simp [SameRes, hw.map]⟩
  | translits who =>
    obtain rfl : c' = .translits who := by cases c' <;> simp_all [SameCall]
    simp only [Verif.call, hw.registry] at h ⊢
    split at h
    · simp only [Go.ok.injEq, Prod.mk.injEq] at h
      obtain ⟨rfl, rfl⟩ := h
      exact ⟨_, _, rfl, hw, rfl⟩
    · simp only [Go.ok.injEq, Prod.mk.injEq] at h
      obtain ⟨rfl, rfl⟩ := h
      exact ⟨_, _, rfl, ⟨by simp [hm, hw.map], by simp [hg, hm], hlog, hobj, hspec⟩, by simp [SameRes, hm]⟩
  | trace k fn =>
    obtain rfl : c' = .trace k fn := by cases c' <;> simp_all [SameCall]
    have hk := hobj.get k
    simp only [Verif.call] at h ⊢
    generalize w.objs[k]? = a at hk h
    generalize w'.objs[k]? = b at hk ⊢
    cases hk with
    | none =>
      simp only [Go.ok.injEq, Prod.mk.injEq] at h
      obtain ⟨rfl, rfl⟩ := h
      exact ⟨_, _, rfl, hw, rfl⟩
    | some hab =>
      simp only [Go.ok.injEq, Prod.mk.injEq] at h
      obtain ⟨rfl, rfl⟩ := h
      exact ⟨_, _, rfl, ⟨hm, hg, hlog, hobj.set k ⟨hab.1, hab.2.1, rfl⟩, hspec⟩, rfl⟩
  | run k word =>
    obtain rfl : c' = .run k word := by cases c' <;> simp_all [SameCall]
    have hk := hobj.get k
    simp only [Verif.call] at h ⊢
    generalize w.objs[k]? = a at hk h
    generalize w'.objs[k]? = b at hk ⊢
    cases hk with
    | none =>
      simp only [Go.ok.injEq, Prod.mk.injEq] at h
      obtain ⟨rfl, rfl⟩ := h
      exact ⟨_, _, rfl, hw, rfl⟩
    | some hab =>
      rename_i a b
      simp only [Go.bind_eq_ok, Go.pure_eq, Go.ok.injEq, Prod.mk.injEq] at h
      obtain ⟨y, h1, rfl, rfl⟩ := h
      simp only [hs.forward hab.1, hab.2.1, hab.2.2, hw.map, h1, Go.bind_ok, Go.pure_eq]
      exact ⟨_, _, rfl, ⟨hm, hg, by simp only [hlog], hobj, hspec⟩, rfl⟩
  | userSet a key t =>
    obtain rfl : c' = .userSet a key t := by cases c' <;> simp_all [SameCall]
    simp only [Verif.call, hg] at h ⊢
    split at h
    · rename_i hx
      simp only [Go.ok.injEq, Prod.mk.injEq] at h
      obtain ⟨rfl, rfl⟩ := h
      rw [if_pos hx]
      exact ⟨_, _, rfl, ⟨by simp [hm, hw.map], rfl, hlog, hobj, hspec⟩, rfl⟩
    · rename_i hx
      simp only [Go.ok.injEq, Prod.mk.injEq] at h
      obtain ⟨rfl, rfl⟩ := h
      rw [if_neg hx]
      exact ⟨_, _, rfl, hw, rfl⟩
  | userDelete a key =>
    obtain rfl : c' = .userDelete a key := by cases c' <;> simp_all [SameCall]
    simp only [Verif.call, hg] at h ⊢
    split at h
    · rename_i hx
      simp only [Go.ok.injEq, Prod.mk.injEq] at h
      obtain ⟨rfl, rfl⟩ := h
      rw [if_pos hx]
      exact ⟨_, _, rfl, ⟨by simp [hm, hw.map], rfl, hlog, hobj, hspec⟩, rfl⟩
    · rename_i hx
      simp only [Go.ok.injEq, Prod.mk.injEq] at h
      obtain ⟨rfl, rfl⟩ := h
      rw [if_neg hx]
      exact ⟨_, _, rfl, hw, rfl⟩

theorem Steady.calls {files : Files} (hs : Steady files) {cs cs' : List Call} (hc : Alike (SameCall files) cs cs') :
    ∀ {w w' : World}, SameWorld files w w' → ∀ {w1 : World} {rs : List Res}, Verif.calls files w cs = .ok (w1, rs) →
      ∃ w1' rs', Verif.calls files w' cs' = .ok (w1', rs') ∧ SameWorld files w1 w1' ∧ Alike (SameRes files) rs rs' := by
  induction hc with
  | nil =>
    intro w w' hw w1 rs h
    simp only [Verif.calls, Go.ok.injEq, Prod.mk.injEq] at h
    obtain ⟨rfl, rfl⟩ := h
    exact ⟨w', [], rfl, hw, .nil⟩
  | cons hc _ ih =>
    intro w w' hw w1 rs h
    simp only [Verif.calls, Go.bind_eq_ok, Go.pure_eq, Go.ok.injEq, Prod.mk.injEq] at h
    obtain ⟨⟨w2, r⟩, h1, ⟨w3, rs2⟩, h2, rfl, rfl⟩ := h
    obtain ⟨w2', r', h3, h4, h5⟩ := hs.call hw hc h1
    obtain ⟨w3', rs', h6, h7, h8⟩ := ih h4 h2
    exact ⟨w3', r' :: rs', by simp [Verif.calls, h3, h6], h7, .cons h5 h8⟩

end Verif
