import Verif.Proofs.NoErr
import Verif.Spec.Api

/-! Lemmas about the API. -/

namespace Verif

open Spec.Api

/-! ### Maps -/

theorem lookup_cons' {α : Type} (m : List (Bytes × α)) (k a : Bytes) (v : α) :
    List.lookup k ((a, v) :: m) = if k = a then some v else m.lookup k := by
  by_cases h : k = a
  · subst h; simp
  · rw [List.lookup_cons, beq_false_of_ne h, if_neg h]

theorem lookup_mapDelete {α : Type} (m : List (Bytes × α)) (k k' : Bytes) :
    (mapDelete m k).lookup k' = if k' = k then none else m.lookup k' := by
  induction m with
  | nil => simp [mapDelete]
  | cons p m ih =>
    obtain ⟨a, v⟩ := p
    simp only [mapDelete] at ih ⊢
    by_cases h : a = k
    · subst h
      rw [List.filter_cons_of_neg (by simp), ih, lookup_cons']
      by_cases h' : k' = a <;> simp [h']
    · rw [List.filter_cons_of_pos (by simpa using h), lookup_cons', ih, lookup_cons']
      by_cases h' : k' = a
      · subst h'; simp [h]
      · simp [h']

theorem lookup_mapSet {α : Type} (m : List (Bytes × α)) (k k' : Bytes) (v : α) :
    (mapSet m k v).lookup k' = if k' = k then some v else m.lookup k' := by
  have := lookup_mapDelete m k k'
  simp only [mapDelete] at this
  rw [mapSet, lookup_cons', this]
  by_cases h : k' = k <;> simp [h]

theorem lookup_detach (r : Registry) (k : Bytes) : r.detach.lookup k = r.lookup k := by
  induction r with
  | nil => rfl
  | cons p r ih =>
    obtain ⟨a, v⟩ := p
    simp only [Registry.detach] at ih
    simp only [Registry.detach, List.foldr_cons, lookup_mapSet, ih, lookup_cons']

theorem add_lookup (r : Registry) (t : Translit) (k : Bytes) :
    (r.add t).1.lookup k = if k = t.scheme then (r.lookup k).or (some t) else r.lookup k := by
  unfold Registry.add
  cases h : r.lookup t.scheme with
  | some t' => by_cases hk : k = t.scheme <;> simp [hk, h]
  | none => by_cases hk : k = t.scheme <;> simp [hk, h, lookup_mapSet]

theorem add_bool (r : Registry) (t : Translit) : (r.add t).2 = true ↔ r.lookup t.scheme = none := by
  unfold Registry.add
  cases h : r.lookup t.scheme <;> simp

theorem remove_lookup (r : Registry) (s k : Bytes) :
    (r.remove s).1.lookup k = if k = s then none else r.lookup k := by
  unfold Registry.remove
  cases h : r.lookup s with
  | some t' => simp [lookup_mapDelete]
  | none => by_cases hk : k = s <;> simp [hk, h]

theorem remove_bool (r : Registry) (s : Bytes) : (r.remove s).2 = true ↔ r.lookup s ≠ none := by
  unfold Registry.remove
  cases h : r.lookup s <;> simp

/-! ### Histories -/

/-- The effect of a change on what is registered for a scheme. -/
def hold (scheme : Bytes) (cur : Option Translit) : RegOp → Option Translit
  | .use t => if scheme = t.scheme then cur.or (some t) else cur
  | .unuse s => if scheme = s then none else cur

/-- What is registered for a scheme. -/
def holder (ops : List RegOp) (scheme : Bytes) : Option Translit := ops.foldl (hold scheme) none

theorem holder_snoc (ops : List RegOp) (op : RegOp) (s : Bytes) :
    holder (ops ++ [op]) s = hold s (holder ops s) op := by simp [holder]

theorem snoc_split {α : Type} {ops before after : List α} {op x : α} (h : ops ++ [op] = before ++ x :: after) :
    (after = [] ∧ before = ops ∧ x = op) ∨ ∃ after', after = after' ++ [op] ∧ ops = before ++ x :: after' := by
  rcases List.eq_nil_or_concat after with rfl | ⟨after', y, rfl⟩
  · left
    have := List.append_inj' h (by simp)
    obtain ⟨h1, h2⟩ := this
    simp only [List.cons.injEq, and_true] at h2
    exact ⟨rfl, h1.symm, h2.symm⟩
  · right
    have h' : ops ++ [op] = (before ++ x :: after') ++ [y] := by simpa using h
    obtain ⟨h1, h2⟩ := List.append_inj' h' (by simp)
    simp only [List.cons.injEq, and_true] at h2
    exact ⟨after', by simp [h2], h1⟩

theorem holder_iff : ∀ (n : Nat) (ops : List RegOp), ops.length = n → ∀ (s : Bytes),
    (∀ t, holder ops s = some t ↔ Holds ops s t) ∧
    (holder ops s = none ↔ ∀ x t' y, ops = x ++ .use t' :: y → t'.scheme = s → .unuse s ∈ y) := by
  intro n
  induction n with
  | zero =>
    intro ops hn s
    have : ops = [] := List.length_eq_zero_iff.1 hn
    subst this
    simp [holder, Holds]
  | succ n ih =>
    intro ops' hn s
    rcases List.eq_nil_or_concat ops' with rfl | ⟨ops, op, rfl⟩
    · simp at hn
    · obtain ⟨ih1, ih2⟩ := ih ops (by simpa using hn) s
      rw [List.concat_eq_append, holder_snoc]
      cases op with
      | use t =>
        simp only [hold]
        by_cases hs : s = t.scheme
        · subst hs
          simp only [↓reduceIte]
          constructor
          · intro t'
            cases hh : holder ops t.scheme with
            | none =>
              simp only [Option.none_or, Option.some.injEq]
              constructor
              · rintro rfl
                exact ⟨rfl, ops, [], rfl, by simp, ih2.1 hh⟩
              · rintro ⟨_, before, after, he, h1, h2⟩
                rcases snoc_split he with ⟨_, _, h3⟩ | ⟨after', rfl, h3⟩
                · injection h3 with h3; exact h3.symm
                · exfalso
                  have hu : RegOp.unuse t.scheme ∈ after' := ih2.1 hh before t' after' h3 (by assumption)
                  exact h1 (by simp [hu])
            | some t0 =>
              simp only [Option.some_or]
              rw [← hh, ih1]
              constructor
              · rintro ⟨h0, before, after, rfl, h1, h2⟩
                exact ⟨h0, before, after ++ [.use t], by simp, by simpa using h1, h2⟩
              · rintro ⟨h0, before, after, he, h1, h2⟩
                rcases snoc_split he with ⟨rfl, rfl, h3⟩ | ⟨after', rfl, h3⟩
                · exfalso
                  have := (ih2.2 h2)
                  rw [hh] at this; simp at this
                · exact ⟨h0, before, after', h3, fun h => h1 (by simp [h]), h2⟩
          · constructor
            · intro h
              cases hh : holder ops t.scheme <;> simp [hh] at h
            · intro h
              have := h ops t [] rfl rfl
              simp at this
        · simp only [hs, ↓reduceIte]
          constructor
          · intro t'
            rw [ih1]
            constructor
            · rintro ⟨h0, before, after, rfl, h1, h2⟩
              exact ⟨h0, before, after ++ [.use t], by simp, by simpa using h1, h2⟩
            · rintro ⟨h0, before, after, he, h1, h2⟩
              rcases snoc_split he with ⟨rfl, rfl, h3⟩ | ⟨after', rfl, h3⟩
              · injection h3 with h3; subst h3; exact absurd h0.symm hs
              · exact ⟨h0, before, after', h3, fun h => h1 (by simp [h]), h2⟩
          · rw [ih2]
            constructor
            · intro h x t' y he ht
              rcases snoc_split he with ⟨rfl, rfl, h3⟩ | ⟨y', rfl, h3⟩
              · injection h3 with h3; subst h3; exact absurd ht.symm hs
              · simp [h x t' y' h3 ht]
            · intro h x t' y he ht
              have := h x t' (y ++ [.use t]) (by simp [he]) ht
              simpa using this
      | unuse s' =>
        simp only [hold]
        by_cases hs : s = s'
        · subst hs
          simp only [↓reduceIte, reduceCtorEq, false_iff, true_iff]
          constructor
          · rintro t' ⟨h0, before, after, he, h1, h2⟩
            rcases snoc_split he with ⟨rfl, rfl, h3⟩ | ⟨after', rfl, h3⟩
            · simp at h3
            · simp at h1
          · intro x t' y he ht
            rcases snoc_split he with ⟨rfl, rfl, h3⟩ | ⟨y', rfl, h3⟩
            · simp at h3
            · simp
        · simp only [hs, ↓reduceIte]
          constructor
          · intro t'
            rw [ih1]
            constructor
            · rintro ⟨h0, before, after, rfl, h1, h2⟩
              exact ⟨h0, before, after ++ [.unuse s'], by simp, by simpa [hs] using h1, h2⟩
            · rintro ⟨h0, before, after, he, h1, h2⟩
              rcases snoc_split he with ⟨rfl, rfl, h3⟩ | ⟨after', rfl, h3⟩
              · simp at h3
              · exact ⟨h0, before, after', h3, fun h => h1 (by simp [h]), h2⟩
          · rw [ih2]
            constructor
            · intro h x t' y he ht
              rcases snoc_split he with ⟨rfl, rfl, h3⟩ | ⟨y', rfl, h3⟩
              · simp at h3
              · simp [h x t' y' h3 ht]
            · intro h x t' y he ht
              have := h x t' (y ++ [.unuse s']) (by simp [he]) ht
              simpa [hs] using this

theorem holder_holds (ops : List RegOp) (s : Bytes) (t : Translit) : holder ops s = some t ↔ Holds ops s t :=
  (holder_iff _ ops rfl s).1 t

/-! ### The state of the library -/

/-- The registries are apart from one another, from the default one and from the maps given to the user, and they
hold what a history says. -/
structure Inv (w : World) (hist : Option Nat → List RegOp) : Prop where
  default : 0 < w.maps.length
  inside : ∀ (h : Nat) (obj : Obj), w.objs[h]? = some obj → obj.registry < w.maps.length
  apart : ∀ (h h' : Nat) (obj obj' : Obj), w.objs[h]? = some obj → w.objs[h']? = some obj' → obj.registry = obj'.registry → h = h'
  notDefault : ∀ (h : Nat) (obj : Obj), w.objs[h]? = some obj → obj.registry ≠ 0
  given : ∀ a ∈ w.given, a < w.maps.length ∧ a ≠ 0 ∧ ∀ (h : Nat) (obj : Obj), w.objs[h]? = some obj → obj.registry ≠ a
  holds : ∀ who a, w.registry who = some a → ∀ s, (w.map a).lookup s = holder (hist who) s
  fresh : ∀ h : Nat, w.objs[h]? = none → hist (some h) = []

theorem Inv.init : Inv World.init fun _ => [] where
  default := by simp [World.init]
  inside := by simp [World.init]
  apart := by simp [World.init]
  notDefault := by simp [World.init]
  given := by simp [World.init]
  holds := by
    intro who a h s
    cases who with
    | none => simp only [World.registry, Option.some.injEq] at h; subst h; simp [World.map, World.init, holder]
    | some h' => simp [World.registry, World.init] at h
  fresh := by intro _ _; rfl

theorem Inv.registry_lt {w : World} {H : Option Nat → List RegOp} (hi : Inv w H) {who : Option Nat} {a : Nat}
    (h : w.registry who = some a) : a < w.maps.length := by
  cases who with
  | none => simp only [World.registry, Option.some.injEq] at h; exact h ▸ hi.default
  | some k =>
    simp only [World.registry, Option.map_eq_some_iff] at h
    obtain ⟨obj, h1, rfl⟩ := h
    exact hi.inside k obj h1

theorem Inv.registry_inj {w : World} {H : Option Nat → List RegOp} (hi : Inv w H) {who who' : Option Nat} {a : Nat}
    (h : w.registry who = some a) (h' : w.registry who' = some a) : who = who' := by
  cases who with
  | none =>
    cases who' with
    | none => rfl
    | some k =>
      simp only [World.registry, Option.some.injEq, Option.map_eq_some_iff] at h h'
      obtain ⟨obj, h1, rfl⟩ := h'
      exact absurd h.symm (hi.notDefault k obj h1)
  | some k =>
    cases who' with
    | none =>
      simp only [World.registry, Option.some.injEq, Option.map_eq_some_iff] at h h'
      obtain ⟨obj, h1, rfl⟩ := h
      exact absurd h'.symm (hi.notDefault k obj h1)
    | some k' =>
      simp only [World.registry, Option.map_eq_some_iff] at h h'
      obtain ⟨obj, h1, rfl⟩ := h
      obtain ⟨obj', h1', e⟩ := h'
      rw [hi.apart k k' obj obj' h1 h1' e.symm]

theorem map_set (w : World) {a : Nat} (ha : a < w.maps.length) (r : Registry) (b : Nat) :
    ({ w with maps := w.maps.set a r } : World).map b = if b = a then r else w.map b := by
  simp only [World.map, List.getElem?_set]
  by_cases h : a = b
  · subst h; simp [ha]
  · simp [h, Ne.symm h]

theorem map_append (w : World) {b : Nat} (hb : b < w.maps.length) (r : Registry) (given : List Nat) (objs : List Obj) :
    ({ w with maps := w.maps ++ [r], given := given, objs := objs } : World).map b = w.map b := by
  simp only [World.map]
  rw [List.getElem?_append_left hb]

/-- What a call adds to the histories. -/
def addHist (H : Option Nat → List RegOp) (c : Call) (r : Res) (who : Option Nat) : List RegOp :=
  H who ++ changesOf who [c] [r]

theorem loadSpec_cases {files : Files} {o : Ord} {lang : Bytes} {specs specs' : Cache} {r : Spec ⊕ Err}
    (h : loadSpec files o lang specs = .ok (r, specs')) :
    (∃ sp, specs.lookup lang = some sp ∧ r = .inl sp ∧ specs' = specs) ∨
    (specs.lookup lang = none ∧ files lang = none ∧ r = .inr .specNotFound ∧ specs' = specs) ∨
    (∃ src sp, specs.lookup lang = none ∧ files lang = some src ∧ parseSpec o src = .ok sp ∧ r = .inl sp ∧
      specs' = mapSet specs lang sp) := by
  unfold loadSpec at h
  split at h
  · simp only [Go.ok.injEq, Prod.mk.injEq] at h
    exact .inl ⟨_, by assumption, h.1.symm, h.2.symm⟩
  · split at h
    · simp only [Go.ok.injEq, Prod.mk.injEq] at h
      exact .inr (.inl ⟨by assumption, by assumption, h.1.symm, h.2.symm⟩)
    · split at h
      · simp only [Go.ok.injEq, Prod.mk.injEq] at h
        exact .inr (.inr ⟨_, _, by assumption, by assumption, by assumption, h.1.symm, h.2.symm⟩)
      all_goals simp at h

theorem Inv.of_same {w w' : World} {H H' : Option Nat → List RegOp} (hi : Inv w H) (h1 : w'.maps = w.maps)
    (h2 : w'.given = w.given) (h3 : w'.objs = w.objs) (h4 : ∀ who, H' who = H who) : Inv w' H' := by
  have hH : H' = H := funext h4
  subst hH
  obtain ⟨m, g, ob, sp, lg⟩ := w'
  simp only at h1 h2 h3
  subst h1; subst h2; subst h3
  exact ⟨hi.default, hi.inside, hi.apart, hi.notDefault, hi.given, hi.holds, hi.fresh⟩

/-- Writing to one registry. -/
theorem Inv.change {w : World} {H : Option Nat → List RegOp} (hi : Inv w H) {who : Option Nat} {a : Nat}
    (ha : w.registry who = some a) {r : Registry} {ops : List RegOp}
    (hr : ∀ s, r.lookup s = holder (H who ++ ops) s) :
    Inv { w with maps := w.maps.set a r } (fun x => if x = who then H x ++ ops else H x) := by
  have hlt := hi.registry_lt ha
  refine ⟨by simpa using hi.default, fun h obj e => by simpa using hi.inside h obj e, hi.apart, hi.notDefault,
    fun b hb => by simpa using hi.given b hb, ?_, ?_⟩
  · intro who' b hb s
    have hb' : w.registry who' = some b := by cases who' <;> exact hb
    rw [map_set w hlt]
    by_cases e : who' = who
    · subst e
      rw [ha] at hb'
      simp only [Option.some.injEq] at hb'
      subst hb'
      simp [hr]
    · have : b ≠ a := fun e' => e (hi.registry_inj hb' (e' ▸ ha))
      simp only [this, ↓reduceIte, e]
      exact hi.holds who' b hb' s
  · intro h hn
    have : some h ≠ who := by
      rintro rfl
      have hn : w.objs[h]? = none := hn
      simp [World.registry, hn] at ha
    simp only [this, ↓reduceIte]
    exact hi.fresh h hn

/-- Writing to a map of the user. -/
theorem Inv.user {w : World} {H : Option Nat → List RegOp} (hi : Inv w H) {a : Nat} (ha : a ∈ w.given) (r : Registry) :
    Inv { w with maps := w.maps.set a r } H := by
  obtain ⟨hlt, h0, hobj⟩ := hi.given a ha
  refine ⟨by simpa using hi.default, fun h obj e => by simpa using hi.inside h obj e, hi.apart, hi.notDefault,
    fun b hb => by simpa using hi.given b hb, ?_, hi.fresh⟩
  intro who b hb s
  have hb' : w.registry who = some b := by cases who <;> exact hb
  rw [map_set w hlt]
  have : b ≠ a := by
    rintro rfl
    cases who with
    | none => simp only [World.registry, Option.some.injEq] at hb'; exact h0 hb'.symm
    | some k =>
      simp only [World.registry, Option.map_eq_some_iff] at hb'
      obtain ⟨obj, h1, h2⟩ := hb'
      exact hobj k obj h1 h2
  simp only [this, ↓reduceIte]
  exact hi.holds who b hb' s

theorem Inv.call {files : Files} {w w' : World} {H : Option Nat → List RegOp} {c : Call} {r : Res} (hi : Inv w H)
    (h : call files w c = .ok (w', r)) : Inv w' (addHist H c r) := by
  have same : ∀ who, (∀ b, r ≠ .bool b) → addHist H c r who = H who := by
    intro who hb
    unfold addHist
    cases c <;> cases r <;> simp_all [changesOf]
  cases c with
  | loadSpec o lang =>
    simp only [Verif.call, Go.bind_eq_ok, Prod.exists, Go.pure_eq, Go.ok.injEq, Prod.mk.injEq] at h
    obtain ⟨r', specs, h1, rfl, rfl⟩ := h
    exact hi.of_same rfl rfl rfl fun who => same who (by simp)
  | unloadSpec lang =>
    simp only [Verif.call, Go.ok.injEq, Prod.mk.injEq] at h
    obtain ⟨rfl, rfl⟩ := h
    exact hi.of_same rfl rfl rfl fun who => same who (by simp)
  | hangulize o lang word =>
    simp only [Verif.call, Go.bind_eq_ok, Prod.exists] at h
    obtain ⟨r', specs, h1, h2⟩ := h
    cases r' with
    | inr e =>
      simp only [Go.pure_eq, Go.ok.injEq, Prod.mk.injEq] at h2
      obtain ⟨rfl, rfl⟩ := h2
      exact hi.of_same rfl rfl rfl fun who => same who (by simp)
    | inl sp =>
      simp only [Go.bind_eq_ok, Go.pure_eq, Go.ok.injEq, Prod.mk.injEq] at h2
      obtain ⟨a, h3, rfl, rfl⟩ := h2
      exact hi.of_same rfl rfl rfl fun who => same who (by simp)
  | new spec =>
    simp only [Verif.call, Go.ok.injEq, Prod.mk.injEq] at h
    obtain ⟨rfl, rfl⟩ := h
    have hH : addHist H (.new spec) (.obj w.objs.length) = H := funext fun who => same who (by simp)
    rw [hH]
    have hobjs : ∀ h obj, (w.objs ++ [(⟨spec, w.maps.length, none⟩ : Obj)])[h]? = some obj →
        w.objs[h]? = some obj ∨ (h = w.objs.length ∧ obj = ⟨spec, w.maps.length, none⟩) := by
      intro h obj he
      rcases Nat.lt_or_ge h w.objs.length with hl | hl
      · rw [List.getElem?_append_left hl] at he; exact .inl he
      · rw [List.getElem?_append_right hl] at he
        have hk : h - w.objs.length = 0 := by
          rcases Nat.eq_zero_or_pos (h - w.objs.length) with e | e
          · exact e
          · rw [List.getElem?_eq_none (by simp; omega)] at he; simp at he
        rw [hk] at he
        simp only [List.getElem?_cons_zero, Option.some.injEq] at he
        exact .inr ⟨by omega, he.symm⟩
    refine ⟨by simp, ?_, ?_, ?_, ?_, ?_, ?_⟩
    · intro h obj he
      rcases hobjs h obj he with h1 | ⟨rfl, rfl⟩
      · have := hi.inside h obj h1; simp; omega
      · simp
    · intro h h' obj obj' he he' e
      rcases hobjs h obj he with h1 | ⟨rfl, rfl⟩ <;> rcases hobjs h' obj' he' with h2 | ⟨rfl, rfl⟩
      · exact hi.apart h h' obj obj' h1 h2 e
      · have := hi.inside h obj h1; simp only at e; omega
      · have := hi.inside h' obj' h2; simp only at e; omega
      · rfl
    · intro h obj he
      rcases hobjs h obj he with h1 | ⟨rfl, rfl⟩
      · exact hi.notDefault h obj h1
      · have := hi.default; simp only; omega
    · intro a ha
      obtain ⟨h1, h2, h3⟩ := hi.given a ha
      refine ⟨by simp; omega, h2, ?_⟩
      intro h obj he
      rcases hobjs h obj he with h4 | ⟨rfl, rfl⟩
      · exact h3 h obj h4
      · simp only; omega
    · intro who a ha s
      have key : w.registry who = some a ∨ (who = some w.objs.length ∧ a = w.maps.length) := by
        cases who with
        | none => exact .inl ha
        | some k =>
          simp only [World.registry, Option.map_eq_some_iff] at ha
          obtain ⟨obj, h1, rfl⟩ := ha
          rcases hobjs k obj h1 with h2 | ⟨rfl, rfl⟩
          · exact .inl (by simp [World.registry, h2])
          · exact .inr ⟨rfl, rfl⟩
      rcases key with h1 | ⟨rfl, rfl⟩
      · rw [map_append w (hi.registry_lt h1)]
        exact hi.holds who a h1 s
      · rw [hi.fresh w.objs.length (by simp)]
        simp [World.map, holder]
    · intro h hn
      refine hi.fresh h ?_
      simp only [List.getElem?_eq_none_iff, List.length_append, List.length_cons, List.length_nil] at hn ⊢
      omega
  | useTranslit who t =>
    simp only [Verif.call] at h
    split at h
    · simp only [Go.ok.injEq, Prod.mk.injEq] at h
      obtain ⟨rfl, rfl⟩ := h
      exact hi.of_same rfl rfl rfl fun who => same who (by simp)
    · rename_i a ha
      simp only [Go.ok.injEq, Prod.mk.injEq] at h
      obtain ⟨rfl, rfl⟩ := h
      have := hi.change ha (ops := [.use t]) (r := ((w.map a).add t).1) (fun s => by
        rw [add_lookup, holder_snoc, hi.holds who a ha]; rfl)
      have e : addHist H (.useTranslit who t) (.bool ((w.map a).add t).2) =
          fun x => if x = who then H x ++ [.use t] else H x := by
        funext x
        simp only [addHist, changesOf]
        by_cases hx : who = x <;> simp [hx, eq_comm]
      rw [e]; exact this
  | unuseTranslit who scheme =>
    simp only [Verif.call] at h
    split at h
    · simp only [Go.ok.injEq, Prod.mk.injEq] at h
      obtain ⟨rfl, rfl⟩ := h
      exact hi.of_same rfl rfl rfl fun who => same who (by simp)
    · rename_i a ha
      simp only [Go.ok.injEq, Prod.mk.injEq] at h
      obtain ⟨rfl, rfl⟩ := h
      have := hi.change ha (ops := [.unuse scheme]) (r := ((w.map a).remove scheme).1) (fun s => by
        rw [remove_lookup, holder_snoc, hi.holds who a ha]; rfl)
      have e : addHist H (.unuseTranslit who scheme) (.bool ((w.map a).remove scheme).2) =
          fun x => if x = who then H x ++ [.unuse scheme] else H x := by
        funext x
        simp only [addHist, changesOf]
        by_cases hx : who = x <;> simp [hx, eq_comm]
      rw [e]; exact this
  | translits who =>
    simp only [Verif.call] at h
    split at h
    · simp only [Go.ok.injEq, Prod.mk.injEq] at h
      obtain ⟨rfl, rfl⟩ := h
      exact hi.of_same rfl rfl rfl fun who => same who (by simp)
    · rename_i a ha
      simp only [Go.ok.injEq, Prod.mk.injEq] at h
      obtain ⟨rfl, rfl⟩ := h
      have hH : addHist H (.translits who) (.map w.maps.length) = H := funext fun who => same who (by simp)
      rw [hH]
      refine ⟨by simp, fun h obj e => ?_, hi.apart, hi.notDefault, ?_, ?_, hi.fresh⟩
      · have := hi.inside h obj e; simp; omega
      · intro b hb
        simp only [List.mem_append, List.mem_singleton] at hb
        rcases hb with hb | rfl
        · obtain ⟨h1, h2, h3⟩ := hi.given b hb
          exact ⟨by simp; omega, h2, h3⟩
        · refine ⟨by simp, by have := hi.default; omega, fun h obj e => ?_⟩
          have := hi.inside h obj e; omega
      · intro who' b hb s
        have hb' : w.registry who' = some b := by cases who' <;> exact hb
        rw [map_append w (hi.registry_lt hb')]
        exact hi.holds who' b hb' s
  | trace k fn =>
    simp only [Verif.call] at h
    split at h
    · simp only [Go.ok.injEq, Prod.mk.injEq] at h
      obtain ⟨rfl, rfl⟩ := h
      exact hi.of_same rfl rfl rfl fun who => same who (by simp)
    · rename_i obj0 hobj0
      simp only [Go.ok.injEq, Prod.mk.injEq] at h
      obtain ⟨rfl, rfl⟩ := h
      have hH : addHist H (.trace k fn) .unit = H := funext fun who => same who (by simp)
      rw [hH]
      have hset : ∀ (h : Nat) (obj : Obj), (w.objs.set k { obj0 with traceFunc := fn })[h]? = some obj →
          ∃ obj' : Obj, w.objs[h]? = some obj' ∧ obj'.registry = obj.registry := by
        intro h obj he
        rw [List.getElem?_set] at he
        by_cases hk : k = h
        · subst hk
          rw [if_pos rfl] at he
          split at he
          · simp only [Option.some.injEq] at he
            exact ⟨obj0, hobj0, by rw [← he]⟩
          · simp at he
        · rw [if_neg hk] at he; exact ⟨obj, he, rfl⟩
      refine ⟨hi.default, ?_, ?_, ?_, ?_, ?_, ?_⟩
      · intro h obj he
        obtain ⟨obj', h1, h2⟩ := hset h obj he
        exact h2 ▸ hi.inside h obj' h1
      · intro h h' obj obj' he he' e
        obtain ⟨o1, h1, h2⟩ := hset h obj he
        obtain ⟨o2, h3, h4⟩ := hset h' obj' he'
        exact hi.apart h h' o1 o2 h1 h3 (by rw [h2, h4, e])
      · intro h obj he
        obtain ⟨obj', h1, h2⟩ := hset h obj he
        exact h2 ▸ hi.notDefault h obj' h1
      · intro a ha
        obtain ⟨h1, h2, h3⟩ := hi.given a ha
        refine ⟨h1, h2, fun h obj he => ?_⟩
        obtain ⟨obj', h4, h5⟩ := hset h obj he
        exact h5 ▸ h3 h obj' h4
      · intro who b hb s
        have hb' : w.registry who = some b := by
          cases who with
          | none => exact hb
          | some h =>
            simp only [World.registry, Option.map_eq_some_iff] at hb ⊢
            obtain ⟨obj, h1, rfl⟩ := hb
            obtain ⟨obj', h4, h5⟩ := hset h obj h1
            exact ⟨obj', h4, h5⟩
        exact hi.holds who b hb' s
      · intro h hn
        refine hi.fresh h ?_
        simpa using hn
  | run k word =>
    simp only [Verif.call] at h
    split at h
    · simp only [Go.ok.injEq, Prod.mk.injEq] at h
      obtain ⟨rfl, rfl⟩ := h
      exact hi.of_same rfl rfl rfl fun who => same who (by simp)
    · simp only [Go.bind_eq_ok, Go.pure_eq, Go.ok.injEq, Prod.mk.injEq] at h
      obtain ⟨a, _, rfl, rfl⟩ := h
      exact hi.of_same rfl rfl rfl fun who => same who (by simp)
  | userSet a key t =>
    simp only [Verif.call] at h
    split at h
    · simp only [Go.ok.injEq, Prod.mk.injEq] at h
      obtain ⟨rfl, rfl⟩ := h
      have hH : addHist H (.userSet a key t) .unit = H := funext fun who => same who (by simp)
      rw [hH]
      exact hi.user (by assumption) _
    · simp only [Go.ok.injEq, Prod.mk.injEq] at h
      obtain ⟨rfl, rfl⟩ := h
      exact hi.of_same rfl rfl rfl fun who => same who (by simp)
  | userDelete a key =>
    simp only [Verif.call] at h
    split at h
    · simp only [Go.ok.injEq, Prod.mk.injEq] at h
      obtain ⟨rfl, rfl⟩ := h
      have hH : addHist H (.userDelete a key) .unit = H := funext fun who => same who (by simp)
      rw [hH]
      exact hi.user (by assumption) _
    · simp only [Go.ok.injEq, Prod.mk.injEq] at h
      obtain ⟨rfl, rfl⟩ := h
      exact hi.of_same rfl rfl rfl fun who => same who (by simp)

theorem changesOf_cons (who : Option Nat) (c : Call) (r : Res) (cs : List Call) (rs : List Res) :
    changesOf who (c :: cs) (r :: rs) = changesOf who [c] [r] ++ changesOf who cs rs := by
  cases c <;> cases r <;> simp only [changesOf, List.nil_append] <;> split <;> simp

theorem Inv.calls {files : Files} : ∀ (cs : List Call) {w w' : World} {H : Option Nat → List RegOp} {rs : List Res},
    Inv w H → calls files w cs = .ok (w', rs) → Inv w' (fun who => H who ++ changesOf who cs rs) := by
  intro cs
  induction cs with
  | nil =>
    intro w w' H rs hi h
    simp only [Verif.calls, Go.ok.injEq, Prod.mk.injEq] at h
    obtain ⟨rfl, rfl⟩ := h
    exact hi.of_same rfl rfl rfl fun who => by simp [changesOf]
  | cons c cs ih =>
    intro w w' H rs hi h
    simp only [Verif.calls, Go.bind_eq_ok, Prod.exists, Go.pure_eq, Go.ok.injEq, Prod.mk.injEq] at h
    obtain ⟨w1, r, h1, w2, rs', h2, rfl, rfl⟩ := h
    refine (ih (hi.call h1) h2).of_same rfl rfl rfl fun who => ?_
    rw [addHist, changesOf_cons, List.append_assoc]

/-! ### The cache -/

/-- Every cached spec was parsed from the bundled source of its language. -/
def CacheOk (files : Files) (specs : Cache) : Prop :=
  ∀ lang sp, specs.lookup lang = some sp → ∃ src o, files lang = some src ∧ o.Ok ∧ parseSpec o src = .ok sp

theorem CacheOk.load {files : Files} {o : Ord} (ho : o.Ok) {lang : Bytes} {specs specs' : Cache} {r : Spec ⊕ Err}
    (hc : CacheOk files specs) (h : loadSpec files o lang specs = .ok (r, specs')) : CacheOk files specs' := by
  rcases loadSpec_cases h with ⟨sp, _, _, rfl⟩ | ⟨_, _, _, rfl⟩ | ⟨src, sp, _, hf, hp, _, rfl⟩
  · exact hc
  · exact hc
  · intro l sp' hl
    rw [lookup_mapSet] at hl
    by_cases e : l = lang
    · subst e
      simp only [↓reduceIte, Option.some.injEq] at hl
      subst hl
      exact ⟨src, o, hf, ho, hp⟩
    · rw [if_neg e] at hl; exact hc l sp' hl

theorem CacheOk.delete {files : Files} {specs : Cache} (hc : CacheOk files specs) (lang : Bytes) :
    CacheOk files (mapDelete specs lang) := by
  intro l sp hl
  rw [lookup_mapDelete] at hl
  by_cases e : l = lang
  · simp [e] at hl
  · rw [if_neg e] at hl; exact hc l sp hl

theorem CacheOk.call {files : Files} {w w' : World} {c : Call} {r : Res} (ho : OrdOk c) (hc : CacheOk files w.specs)
    (h : Verif.call files w c = .ok (w', r)) : CacheOk files w'.specs := by
  cases c with
  | loadSpec o lang =>
    simp only [Verif.call, Go.bind_eq_ok, Prod.exists, Go.pure_eq, Go.ok.injEq, Prod.mk.injEq] at h
    obtain ⟨r', specs, h1, rfl, rfl⟩ := h
    exact hc.load ho h1
  | unloadSpec lang =>
    simp only [Verif.call, Go.ok.injEq, Prod.mk.injEq] at h
    obtain ⟨rfl, rfl⟩ := h
    exact hc.delete lang
  | hangulize o lang word =>
    simp only [Verif.call, Go.bind_eq_ok, Prod.exists] at h
    obtain ⟨r', specs, h1, h2⟩ := h
    cases r' with
    | inr e =>
      simp only [Go.pure_eq, Go.ok.injEq, Prod.mk.injEq] at h2
      obtain ⟨rfl, rfl⟩ := h2
      exact hc.load ho h1
    | inl sp =>
      simp only [Go.bind_eq_ok, Go.pure_eq, Go.ok.injEq, Prod.mk.injEq] at h2
      obtain ⟨a, h3, rfl, rfl⟩ := h2
      exact hc.load ho h1
  | new spec =>
    simp only [Verif.call, Go.ok.injEq, Prod.mk.injEq] at h
    obtain ⟨rfl, rfl⟩ := h
    exact hc
  | run k word =>
    simp only [Verif.call] at h
    split at h
    · simp only [Go.ok.injEq, Prod.mk.injEq] at h
      obtain ⟨rfl, rfl⟩ := h
      exact hc
    · simp only [Go.bind_eq_ok, Go.pure_eq, Go.ok.injEq, Prod.mk.injEq] at h
      obtain ⟨a, _, rfl, rfl⟩ := h
      exact hc
  | _ =>
    simp only [Verif.call] at h
    split at h <;>
    · simp only [Go.ok.injEq, Prod.mk.injEq] at h
      obtain ⟨rfl, rfl⟩ := h
      exact hc

theorem CacheOk.calls {files : Files} : ∀ (cs : List Call) {w w' : World} {rs : List Res}, (∀ c ∈ cs, OrdOk c) →
    CacheOk files w.specs → Verif.calls files w cs = .ok (w', rs) → CacheOk files w'.specs := by
  intro cs
  induction cs with
  | nil =>
    intro w w' rs _ hc h
    simp only [Verif.calls, Go.ok.injEq, Prod.mk.injEq] at h
    obtain ⟨rfl, rfl⟩ := h
    exact hc
  | cons c cs ih =>
    intro w w' rs ho hc h
    simp only [Verif.calls, Go.bind_eq_ok, Prod.exists, Go.pure_eq, Go.ok.injEq, Prod.mk.injEq] at h
    obtain ⟨w1, r, h1, w2, rs', h2, rfl, rfl⟩ := h
    exact ih (fun c hc => ho c (by simp [hc])) (hc.call (ho c (by simp)) h1) h2

/-! ### Isolation -/

theorem Inv.frame {files : Files} {w w' : World} {H : Option Nat → List RegOp} {c : Call} {r : Res} (hi : Inv w H)
    (h : Verif.call files w c = .ok (w', r)) {who : Option Nat} (ho : owner c ≠ some who) {a : Nat}
    (ha : w.registry who = some a) :
    w'.map a = w.map a ∧ (∀ k, who = some k → w'.objs[k]? = w.objs[k]?) ∧ (who = none → w'.specs = w.specs) := by
  cases c with
  | loadSpec o lang =>
    simp only [Verif.call, Go.bind_eq_ok, Prod.exists, Go.pure_eq, Go.ok.injEq, Prod.mk.injEq] at h
    obtain ⟨r', specs, h1, rfl, rfl⟩ := h
    refine ⟨rfl, fun _ _ => rfl, fun e => absurd rfl (e ▸ ho)⟩
  | unloadSpec lang =>
    simp only [Verif.call, Go.ok.injEq, Prod.mk.injEq] at h
    obtain ⟨rfl, rfl⟩ := h
    refine ⟨rfl, fun _ _ => rfl, fun e => absurd rfl (e ▸ ho)⟩
  | hangulize o lang word =>
    simp only [Verif.call, Go.bind_eq_ok, Prod.exists] at h
    obtain ⟨r', specs, h1, h2⟩ := h
    cases r' with
    | inr e =>
      simp only [Go.pure_eq, Go.ok.injEq, Prod.mk.injEq] at h2
      obtain ⟨rfl, rfl⟩ := h2
      refine ⟨rfl, fun _ _ => rfl, fun e => absurd rfl (e ▸ ho)⟩
    | inl sp =>
      simp only [Go.bind_eq_ok, Go.pure_eq, Go.ok.injEq, Prod.mk.injEq] at h2
      obtain ⟨a, h3, rfl, rfl⟩ := h2
      refine ⟨rfl, fun _ _ => rfl, fun e => absurd rfl (e ▸ ho)⟩
  | new spec =>
    simp only [Verif.call, Go.ok.injEq, Prod.mk.injEq] at h
    obtain ⟨rfl, rfl⟩ := h
    refine ⟨map_append w (hi.registry_lt ha) _ _ _, fun k hk => ?_, fun _ => rfl⟩
    subst hk
    simp only [World.registry, Option.map_eq_some_iff] at ha
    obtain ⟨obj, h1, _⟩ := ha
    rw [List.getElem?_append_left (List.getElem?_eq_some_iff.1 h1).1]
  | useTranslit who' t =>
    simp only [Verif.call] at h
    split at h
    · simp only [Go.ok.injEq, Prod.mk.injEq] at h
      obtain ⟨rfl, rfl⟩ := h
      exact ⟨rfl, fun _ _ => rfl, fun _ => rfl⟩
    · rename_i b hb
      simp only [Go.ok.injEq, Prod.mk.injEq] at h
      obtain ⟨rfl, rfl⟩ := h
      refine ⟨?_, fun _ _ => rfl, fun _ => rfl⟩
      rw [map_set w (hi.registry_lt hb), if_neg]
      rintro rfl
      exact ho (congrArg some (hi.registry_inj hb ha))
  | unuseTranslit who' t =>
    simp only [Verif.call] at h
    split at h
    · simp only [Go.ok.injEq, Prod.mk.injEq] at h
      obtain ⟨rfl, rfl⟩ := h
      exact ⟨rfl, fun _ _ => rfl, fun _ => rfl⟩
    · rename_i b hb
      simp only [Go.ok.injEq, Prod.mk.injEq] at h
      obtain ⟨rfl, rfl⟩ := h
      refine ⟨?_, fun _ _ => rfl, fun _ => rfl⟩
      rw [map_set w (hi.registry_lt hb), if_neg]
      rintro rfl
      exact ho (congrArg some (hi.registry_inj hb ha))
  | translits who' =>
    simp only [Verif.call] at h
    split at h
    · simp only [Go.ok.injEq, Prod.mk.injEq] at h
      obtain ⟨rfl, rfl⟩ := h
      exact ⟨rfl, fun _ _ => rfl, fun _ => rfl⟩
    · simp only [Go.ok.injEq, Prod.mk.injEq] at h
      obtain ⟨rfl, rfl⟩ := h
      exact ⟨map_append w (hi.registry_lt ha) _ _ _, fun _ _ => rfl, fun _ => rfl⟩
  | trace k fn =>
    simp only [Verif.call] at h
    split at h
    · simp only [Go.ok.injEq, Prod.mk.injEq] at h
      obtain ⟨rfl, rfl⟩ := h
      exact ⟨rfl, fun _ _ => rfl, fun _ => rfl⟩
    · simp only [Go.ok.injEq, Prod.mk.injEq] at h
      obtain ⟨rfl, rfl⟩ := h
      refine ⟨rfl, fun k' hk' => ?_, fun _ => rfl⟩
      have : k ≠ k' := by rintro rfl; exact ho (by rw [hk']; rfl)
      simp only [List.getElem?_set, this, ↓reduceIte]
  | run k word =>
    simp only [Verif.call] at h
    split at h
    · simp only [Go.ok.injEq, Prod.mk.injEq] at h
      obtain ⟨rfl, rfl⟩ := h
      exact ⟨rfl, fun _ _ => rfl, fun _ => rfl⟩
    · simp only [Go.bind_eq_ok, Go.pure_eq, Go.ok.injEq, Prod.mk.injEq] at h
      obtain ⟨a, _, rfl, rfl⟩ := h
      exact ⟨rfl, fun _ _ => rfl, fun _ => rfl⟩
  | userSet b key t =>
    simp only [Verif.call] at h
    split at h
    · simp only [Go.ok.injEq, Prod.mk.injEq] at h
      obtain ⟨rfl, rfl⟩ := h
      refine ⟨?_, fun _ _ => rfl, fun _ => rfl⟩
      obtain ⟨h1, h2, h3⟩ := hi.given b (by assumption)
      rw [map_set w h1, if_neg]
      rintro rfl
      cases who with
      | none => simp only [World.registry, Option.some.injEq] at ha; exact h2 ha.symm
      | some k =>
        simp only [World.registry, Option.map_eq_some_iff] at ha
        obtain ⟨obj, h4, h5⟩ := ha
        exact h3 k obj h4 h5
    · simp only [Go.ok.injEq, Prod.mk.injEq] at h
      obtain ⟨rfl, rfl⟩ := h
      exact ⟨rfl, fun _ _ => rfl, fun _ => rfl⟩
  | userDelete b key =>
    simp only [Verif.call] at h
    split at h
    · simp only [Go.ok.injEq, Prod.mk.injEq] at h
      obtain ⟨rfl, rfl⟩ := h
      refine ⟨?_, fun _ _ => rfl, fun _ => rfl⟩
      obtain ⟨h1, h2, h3⟩ := hi.given b (by assumption)
      rw [map_set w h1, if_neg]
      rintro rfl
      cases who with
      | none => simp only [World.registry, Option.some.injEq] at ha; exact h2 ha.symm
      | some k =>
        simp only [World.registry, Option.map_eq_some_iff] at ha
        obtain ⟨obj, h4, h5⟩ := ha
        exact h3 k obj h4 h5
    · simp only [Go.ok.injEq, Prod.mk.injEq] at h
      obtain ⟨rfl, rfl⟩ := h
      exact ⟨rfl, fun _ _ => rfl, fun _ => rfl⟩

theorem registry_frame {w w' : World} {who : Option Nat} {a : Nat} (ha : w.registry who = some a)
    (h : ∀ k, who = some k → w'.objs[k]? = w.objs[k]?) : w'.registry who = some a := by
  cases who with
  | none => exact ha
  | some k => simp only [World.registry, h k rfl] at ha ⊢; exact ha

theorem Inv.frames {files : Files} : ∀ (cs : List Call) {w w' : World} {H : Option Nat → List RegOp} {rs : List Res},
    Inv w H → Verif.calls files w cs = .ok (w', rs) → ∀ {who : Option Nat}, (∀ c ∈ cs, owner c ≠ some who) →
    ∀ {a : Nat}, w.registry who = some a →
    w'.map a = w.map a ∧ (∀ k, who = some k → w'.objs[k]? = w.objs[k]?) ∧ (who = none → w'.specs = w.specs) := by
  intro cs
  induction cs with
  | nil =>
    intro w w' H rs hi h who _ a _
    simp only [Verif.calls, Go.ok.injEq, Prod.mk.injEq] at h
    obtain ⟨rfl, rfl⟩ := h
    exact ⟨rfl, fun _ _ => rfl, fun _ => rfl⟩
  | cons c cs ih =>
    intro w w' H rs hi h who ho a ha
    simp only [Verif.calls, Go.bind_eq_ok, Prod.exists, Go.pure_eq, Go.ok.injEq, Prod.mk.injEq] at h
    obtain ⟨w1, r, h1, w2, rs', h2, rfl, rfl⟩ := h
    obtain ⟨e1, e2, e3⟩ := hi.frame h1 (ho c (by simp)) ha
    obtain ⟨f1, f2, f3⟩ := ih (hi.call h1) h2 (fun c hc => ho c (by simp [hc])) (registry_frame ha e2)
    exact ⟨f1.trans e1, fun k hk => (f2 k hk).trans (e2 k hk), fun hn => (f3 hn).trans (e3 hn)⟩

/-! ### Installing -/

theorem uninstall_lookup : ∀ (ts : List Translit) (r : Registry) (s : Bytes),
    (uninstall r ts).lookup s = if s ∈ ts.map (·.scheme) then none else r.lookup s := by
  intro ts
  induction ts with
  | nil => intro r s; simp [uninstall]
  | cons t ts ih =>
    intro r s
    simp only [uninstall, ih, remove_lookup, List.map_cons, List.mem_cons]
    by_cases h1 : s ∈ ts.map (·.scheme)
    · simp [h1]
    · by_cases h2 : s = t.scheme <;> simp [h1, h2]

end Verif
