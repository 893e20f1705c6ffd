import Verif.Spec.Wasm
import Verif.Proofs.Api
import Verif.Proofs.Bundled
import Verif.Proofs.Js

/-! Proofs about the JavaScript API. -/

namespace Verif.Wasm

open Verif.Js Verif.Spec.Wasm

/-! ## Sequences of events -/

theorem run_append {files : Files} {p q : Page} : ∀ {es fs : List Event},
    run files p (es ++ fs) = .ok q ↔ ∃ r, run files p es = .ok r ∧ run files r fs = .ok q := by
  intro es
  induction es generalizing p with
  | nil => intro fs; simp [run]
  | cons e es ih =>
    intro fs
    simp only [List.cons_append, run, Go.bind_eq_ok]
    constructor
    · rintro ⟨p', h1, h2⟩
      obtain ⟨r, h3, h4⟩ := ih.1 h2
      exact ⟨r, ⟨p', h1, h3⟩, h4⟩
    · rintro ⟨r, ⟨p', h1, h2⟩, h3⟩
      exact ⟨p', h1, ih.2 ⟨r, h2, h3⟩⟩

theorem run_cons {files : Files} {p q : Page} {e : Event} {es : List Event} :
    run files p (e :: es) = .ok q ↔ ∃ r, step files p e = .ok r ∧ run files r es = .ok q := by
  simp only [run, Go.bind_eq_ok]

/-! ## Tracers -/

/-- The last word of a tracer. -/
def prevOf (tr : Tracer) : Bytes := (tr.map (·.prevWord)).getD []

/-- A tracer made for a tracing function. -/
def Shape (traceFn : Value) (tr : Tracer) : Prop := tracerOf traceFn (logOf tr) (prevOf tr) = tr

theorem shape_of (traceFn : Value) (log : List Trace) (w : Bytes) : Shape traceFn (tracerOf traceFn log w) := by
  cases traceFn <;> rfl

theorem Shape.trace {traceFn : Value} {tr : Tracer} (h : Shape traceFn tr) (t : Trace) : Shape traceFn (tr.trace t) := by
  cases tr with
  | none =>
    unfold Shape at h
    cases traceFn <;> simp [tracerOf, logOf, prevOf] at h <;> rfl
  | some st =>
    unfold Shape at h
    cases traceFn <;> simp only [tracerOf, logOf, prevOf, Option.map_some, Option.getD_some] at h
    · cases h
    all_goals
      simp only [Tracer.trace]
      split <;> rfl

theorem tracerOf_start (traceFn : Value) : tracerOf traceFn [] [] = tracerFor [traceFn] := by
  cases traceFn <;> rfl

/-! ## The loop over the schemes -/

theorem transliterateLoop_append (R : Registry) : ∀ (done todo : List Bytes) (w : Bytes) (tr : Tracer),
    transliterateLoop R (done ++ todo) w tr =
      match transliterateLoop R done w tr with
      | (.ok w', tr') => transliterateLoop R todo w' tr'
      | r => r := by
  intro done
  induction done with
  | nil => intro todo w tr; rfl
  | cons s ss ih =>
    intro todo w tr
    simp only [List.cons_append, transliterateLoop]
    cases R.lookup s with
    | none => rfl
    | some t =>
      simp only
      cases t.transliterate w with
      | ok w' => exact ih ..
      | _ => rfl

/-- The functions of a goroutine are the translits of a registry. -/
def Agree (answers : Answers) (ts : List (Bytes × Value)) (R : Registry) : Prop :=
  ∀ s, (ts.lookup s = none → R.lookup s = none) ∧
    ∀ fn, ts.lookup s = some (.func fn) → R.lookup s = some (translitOf answers s fn)

/-- What holds for the goroutine of a call: it has settled its Promise as it should, or it waits for a translit, having
applied those before. -/
def Good (files : Files) (ts : List (Bytes × Value)) (R : Registry) (lang word : Bytes) (traceFn : Value)
    (asks : List Ask) (t : Task) : Prop :=
  t.traceFn = traceFn ∧
  (Finished files R lang word (tracerOf traceFn [] []) t.status t.log ∨
    ∃ sp src o scheme todo prev ask fn w done, t.status = .waiting sp ts scheme todo prev ask ∧
      files lang = some src ∧ o.Ok ∧ parseSpec o src = .ok sp ∧ sp.lang.translit = done ++ scheme :: todo ∧
      ts.lookup scheme = some (.func fn) ∧ asks[ask]? = some ⟨fn, ofText w⟩ ∧
      transliterateLoop R done word ((tracerOf traceFn [] []).trace { step := .input, word }) =
        (.ok w, tracerOf traceFn t.log prev) ∧ logOf (tracerOf traceFn t.log prev) = t.log)

theorem proceed_good {files : Files} {answers : Answers} {ts : List (Bytes × Value)} {R : Registry} (ha : Agree answers ts R)
    {lang word src : Bytes} {o : Ord} {sp : Spec} (hf : files lang = some src) (ho : o.Ok) (hp : parseSpec o src = .ok sp)
    {traceFn : Value} {done todo : List Bytes} (hs : sp.lang.translit = done ++ todo) {w : Bytes} {tr : Tracer}
    (ht : Shape traceFn tr)
    (hl : transliterateLoop R done word ((tracerOf traceFn [] []).trace { step := .input, word }) = (.ok w, tr))
    {asks asks' : List Ask} {status : Status} {tr' : Tracer} (h : proceed sp ts todo w tr asks = .ok (status, tr', asks')) :
    Good files ts R lang word traceFn asks' ⟨traceFn, logOf tr', status⟩ := by
  refine ⟨rfl, ?_⟩
  unfold proceed at h
  cases todo with
  | nil =>
    simp only [List.append_nil] at hs
    left
    cases hx : afterTranslit sp w tr with
    | ok x =>
      rw [hx] at h
      simp only [Go.ok.injEq, Prod.mk.injEq] at h
      obtain ⟨rfl, rfl, rfl⟩ := h
      exact .resolved hf ho hp (by simp only [forward, hs, hl, hx])
    | err e =>
      rw [hx] at h
      simp only [Go.ok.injEq, Prod.mk.injEq] at h
      obtain ⟨rfl, rfl, rfl⟩ := h
      exact .rejected hf ho hp (by simp only [forward, hs, hl, hx])
    | panic => rw [hx] at h; simp at h
    | hang => rw [hx] at h; simp at h
  | cons scheme todo =>
    simp only at h
    cases hx : ts.lookup scheme with
    | none =>
      rw [hx] at h
      simp only [Go.ok.injEq, Prod.mk.injEq] at h
      obtain ⟨rfl, rfl, rfl⟩ := h
      left
      refine .rejected hf ho hp ?_
      simp only [forward, hs, transliterateLoop_append, hl, transliterateLoop, (ha scheme).1 hx]
    | some v =>
      rw [hx] at h
      cases v with
      | func fn =>
        simp only [Go.ok.injEq, Prod.mk.injEq] at h
        obtain ⟨rfl, rfl, rfl⟩ := h
        right
        refine ⟨sp, src, o, scheme, todo, _, asks.length, fn, w, done, rfl, hf, ho, hp, hs, hx, by simp, ?_, congrArg logOf ht⟩
        rw [hl]
        exact congrArg _ ht.symm
      | _ => simp at h

theorem getElem?_append_some {α : Type} {l : List α} {n : Nat} {a : α} (h : l[n]? = some a) (l' : List α) :
    (l ++ l')[n]? = some a := by
  rw [List.getElem?_append_left]
  · exact h
  · exact (List.getElem?_eq_some_iff.1 h).1

/-- Further calls of translit functions change nothing. -/
theorem Good.more {files : Files} {ts : List (Bytes × Value)} {R : Registry} {lang word : Bytes}
    {traceFn : Value} {asks : List Ask} {t : Task} (h : Good files ts R lang word traceFn asks t) (more : List Ask) :
    Good files ts R lang word traceFn (asks ++ more) t := by
  obtain ⟨h1, h2 | ⟨sp, src, o, scheme, todo, prev, ask, fn, w, done, h3, h4, h5, h6, h7, h8, h9, h10, h11⟩⟩ := h
  · exact ⟨h1, .inl h2⟩
  · exact ⟨h1, .inr ⟨sp, src, o, scheme, todo, prev, ask, fn, w, done, h3, h4, h5, h6, h7, h8, getElem?_append_some h9 _, h10, h11⟩⟩

theorem proceed_asks {sp : Spec} {ts : List (Bytes × Value)} {todo : List Bytes} {w : Bytes} {tr tr' : Tracer}
    {asks asks' : List Ask} {status : Status} (h : proceed sp ts todo w tr asks = .ok (status, tr', asks')) :
    ∃ more, asks' = asks ++ more ∧
      ∀ spec ts' scheme todo' prev ask, status = .waiting spec ts' scheme todo' prev ask → ask = asks.length ∧ more ≠ [] := by
  unfold proceed at h
  cases todo with
  | nil =>
    cases hx : afterTranslit sp w tr with
    | ok x =>
      rw [hx] at h
      simp only [Go.ok.injEq, Prod.mk.injEq] at h
      obtain ⟨rfl, rfl, rfl⟩ := h
      exact ⟨[], by simp, by simp⟩
    | err e =>
      rw [hx] at h
      simp only [Go.ok.injEq, Prod.mk.injEq] at h
      obtain ⟨rfl, rfl, rfl⟩ := h
      exact ⟨[], by simp, by simp⟩
    | panic => rw [hx] at h; simp at h
    | hang => rw [hx] at h; simp at h
  | cons scheme todo =>
    simp only at h
    cases hx : ts.lookup scheme with
    | none =>
      rw [hx] at h
      simp only [Go.ok.injEq, Prod.mk.injEq] at h
      obtain ⟨rfl, rfl, rfl⟩ := h
      exact ⟨[], by simp, by simp⟩
    | some v =>
      rw [hx] at h
      cases v with
      | func fn =>
        simp only [Go.ok.injEq, Prod.mk.injEq] at h
        obtain ⟨rfl, rfl, rfl⟩ := h
        exact ⟨[⟨fn, ofText w⟩], rfl, by intro _ _ _ _ _ ask h; simp at h; simp [h]⟩
      | _ => simp at h

theorem startTask_asks {sp : Spec} {ts : List (Bytes × Value)} {word : Bytes} {traceFn : Value} {asks asks' : List Ask} {t : Task}
    (h : startTask sp ts word traceFn asks = .ok (t, asks')) :
    ∃ more, asks' = asks ++ more ∧ ∀ ask, Pending t ask → ask = asks.length ∧ more ≠ [] := by
  simp only [startTask, Go.bind_eq_ok, Prod.exists, Go.pure_eq, Go.ok.injEq, Prod.mk.injEq] at h
  obtain ⟨status, tr, asks1, h1, _, _, rfl, rfl⟩ := h
  obtain ⟨more, h2, h3⟩ := proceed_asks h1
  refine ⟨more, h2, ?_⟩
  rintro ask ⟨_, _, _, _, _, h⟩
  exact h3 _ _ _ _ _ _ h

theorem settleTask_asks {t t' : Task} {r : Value ⊕ Value} {asks asks' : List Ask}
    (h : settleTask t r asks = .ok (t', asks')) {ask : Nat} (ht : Pending t ask) :
    ∃ more, asks' = asks ++ more ∧ ∀ ask, Pending t' ask → ask = asks.length ∧ more ≠ [] := by
  obtain ⟨spec, ts, scheme, todo, prev, ht⟩ := ht
  unfold settleTask at h
  rw [ht] at h
  cases r with
  | inl v =>
    simp only [Go.bind_eq_ok, Prod.exists, Go.pure_eq, Go.ok.injEq, Prod.mk.injEq] at h
    obtain ⟨status, tr, asks1, h1, _, _, rfl, rfl⟩ := h
    obtain ⟨more, h2, h3⟩ := proceed_asks h1
    refine ⟨more, h2, ?_⟩
    rintro ask ⟨_, _, _, _, _, h⟩
    exact h3 _ _ _ _ _ _ h
  | inr v =>
    simp only [Go.bind_eq_ok, Go.pure_eq, Go.ok.injEq, Prod.mk.injEq] at h
    obtain ⟨_, _, rfl, rfl⟩ := h
    refine ⟨[], by simp, ?_⟩
    rintro ask ⟨_, _, _, _, _, h⟩
    cases h

theorem startTask_good {files : Files} {answers : Answers} {ts : List (Bytes × Value)} {R : Registry} (ha : Agree answers ts R)
    {lang word src : Bytes} {o : Ord} {sp : Spec} (hf : files lang = some src) (ho : o.Ok) (hp : parseSpec o src = .ok sp)
    {traceFn : Value} {asks asks' : List Ask} {t : Task} (h : startTask sp ts word traceFn asks = .ok (t, asks')) :
    Good files ts R lang word traceFn asks' t := by
  simp only [startTask, Go.bind_eq_ok, Prod.exists, Go.pure_eq, Go.ok.injEq, Prod.mk.injEq] at h
  obtain ⟨status, tr, asks1, h1, _, _, rfl, rfl⟩ := h
  exact proceed_good ha hf ho hp (done := []) rfl ((shape_of ..).trace _) rfl h1

theorem settleTask_good {files : Files} {answers : Answers} {ts : List (Bytes × Value)} {R : Registry} (ha : Agree answers ts R)
    {lang word : Bytes} {traceFn : Value} {asks asks' : List Ask} {t t' : Task}
    (ht : Good files ts R lang word traceFn asks t) {ask : Nat} (hw : Pending t ask) {r : Value ⊕ Value}
    (hr : ∀ a, asks[ask]? = some a → r = answers a.fn a.arg) (h : settleTask t r asks = .ok (t', asks')) :
    Good files ts R lang word traceFn asks' t' := by
  obtain ⟨spec, ts', scheme', todo', prev', hst⟩ := hw
  obtain ⟨h1, h2 | ⟨sp, src, o, scheme, todo, prev, ask', fn, w, done, h3, h4, h5, h6, h7, h8, h9, h10, h11⟩⟩ := ht
  · rw [hst] at h2
    cases h2
  · rw [hst] at h3
    cases h3
    have hr := hr _ h9
    have hR := (ha scheme').2 fn h8
    unfold settleTask at h
    rw [hst] at h
    cases r with
    | inl v =>
      simp only [Go.bind_eq_ok, Prod.exists, Go.pure_eq, Go.ok.injEq, Prod.mk.injEq] at h
      obtain ⟨status, tr, asks1, g1, _, _, rfl, rfl⟩ := h
      rw [h1] at g1 ⊢
      refine proceed_good ha h4 h5 h6 (done := done ++ [scheme']) (by simp [h7]) ((shape_of ..).trace _) ?_ g1
      rw [transliterateLoop_append, h10]
      simp only [transliterateLoop, hR, translitOf, ← hr]
    | inr v =>
      simp only [Go.bind_eq_ok, Go.pure_eq, Go.ok.injEq, Prod.mk.injEq] at h
      obtain ⟨_, _, rfl, rfl⟩ := h
      refine ⟨h1, .inl ?_⟩
      have : Finished files R lang word (tracerOf traceFn [] []) (.rejected .translit) (logOf (tracerOf traceFn t.log prev')) := by
        refine .rejected h4 h5 h6 ?_
        simp only [forward, h7, transliterateLoop_append, h10, transliterateLoop, hR, translitOf, ← hr]
      rw [h11] at this
      exact this

/-! ## Registered translits -/

/-- What is registered by some events, in order. -/
def uses : List Event → List (Bytes × Value)
  | [] => []
  | .useTranslit (scheme :: fn :: _) :: es => (scheme.text, fn) :: uses es
  | _ :: es => uses es

theorem addTranslit_lookup (r : List (Bytes × Value)) (scheme : Bytes) (fn : Value) (s : Bytes) :
    (addTranslit r scheme fn).1.lookup s = (r.lookup s).or (if s = scheme then some fn else none) := by
  unfold addTranslit
  cases h : r.lookup scheme with
  | some v =>
    simp only
    split
    · rename_i hs; subst hs; simp [h]
    · simp
  | none =>
    simp only [lookup_mapSet]
    split
    · rename_i hs; subst hs; simp [h]
    · simp

theorem step_registry {files : Files} {p q : Page} {e : Event} (h : step files p e = .ok q) (s : Bytes) :
    q.registry.lookup s = (p.registry.lookup s).or ((uses [e]).lookup s) := by
  cases e with
  | useTranslit args =>
    simp only [step, Go.bind_eq_ok, Go.pure_eq, Go.ok.injEq] at h
    obtain ⟨a, h1, b, h2, rfl⟩ := h
    rcases args with _ | ⟨x, _ | ⟨y, rest⟩⟩
    · simp [index] at h1
    · simp [index] at h2
    · simp [index] at h1 h2
      subst h1; subst h2
      rw [addTranslit_lookup]
      simp only [uses, lookup_cons', List.lookup_nil]
  | hangulize o visit args =>
    simp only [step, Go.bind_eq_ok] at h
    obtain ⟨a, _, b, _, ⟨r, specs⟩, _, h⟩ := h
    cases r with
    | inr e => simp at h; subst h; simp [uses]
    | inl sp =>
      simp only [Go.bind_eq_ok, Go.pure_eq, Go.ok.injEq] at h
      obtain ⟨⟨t, asks⟩, _, rfl⟩ := h
      simp [uses]
  | settle ask r =>
    simp only [step] at h
    split at h
    · simp at h; subst h; simp [uses]
    · split at h
      · simp at h; subst h; simp [uses]
      · simp only [Go.bind_eq_ok, Go.pure_eq, Go.ok.injEq] at h
        obtain ⟨⟨t, asks⟩, _, rfl⟩ := h
        simp [uses]

theorem uses_cons (e : Event) (es : List Event) : uses (e :: es) = uses [e] ++ uses es := by
  match e with
  | .useTranslit (_ :: _ :: _) => rfl
  | .useTranslit [] => rfl
  | .useTranslit [_] => rfl
  | .hangulize .. => rfl
  | .settle .. => rfl

theorem lookup_append' {α : Type} (l l' : List (Bytes × α)) (s : Bytes) : (l ++ l').lookup s = (l.lookup s).or (l'.lookup s) := by
  induction l with
  | nil => simp
  | cons p l ih =>
    obtain ⟨a, b⟩ := p
    rw [List.cons_append, lookup_cons', lookup_cons', ih]
    split <;> simp

theorem run_registry {files : Files} : ∀ {es : List Event} {p q : Page}, run files p es = .ok q → ∀ s,
    q.registry.lookup s = (p.registry.lookup s).or ((uses es).lookup s) := by
  intro es
  induction es with
  | nil => intro p q h s; simp [run] at h; subst h; simp [uses]
  | cons e es ih =>
    intro p q h s
    obtain ⟨r, h1, h2⟩ := run_cons.1 h
    rw [ih h2, step_registry h1, uses_cons e es, lookup_append', Option.or_assoc]

/-- No scheme is registered twice. -/
def Keyed (r : List (Bytes × Value)) : Prop := (r.map (·.1)).Nodup

theorem Keyed.add {r : List (Bytes × Value)} (h : Keyed r) (scheme : Bytes) (fn : Value) : Keyed (addTranslit r scheme fn).1 := by
  unfold addTranslit
  split
  · exact h
  · simp only [Keyed, mapSet, List.map_cons, List.nodup_cons]
    refine ⟨?_, ?_⟩
    · simp
    · exact List.Nodup.sublist (List.Sublist.map _ (List.filter_sublist)) h

theorem step_keyed {files : Files} {p q : Page} {e : Event} (h : step files p e = .ok q) (hk : Keyed p.registry) :
    Keyed q.registry := by
  cases e with
  | useTranslit args =>
    simp only [step, Go.bind_eq_ok, Go.pure_eq, Go.ok.injEq] at h
    obtain ⟨a, h1, b, h2, rfl⟩ := h
    exact hk.add ..
  | hangulize o visit args =>
    simp only [step, Go.bind_eq_ok] at h
    obtain ⟨a, _, b, _, ⟨r, specs⟩, _, h⟩ := h
    cases r with
    | inr e => simp at h; subst h; exact hk
    | inl sp =>
      simp only [Go.bind_eq_ok, Go.pure_eq, Go.ok.injEq] at h
      obtain ⟨⟨t, asks⟩, _, rfl⟩ := h
      exact hk
  | settle ask r =>
    simp only [step] at h
    split at h
    · simp at h; subst h; exact hk
    · split at h
      · simp at h; subst h; exact hk
      · simp only [Go.bind_eq_ok, Go.pure_eq, Go.ok.injEq] at h
        obtain ⟨⟨t, asks⟩, _, rfl⟩ := h
        exact hk

theorem run_keyed {files : Files} : ∀ {es : List Event} {p q : Page}, run files p es = .ok q → Keyed p.registry →
    Keyed q.registry := by
  intro es
  induction es with
  | nil => intro p q h hk; simp [run] at h; subst h; exact hk
  | cons e es ih =>
    intro p q h hk
    obtain ⟨r, h1, h2⟩ := run_cons.1 h
    exact ih h2 (step_keyed h1 hk)

theorem lookup_mem_keyed {r : List (Bytes × Value)} (h : Keyed r) {s : Bytes} {v : Value} :
    r.lookup s = some v ↔ (s, v) ∈ r := by
  induction r with
  | nil => simp
  | cons p r ih =>
    obtain ⟨a, b⟩ := p
    simp only [Keyed, List.map_cons, List.nodup_cons] at h
    rw [lookup_cons']
    split
    · rename_i hs
      subst hs
      constructor
      · rintro ⟨⟩; simp
      · intro hm
        rcases List.mem_cons.1 hm with hm | hm
        · cases hm; rfl
        · exact absurd (List.mem_map.2 ⟨_, hm, rfl⟩) h.1
    · rename_i hs
      rw [ih h.2]
      constructor
      · exact fun hm => List.mem_cons.2 (.inr hm)
      · intro hm
        rcases List.mem_cons.1 hm with hm | hm
        · cases hm; exact absurd rfl hs
        · exact hm

theorem lookup_perm {r l : List (Bytes × Value)} (hp : l.Perm r) (h : Keyed r) (s : Bytes) : l.lookup s = r.lookup s := by
  have hl : Keyed l := (hp.map _).nodup_iff.2 h
  apply Option.ext
  intro v
  rw [lookup_mem_keyed hl, lookup_mem_keyed h, hp.mem_iff]

theorem import_lookup (l : List (Bytes × Value)) (s : Bytes) : (importTranslits l).lookup s = l.lookup s := by
  have : ∀ (l r : List (Bytes × Value)),
      (l.foldl (fun r t => (addTranslit r t.1 t.2).1) r).lookup s = (r.lookup s).or (l.lookup s) := by
    intro l
    induction l with
    | nil => intro r; simp
    | cons t l ih =>
      intro r
      obtain ⟨a, b⟩ := t
      rw [List.foldl_cons, ih, addTranslit_lookup, lookup_cons', Option.or_assoc]
      congr 1
      split <;> simp
  rw [importTranslits, this]
  simp

theorem registered_agree (answers : Answers) : ∀ (es : List Event) (s : Bytes),
    ((uses es).lookup s = none → (registered answers es).lookup s = none) ∧
      ∀ fn, (uses es).lookup s = some (.func fn) → (registered answers es).lookup s = some (translitOf answers s fn) := by
  intro es
  induction es with
  | nil => intro s; simp [uses, registered]
  | cons e es ih =>
    intro s
    match e with
    | .useTranslit [] => simpa only [uses, registered] using ih s
    | .useTranslit [_] => simpa only [uses, registered] using ih s
    | .hangulize .. => simpa only [uses, registered] using ih s
    | .settle .. => simpa only [uses, registered] using ih s
    | .useTranslit (a :: b :: rest) =>
      simp only [uses, lookup_cons']
      split
      · rename_i hs
        subst hs
        refine ⟨by simp, ?_⟩
        rintro fn ⟨⟩
        simp [registered]
      · rename_i hs
        cases b with
        | func fn =>
          simp only [registered, lookup_cons', if_neg hs]
          exact ih s
        | _ => simpa only [registered] using ih s

/-! ## Goroutines -/

theorem waitsFor_iff (t : Task) (ask : Nat) : t.waitsFor ask = true ↔ Pending t ask := by
  obtain ⟨fn, log, status⟩ := t
  cases status with
  | waiting spec ts scheme todo prev a =>
    simp only [Task.waitsFor, beq_iff_eq, Pending]
    constructor
    · rintro rfl; exact ⟨_, _, _, _, _, rfl⟩
    · rintro ⟨_, _, _, _, _, h⟩; cases h; rfl
  | _ => simp [Task.waitsFor, Pending]

theorem Pending.unique {t : Task} {a b : Nat} (h : Pending t a) (h' : Pending t b) : a = b := by
  obtain ⟨_, _, _, _, _, h⟩ := h
  obtain ⟨_, _, _, _, _, h'⟩ := h'
  rw [h] at h'
  cases h'
  rfl

/-- The ways an event can change the goroutines. -/
inductive Change (files : Files) (p q : Page) : Event → Prop
  | use (args : List Value) (h : q.tasks = p.tasks) (ha : q.asks = p.asks) (hs : q.specs = p.specs) :
      Change files p q (.useTranslit args)
  | unknown (o : Ord) (visit : List (Bytes × Value) → List (Bytes × Value)) (lang word : Value) (rest : List Value) (e : Err)
      (hl : loadSpec files o lang.text p.specs = .ok (.inr e, q.specs)) (ha : q.asks = p.asks)
      (h : q.tasks = p.tasks ++ [⟨(rest.head?).getD .undefined, [], .rejected e⟩]) :
      Change files p q (.hangulize o visit (lang :: word :: rest))
  | call (o : Ord) (visit : List (Bytes × Value) → List (Bytes × Value)) (lang word : Value) (rest : List Value) (sp : Spec) (t : Task)
      (hl : loadSpec files o lang.text p.specs = .ok (.inl sp, q.specs))
      (ht : startTask sp (importTranslits (visit p.registry)) word.text ((rest.head?).getD .undefined) p.asks = .ok (t, q.asks))
      (h : q.tasks = p.tasks ++ [t]) : Change files p q (.hangulize o visit (lang :: word :: rest))
  | nothing (ask : Nat) (r : Value ⊕ Value) (hn : ∀ t ∈ p.tasks, ¬ Pending t ask) (h : q = p) :
      Change files p q (.settle ask r)
  | settle (ask : Nat) (r : Value ⊕ Value) (i : Nat) (t t' : Task) (hi : p.tasks[i]? = some t) (hw : Pending t ask)
      (ht : settleTask t r p.asks = .ok (t', q.asks)) (h : q.tasks = p.tasks.set i t') (hs : q.specs = p.specs) :
      Change files p q (.settle ask r)

theorem step_change {files : Files} {p q : Page} {e : Event} (h : step files p e = .ok q) : Change files p q e := by
  cases e with
  | useTranslit args =>
    simp only [step, Go.bind_eq_ok, Go.pure_eq, Go.ok.injEq] at h
    obtain ⟨a, h1, b, h2, rfl⟩ := h
    exact .use args rfl rfl rfl
  | hangulize o visit args =>
    simp only [step, Go.bind_eq_ok] at h
    obtain ⟨a, h1, b, h2, ⟨r, specs⟩, h3, h⟩ := h
    rcases args with _ | ⟨x, _ | ⟨y, rest⟩⟩
    · simp [index] at h1
    · simp [index] at h2
    · simp [index] at h1 h2
      subst h1; subst h2
      have e : (x :: y :: rest)[2]? = rest.head? := by cases rest <;> rfl
      rw [e] at h
      cases r with
      | inr e =>
        simp only [Go.pure_eq, Go.ok.injEq] at h
        subst h
        exact .unknown o visit x y rest e h3 rfl rfl
      | inl sp =>
        simp only [Go.bind_eq_ok, Go.pure_eq, Go.ok.injEq] at h
        obtain ⟨⟨t, asks⟩, h4, rfl⟩ := h
        exact .call o visit x y rest sp t h3 h4 rfl
  | settle ask r =>
    simp only [step] at h
    split at h
    · rename_i hn
      simp only [Go.ok.injEq] at h
      refine .nothing ask r ?_ h.symm
      intro t ht hp
      rw [List.findIdx?_eq_none_iff] at hn
      have := hn t ht
      rw [(waitsFor_iff t ask).2 hp] at this
      cases this
    · rename_i i hi
      rw [List.findIdx?_eq_some_iff_getElem] at hi
      obtain ⟨hlt, hw, _⟩ := hi
      rw [List.getElem?_eq_getElem hlt] at h
      simp only [Go.bind_eq_ok, Go.pure_eq, Go.ok.injEq] at h
      obtain ⟨⟨t', asks⟩, h4, rfl⟩ := h
      exact .settle ask r i _ t' (List.getElem?_eq_getElem hlt) ((waitsFor_iff _ _).1 hw) h4 rfl rfl

/-- The calls of translit functions only become more. -/
theorem Change.asks {files : Files} {p q : Page} {e : Event} (h : Change files p q e) : ∃ more, q.asks = p.asks ++ more := by
  cases h with
  | use _ _ ha => exact ⟨[], by simp [ha]⟩
  | unknown _ _ _ _ _ _ _ ha => exact ⟨[], by simp [ha]⟩
  | call o visit lang word rest sp t hl ht h =>
    obtain ⟨more, h1, _⟩ := startTask_asks ht
    exact ⟨more, h1⟩
  | nothing ask r hn h => subst h; exact ⟨[], by simp⟩
  | settle ask r i t t' hi hw ht h =>
    obtain ⟨more, h1, _⟩ := settleTask_asks ht hw
    exact ⟨more, h1⟩

/-- No two goroutines wait for the same Promise, and the Promises exist. -/
structure Waits (p : Page) : Prop where
  made : ∀ t ∈ p.tasks, ∀ a, Pending t a → a < p.asks.length
  apart : ∀ (i j : Nat) (t u : Task) (a : Nat), p.tasks[i]? = some t → p.tasks[j]? = some u → Pending t a → Pending u a → i = j

theorem Waits.append {p : Page} (h : Waits p) {q : Page} {t : Task} (ht : q.tasks = p.tasks ++ [t]) {more : List Ask}
    (ha : q.asks = p.asks ++ more) (hp : ∀ a, Pending t a → a = p.asks.length ∧ more ≠ []) : Waits q := by
  constructor
  · intro u hu a hw
    rw [ht] at hu
    rw [ha, List.length_append]
    rcases List.mem_append.1 hu with hu | hu
    · exact Nat.lt_of_lt_of_le (h.made u hu a hw) (Nat.le_add_right ..)
    · simp only [List.mem_singleton] at hu
      subst hu
      obtain ⟨rfl, hm⟩ := hp a hw
      have := List.length_pos_iff.2 hm
      omega
  · intro i j u v a hi hj hu hv
    rw [ht] at hi hj
    have key : ∀ {i : Nat} {u : Task}, (p.tasks ++ [t])[i]? = some u →
        (p.tasks[i]? = some u) ∨ (i = p.tasks.length ∧ u = t) := by
      intro i u hi
      rw [List.getElem?_append] at hi
      split at hi
      · exact .inl hi
      · rename_i hlt
        right
        rcases Nat.eq_zero_or_pos (i - p.tasks.length) with h0 | h0
        · rw [h0] at hi; simp at hi; exact ⟨by omega, hi.symm⟩
        · rw [List.getElem?_eq_none (by simp; omega)] at hi; cases hi
    rcases key hi with hi' | ⟨hi', hu'⟩ <;> rcases key hj with hj' | ⟨hj', hv'⟩
    · exact h.apart i j u v a hi' hj' hu hv
    · have := h.made u (List.mem_of_getElem? hi') a hu
      have := (hp a (hv' ▸ hv)).1
      omega
    · have := h.made v (List.mem_of_getElem? hj') a hv
      have := (hp a (hu' ▸ hu)).1
      omega
    · rw [hi', hj']

theorem getElem?_set_cases {α : Type} {l : List α} {i j : Nat} {a b : α} (h : (l.set i a)[j]? = some b) :
    (j = i ∧ b = a) ∨ (j ≠ i ∧ l[j]? = some b) := by
  rw [List.getElem?_set] at h
  split at h
  · rename_i hij
    split at h
    · cases h; exact .inl ⟨hij.symm, rfl⟩
    · cases h
  · rename_i hij
    exact .inr ⟨fun e => hij e.symm, h⟩

theorem Change.waits {files : Files} {p q : Page} {e : Event} (h : Change files p q e) (hw : Waits p) : Waits q := by
  cases h with
  | use _ ht ha => exact ⟨by rw [ht, ha]; exact hw.made, by rw [ht]; exact hw.apart⟩
  | unknown o visit lang word rest e hl ha ht =>
    refine hw.append ht (more := []) (by simp [ha]) ?_
    rintro a ⟨_, _, _, _, _, h⟩
    cases h
  | call o visit lang word rest sp t hl ht h =>
    obtain ⟨more, h1, h2⟩ := startTask_asks ht
    exact hw.append h h1 h2
  | nothing ask r hn h => subst h; exact hw
  | settle ask r i t t' hi hp ht h =>
    obtain ⟨more, h1, h2⟩ := settleTask_asks ht hp
    constructor
    · intro u hu a ha
      rw [h1, List.length_append]
      obtain ⟨j, hj⟩ := List.mem_iff_getElem?.1 hu
      rw [h] at hj
      rcases getElem?_set_cases hj with ⟨rfl, rfl⟩ | ⟨_, hj⟩
      · obtain ⟨rfl, hm⟩ := h2 a ha
        have := List.length_pos_iff.2 hm
        omega
      · exact Nat.lt_of_lt_of_le (hw.made u (List.mem_of_getElem? hj) a ha) (Nat.le_add_right ..)
    · intro j k u v a hj hk hu hv
      rw [h] at hj hk
      rcases getElem?_set_cases hj with ⟨hj', hu'⟩ | ⟨_, hj'⟩ <;> rcases getElem?_set_cases hk with ⟨hk', hv'⟩ | ⟨_, hk'⟩
      · rw [hj', hk']
      · have := hw.made v (List.mem_of_getElem? hk') a hv
        have := (h2 a (hu' ▸ hu)).1
        omega
      · have := hw.made u (List.mem_of_getElem? hj') a hu
        have := (h2 a (hv' ▸ hv)).1
        omega
      · exact hw.apart j k u v a hj' hk' hu hv

theorem run_waits {files : Files} : ∀ {es : List Event} {p q : Page}, run files p es = .ok q → Waits p → Waits q := by
  intro es
  induction es with
  | nil => intro p q h hk; simp [run] at h; subst h; exact hk
  | cons e es ih =>
    intro p q h hk
    obtain ⟨r, h1, h2⟩ := run_cons.1 h
    exact ih h2 ((step_change h1).waits hk)

/-- A Promise nobody waits for. -/
def Over (ask : Nat) (p : Page) : Prop := ask < p.asks.length ∧ ∀ t ∈ p.tasks, ¬ Pending t ask

theorem Change.over {files : Files} {p q : Page} {e : Event} (h : Change files p q e) {ask : Nat} (ho : Over ask p) :
    Over ask q := by
  obtain ⟨more, hm⟩ := h.asks
  refine ⟨by rw [hm, List.length_append]; exact Nat.lt_of_lt_of_le ho.1 (Nat.le_add_right ..), ?_⟩
  cases h with
  | use _ ht ha => rw [ht]; exact ho.2
  | unknown o visit lang word rest e hl ha ht =>
    rw [ht]
    intro u hu
    rcases List.mem_append.1 hu with hu | hu
    · exact ho.2 u hu
    · simp only [List.mem_singleton] at hu
      subst hu
      rintro ⟨_, _, _, _, _, h⟩
      cases h
  | call o visit lang word rest sp t hl ht h =>
    obtain ⟨more, h1, h2⟩ := startTask_asks ht
    rw [h]
    intro u hu
    rcases List.mem_append.1 hu with hu | hu
    · exact ho.2 u hu
    · simp only [List.mem_singleton] at hu
      subst hu
      intro hp
      have := (h2 _ hp).1
      have := ho.1
      omega
  | nothing ask r hn h => subst h; exact ho.2
  | settle ask' r i t t' hi hp ht h =>
    obtain ⟨more, h1, h2⟩ := settleTask_asks ht hp
    rw [h]
    intro u hu hpu
    obtain ⟨j, hj⟩ := List.mem_iff_getElem?.1 hu
    rcases getElem?_set_cases hj with ⟨rfl, rfl⟩ | ⟨_, hj⟩
    · have := (h2 _ hpu).1
      have := ho.1
      omega
    · exact ho.2 u (List.mem_of_getElem? hj) hpu

theorem run_over {files : Files} : ∀ {es : List Event} {p q : Page}, run files p es = .ok q → ∀ {ask : Nat}, Over ask p →
    Over ask q := by
  intro es
  induction es with
  | nil => intro p q h ask hk; simp [run] at h; subst h; exact hk
  | cons e es ih =>
    intro p q h ask hk
    obtain ⟨r, h1, h2⟩ := run_cons.1 h
    exact ih h2 ((step_change h1).over hk)

theorem settle_over {files : Files} {p q : Page} {ask : Nat} {r : Value ⊕ Value} (h : Change files p q (.settle ask r))
    (hw : Waits p) (ha : ask < p.asks.length) : Over ask q := by
  obtain ⟨more, hm⟩ := h.asks
  refine ⟨by rw [hm, List.length_append]; exact Nat.lt_of_lt_of_le ha (Nat.le_add_right ..), ?_⟩
  cases h with
  | nothing _ _ hn h => subst h; exact hn
  | settle _ _ i t t' hi hp ht h =>
    obtain ⟨more, h1, h2⟩ := settleTask_asks ht hp
    rw [h]
    intro u hu hpu
    obtain ⟨j, hj⟩ := List.mem_iff_getElem?.1 hu
    rcases getElem?_set_cases hj with ⟨rfl, rfl⟩ | ⟨hne, hj⟩
    · have := (h2 _ hpu).1
      omega
    · exact hne (hw.apart j i u t ask hj hi hpu hp)

/-! ## One call -/

theorem Change.good {files : Files} {p q : Page} {e : Event} (h : Change files p q e) {answers : Answers}
    {ts : List (Bytes × Value)} {R : Registry} (ha : Agree answers ts R) {lang word : Bytes} {traceFn : Value} {i : Nat} {t : Task}
    (hi : p.tasks[i]? = some t) (hg : Good files ts R lang word traceFn p.asks t)
    (hr : ∀ ask r a, e = .settle ask r → p.asks[ask]? = some a → r = answers a.fn a.arg) :
    ∃ t', q.tasks[i]? = some t' ∧ Good files ts R lang word traceFn q.asks t' := by
  cases h with
  | use _ ht hq => exact ⟨t, by rw [ht]; exact hi, by rw [hq]; exact hg⟩
  | unknown o visit lang' word' rest e hl hq ht => exact ⟨t, by rw [ht]; exact getElem?_append_some hi _, by rw [hq]; exact hg⟩
  | call o visit lang' word' rest sp u hl hu hq =>
    obtain ⟨more, h1, _⟩ := startTask_asks hu
    exact ⟨t, by rw [hq]; exact getElem?_append_some hi _, by rw [h1]; exact hg.more more⟩
  | nothing ask r hn hq => subst hq; exact ⟨t, hi, hg⟩
  | settle ask r j u u' hj hp hu hq =>
    obtain ⟨more, h1, _⟩ := settleTask_asks hu hp
    by_cases hij : j = i
    · subst hij
      rw [hi] at hj
      cases hj
      refine ⟨u', ?_, settleTask_good ha hg hp (fun a => hr ask r a rfl) hu⟩
      rw [hq, List.getElem?_set]
      simp [(List.getElem?_eq_some_iff.1 hi).1]
    · refine ⟨t, ?_, by rw [h1]; exact hg.more more⟩
      rw [hq, List.getElem?_set, if_neg hij]
      exact hi

theorem run_good {files : Files} {answers : Answers} {ts : List (Bytes × Value)} {R : Registry} (ha : Agree answers ts R)
    {lang word : Bytes} {traceFn : Value} {i : Nat} : ∀ {es : List Event} {p q : Page} {t : Task}, run files p es = .ok q →
    Faithful files p answers es → p.tasks[i]? = some t → Good files ts R lang word traceFn p.asks t →
    ∃ t', q.tasks[i]? = some t' ∧ Good files ts R lang word traceFn q.asks t' := by
  intro es
  induction es with
  | nil => intro p q t h _ hi hg; simp [run] at h; subst h; exact ⟨t, hi, hg⟩
  | cons e es ih =>
    intro p q t h hf hi hg
    obtain ⟨r, h1, h2⟩ := run_cons.1 h
    obtain ⟨t', h3, h4⟩ := (step_change h1).good ha hi hg
      (fun ask r a he hask => hf [] ask r es p a (by rw [he]; rfl) rfl hask)
    refine ih h2 ?_ h3 h4
    intro before ask r' after p' a he hrun hask
    exact hf (e :: before) ask r' after p' a (by rw [he]; rfl) (run_cons.2 ⟨r, h1, hrun⟩) hask

/-- The calls so far. -/
theorem run_length {files : Files} : ∀ {es : List Event} {p q : Page}, run files p es = .ok q →
    q.tasks.length = p.tasks.length + es.countP IsCall := by
  intro es
  induction es with
  | nil => intro p q h; simp [run] at h; subst h; simp
  | cons e es ih =>
    intro p q h
    obtain ⟨r, h1, h2⟩ := run_cons.1 h
    rw [ih h2, List.countP_cons]
    cases step_change h1 with
    | use _ ht => rw [ht]; simp [IsCall]
    | unknown _ _ _ _ _ _ _ _ ht => rw [ht]; simp [IsCall]; omega
    | call _ _ _ _ _ _ _ _ _ ht => rw [ht]; simp [IsCall]; omega
    | nothing _ _ _ hq => subst hq; simp [IsCall]
    | settle _ _ _ _ _ _ _ _ ht => rw [ht]; simp [IsCall]

theorem step_cache {files : Files} {p q : Page} {e : Event} (he : EventOk e) (h : Change files p q e)
    (hc : CacheOk files p.specs) : CacheOk files q.specs := by
  cases h with
  | use _ _ _ hs => rw [hs]; exact hc
  | unknown _ _ _ _ _ _ hl => exact CacheOk.load he.1 hc hl
  | call _ _ _ _ _ _ _ hl => exact CacheOk.load he.1 hc hl
  | nothing _ _ _ hq => subst hq; exact hc
  | settle _ _ _ _ _ _ _ _ _ hs => rw [hs]; exact hc

theorem run_cache {files : Files} : ∀ {es : List Event} {p q : Page}, (∀ e ∈ es, EventOk e) → run files p es = .ok q →
    CacheOk files p.specs → CacheOk files q.specs := by
  intro es
  induction es with
  | nil => intro p q _ h hk; simp [run] at h; subst h; exact hk
  | cons e es ih =>
    intro p q he h hk
    obtain ⟨r, h1, h2⟩ := run_cons.1 h
    exact ih (fun e' h' => he e' (by simp [h'])) h2 (step_cache (he e (by simp)) (step_change h1) hk)

theorem jsSpecs_cache {files : Files} {o : Ord} (ho : o.Ok) : ∀ {langs : List Bytes} {specs specs' : Cache}
    {fields : List (Str × Value)}, jsSpecs files o langs specs = .ok (fields, specs') → CacheOk files specs →
    CacheOk files specs' := by
  intro langs
  induction langs with
  | nil => intro specs specs' fields h hc; simp [jsSpecs] at h; rw [← h.2]; exact hc
  | cons lang langs ih =>
    intro specs specs' fields h hc
    simp only [jsSpecs, Go.bind_eq_ok] at h
    obtain ⟨⟨r, specs1⟩, h1, h⟩ := h
    cases r with
    | inr e => simp at h
    | inl sp =>
      simp only [Go.bind_eq_ok, Prod.exists, Go.pure_eq, Go.ok.injEq, Prod.mk.injEq] at h
      obtain ⟨fields', specs2, h2, _, rfl⟩ := h
      exact ih h2 (CacheOk.load ho hc h1)

/-- The module when it is ready. -/
structure Ready (files : Files) (p : Page) : Prop where
  registry : p.registry = []
  asks : p.asks = []
  tasks : p.tasks = []
  cache : CacheOk files p.specs

theorem main_ready {files : Files} {o : Ord} (ho : o.Ok) {langs : List Bytes} {v : Value} {p : Page}
    (h : main files o langs = .ok (v, p)) : Ready files p := by
  simp only [main, Go.bind_eq_ok, Prod.exists, Go.pure_eq, Go.ok.injEq, Prod.mk.injEq] at h
  obtain ⟨fields, specs, h1, _, rfl⟩ := h
  exact ⟨rfl, rfl, rfl, jsSpecs_cache ho h1 (by intro l sp hl; simp at hl)⟩

theorem Ready.waits {files : Files} {p : Page} (h : Ready files p) : Waits p :=
  ⟨by rw [h.tasks]; simp, by rw [h.tasks]; simp⟩

theorem tracer_eq (rest : List Value) : tracerOf ((rest.head?).getD .undefined) [] [] = tracerFor rest := by
  cases rest with
  | nil => rfl
  | cons v rest => cases v <;> rfl

theorem call_good {files : Files} {answers : Answers} {before : List Event} {p0 p1 p2 : Page} (hr : Ready files p0)
    (hb : ∀ e ∈ before, EventOk e) (h1 : run files p0 before = .ok p1) {o : Ord}
    {visit : List (Bytes × Value) → List (Bytes × Value)} {lang word : Value} {rest : List Value}
    (he : EventOk (.hangulize o visit (lang :: word :: rest)))
    (h2 : step files p1 (.hangulize o visit (lang :: word :: rest)) = .ok p2) :
    ∃ ts t, Agree answers ts (registered answers before) ∧ p2.tasks[before.countP IsCall]? = some t ∧
      Good files ts (registered answers before) lang.text word.text ((rest.head?).getD .undefined) p2.asks t := by
  have hk : Keyed p1.registry := run_keyed h1 (by rw [hr.registry]; simp [Keyed])
  have hc := run_cache hb h1 hr.cache
  have hlen : p1.tasks.length = before.countP IsCall := by rw [run_length h1, hr.tasks]; simp
  have hag : Agree answers (importTranslits (visit p1.registry)) (registered answers before) := by
    intro s
    rw [import_lookup, lookup_perm (he.2 _) hk, run_registry h1 s, hr.registry]
    simpa using registered_agree answers before s
  cases step_change h2 with
  | unknown _ _ _ _ _ e hl ha h =>
    refine ⟨_, ⟨(rest.head?).getD .undefined, [], .rejected e⟩, hag, by rw [h, ← hlen]; simp, rfl, .inl ?_⟩
    rcases loadSpec_cases hl with ⟨sp, _, h3, _⟩ | ⟨_, h3, h4, _⟩ | ⟨src, sp, _, _, _, h3, _⟩
    · cases h3
    · cases h4; exact .unknown h3
    · cases h3
  | call _ _ _ _ _ sp t hl ht h =>
    refine ⟨_, t, hag, by rw [h, ← hlen]; simp, ?_⟩
    rcases loadSpec_cases hl with ⟨sp', h3, h4, _⟩ | ⟨_, _, h4, _⟩ | ⟨src, sp', _, h3, h4, h5, _⟩
    · cases h4
      obtain ⟨src, o', h5, h6, h7⟩ := hc _ _ h3
      exact startTask_good hag h5 h6 h7 ht
    · cases h4
    · cases h5
      exact startTask_good hag h3 he.1 h4 ht

theorem Good.cases {files : Files} {ts : List (Bytes × Value)} {R : Registry} {lang word : Bytes} {traceFn : Value}
    {asks : List Ask} {t : Task} (h : Good files ts R lang word traceFn asks t) :
    (∃ ask, Pending t ask) ∨ Finished files R lang word (tracerOf traceFn [] []) t.status t.log := by
  obtain ⟨_, h | ⟨sp, src, o, scheme, todo, prev, ask, fn, w, done, h, _⟩⟩ := h
  · exact .inr h
  · exact .inl ⟨ask, _, _, _, _, _, h⟩

theorem pending_unsettled {files : Files} {p0 q : Page} (hr : Ready files p0) {evs : List Event} (h : run files p0 evs = .ok q)
    {t : Task} (ht : t ∈ q.tasks) {ask : Nat} (hp : Pending t ask) : ¬ Settled files p0 evs ask := by
  rintro ⟨before, r, after, p, rfl, h1, h2⟩
  obtain ⟨p1, h3, h4⟩ := run_append.1 h
  rw [h1] at h3
  cases h3
  obtain ⟨p2, h5, h6⟩ := run_cons.1 h4
  exact (run_over h6 (settle_over (step_change h5) (run_waits h1 hr.waits) h2)).2 t ht hp

theorem Change.stable {files : Files} {p q : Page} {e : Event} (h : Change files p q e) {i : Nat} {t : Task}
    (hi : p.tasks[i]? = some t) (ht : ∀ ask, ¬ Pending t ask) : q.tasks[i]? = some t := by
  cases h with
  | use _ h => rw [h]; exact hi
  | unknown _ _ _ _ _ _ _ _ h => rw [h]; exact getElem?_append_some hi _
  | call _ _ _ _ _ _ _ _ _ h => rw [h]; exact getElem?_append_some hi _
  | nothing _ _ _ h => subst h; exact hi
  | settle ask _ j u _ hj hp _ h =>
    rw [h, List.getElem?_set, if_neg]
    · exact hi
    · rintro rfl
      rw [hi] at hj
      cases hj
      exact ht _ hp

theorem run_stable {files : Files} {i : Nat} {t : Task} (ht : ∀ ask, ¬ Pending t ask) :
    ∀ {es : List Event} {p q : Page}, run files p es = .ok q → p.tasks[i]? = some t → q.tasks[i]? = some t := by
  intro es
  induction es with
  | nil => intro p q h hi; simp [run] at h; subst h; exact hi
  | cons e es ih =>
    intro p q h hi
    obtain ⟨r, h1, h2⟩ := run_cons.1 h
    exact ih h2 ((step_change h1).stable hi ht)

/-! ## No panics -/

/-- A tracing function is a function, or there is none. -/
def Traceable (v : Value) : Prop := v = .undefined ∨ ∃ fn, v = .func fn

def Funcs (ts : List (Bytes × Value)) : Prop := ∀ s v, ts.lookup s = some v → ∃ fn, v = .func fn

/-- A spec whose procedure always returns. -/
def Runs (sp : Spec) : Prop := ∀ w tr, ∃ out evs, afterTranslit sp w tr = .ok (out, tr.traces evs)

theorem Shape.traces {traceFn : Value} : ∀ (evs : List Trace) {tr : Tracer}, Shape traceFn tr → Shape traceFn (tr.traces evs)
  | [], _, h => h
  | e :: evs, _, h => Shape.traces evs (h.trace e)

theorem invokeTrace_ok {v : Value} (h : Traceable v) {tr : Tracer} (ht : Shape v tr) (log : List Trace)
    (hl : log = [] ∨ v ≠ .undefined) : invokeTrace v log (logOf tr) = .ok () := by
  rcases h with rfl | ⟨fn, rfl⟩
  · have : tr = none := by rw [← ht]; rfl
    subst this
    rcases hl with rfl | hl
    · rfl
    · exact absurd rfl hl
  · unfold invokeTrace; split <;> rfl

theorem proceed_ok {sp : Spec} (hs : Runs sp) {ts : List (Bytes × Value)} (hf : Funcs ts) (todo : List Bytes) (w : Bytes)
    {v : Value} {tr : Tracer} (ht : Shape v tr) (asks : List Ask) :
    ∃ status tr' asks', proceed sp ts todo w tr asks = .ok (status, tr', asks') ∧ Shape v tr' ∧
      ∀ sp' ts' scheme todo' prev ask, status = .waiting sp' ts' scheme todo' prev ask → sp' = sp ∧ ts' = ts := by
  cases todo with
  | nil =>
    obtain ⟨out, evs, hx⟩ := hs w tr
    refine ⟨.resolved (ofText out), tr.traces evs, asks, by simp only [proceed, hx], ht.traces evs, ?_⟩
    intro _ _ _ _ _ _ h
    cases h
  | cons s todo =>
    cases hl : ts.lookup s with
    | none =>
      refine ⟨.rejected .translitNotImported, tr, asks, by simp only [proceed, hl], ht, ?_⟩
      intro _ _ _ _ _ _ h
      cases h
    | some u =>
      obtain ⟨fn, rfl⟩ := hf s u hl
      refine ⟨_, tr, _, by simp only [proceed, hl]; rfl, ht, ?_⟩
      intro _ _ _ _ _ _ h
      cases h
      exact ⟨rfl, rfl⟩

/-- What no event breaks as long as the page does as it should. -/
structure Safe (files : Files) (p : Page) : Prop where
  registry : Funcs p.registry
  cache : CacheOk files p.specs
  tasks : ∀ t ∈ p.tasks, Traceable t.traceFn ∧ (t.traceFn = .undefined → t.log = []) ∧
    ∀ sp ts scheme todo prev ask, t.status = .waiting sp ts scheme todo prev ask → Runs sp ∧ Funcs ts

theorem logOf_undefined {tr : Tracer} (h : Shape .undefined tr) : logOf tr = [] := by
  have : tr = none := by rw [← h]; rfl
  rw [this]; rfl

theorem startTask_ok {sp : Spec} (hs : Runs sp) {ts : List (Bytes × Value)} (hf : Funcs ts) (word : Bytes) {v : Value}
    (hv : Traceable v) (asks : List Ask) : ∃ t asks', startTask sp ts word v asks = .ok (t, asks') ∧
      Traceable t.traceFn ∧ (t.traceFn = .undefined → t.log = []) ∧
      ∀ sp ts scheme todo prev ask, t.status = .waiting sp ts scheme todo prev ask → Runs sp ∧ Funcs ts := by
  obtain ⟨status, tr, asks', h1, h2, h3⟩ := proceed_ok hs hf sp.lang.translit word
    ((shape_of v [] []).trace { step := .input, word }) asks
  refine ⟨⟨v, logOf tr, status⟩, asks', ?_, hv, ?_, ?_⟩
  · simp only [startTask, h1, Go.bind_ok, invokeTrace_ok hv h2 [] (.inl rfl), Go.pure_eq]
  · rintro ⟨⟩
    exact logOf_undefined h2
  · intro sp' ts' scheme todo prev ask h
    obtain ⟨rfl, rfl⟩ := h3 _ _ _ _ _ _ h
    exact ⟨hs, hf⟩

theorem settleTask_ok {t : Task} {ask : Nat} (ht : Pending t ask) (h : Traceable t.traceFn ∧ (t.traceFn = .undefined → t.log = []) ∧
      ∀ sp ts scheme todo prev ask, t.status = .waiting sp ts scheme todo prev ask → Runs sp ∧ Funcs ts)
    {r : Value ⊕ Value} (hr : Documented (.settle ask r)) (asks : List Ask) : ∃ t' asks', settleTask t r asks = .ok (t', asks') ∧
      Traceable t'.traceFn ∧ (t'.traceFn = .undefined → t'.log = []) ∧
      ∀ sp ts scheme todo prev ask, t'.status = .waiting sp ts scheme todo prev ask → Runs sp ∧ Funcs ts := by
  obtain ⟨sp, ts, scheme, todo, prev, ht⟩ := ht
  obtain ⟨h1, h2, h3⟩ := h
  obtain ⟨hs, hf⟩ := h3 _ _ _ _ _ _ ht
  unfold settleTask
  rw [ht]
  cases r with
  | inl v =>
    obtain ⟨status, tr, asks', g1, g2, g3⟩ := proceed_ok hs hf todo v.text
      ((shape_of t.traceFn t.log prev).trace { step := .transliterate, word := v.text, why := scheme }) asks
    refine ⟨⟨t.traceFn, logOf tr, status⟩, asks', ?_, h1, ?_, ?_⟩
    · have := invokeTrace_ok h1 g2 t.log (by
        by_cases e : t.traceFn = .undefined
        · exact .inl (h2 e)
        · exact .inr e)
      simp only [g1, Go.bind_ok, this, Go.pure_eq]
    · intro e
      rw [show t.traceFn = .undefined from e] at g2
      exact logOf_undefined g2
    · intro sp' ts' scheme todo prev ask h
      obtain ⟨rfl, rfl⟩ := g3 _ _ _ _ _ _ h
      exact ⟨hs, hf⟩
  | inr v =>
    obtain ⟨fields, rfl⟩ := hr v rfl
    refine ⟨{ t with status := .rejected .translit }, asks, by simp [Value.get], h1, h2, ?_⟩
    intro _ _ _ _ _ _ h
    cases h

theorem addTranslit_funcs {r : List (Bytes × Value)} (h : Funcs r) (scheme : Bytes) (fn : Nat) :
    Funcs (addTranslit r scheme (.func fn)).1 := by
  intro s v hv
  rw [addTranslit_lookup] at hv
  cases hl : r.lookup s with
  | some u => rw [hl] at hv; simp at hv; subst hv; exact h s _ hl
  | none =>
    rw [hl] at hv
    simp only [Option.none_or] at hv
    split at hv
    · cases hv; exact ⟨fn, rfl⟩
    · cases hv

theorem Safe.step {files : Files} (hfiles : ∀ lang src o sp, files lang = some src → Ord.Ok o → parseSpec o src = .ok sp → Runs sp)
    (hload : ∀ o lang specs, Ord.Ok o → CacheOk files specs → ∃ r specs', loadSpec files o lang specs = .ok (r, specs'))
    {p : Page} (h : Safe files p) (hk : Keyed p.registry) {e : Event} (he : Documented e) :
    ∃ q, step files p e = .ok q ∧ Safe files q := by
  cases e with
  | useTranslit args =>
    obtain ⟨scheme, fn, rest, rfl⟩ := he
    exact ⟨_, rfl, addTranslit_funcs h.registry _ _, h.cache, h.tasks⟩
  | hangulize o visit args =>
    obtain ⟨⟨ho, hvis⟩, lang, word, rest, rfl, hrest⟩ := he
    have hv : Traceable (((lang :: word :: rest)[2]?).getD .undefined) := by
      rcases hrest with rfl | ⟨r, rfl | ⟨fn, rfl⟩⟩
      · exact .inl rfl
      · exact .inl rfl
      · exact .inr ⟨fn, rfl⟩
    have hf : Funcs (importTranslits (visit p.registry)) := by
      intro s v hs
      rw [import_lookup, lookup_perm (hvis _) hk] at hs
      exact h.registry s v hs
    obtain ⟨r, specs, hl⟩ := hload o lang.text p.specs ho h.cache
    have hc := CacheOk.load ho h.cache hl
    cases r with
    | inr e =>
      refine ⟨{ p with specs, tasks := p.tasks ++ [⟨((lang :: word :: rest)[2]?).getD .undefined, [], .rejected e⟩] }, ?_,
        h.registry, hc, ?_⟩
      · show (loadSpec files o lang.text p.specs >>= _) = _
        rw [hl]; rfl
      · intro t ht
        rcases List.mem_append.1 ht with ht | ht
        · exact h.tasks t ht
        · simp only [List.mem_singleton] at ht
          subst ht
          refine ⟨hv, fun _ => rfl, ?_⟩
          intro _ _ _ _ _ _ h
          cases h
    | inl sp =>
      have hs : Runs sp := by
        rcases loadSpec_cases hl with ⟨sp', h3, h4, _⟩ | ⟨_, _, h4, _⟩ | ⟨src, sp', _, h3, h4, h5, _⟩
        · cases h4
          obtain ⟨src, o', h5, h6, h7⟩ := h.cache _ _ h3
          exact hfiles _ _ _ _ h5 h6 h7
        · cases h4
        · cases h5
          exact hfiles _ _ _ _ h3 ho h4
      obtain ⟨t, asks, h1, h2⟩ := startTask_ok hs hf word.text hv p.asks
      refine ⟨{ p with specs, asks, tasks := p.tasks ++ [t] }, ?_, h.registry, hc, ?_⟩
      · show (loadSpec files o lang.text p.specs >>= _) = _
        rw [hl]
        simp only [Go.bind_ok, h1, Go.pure_eq]
      · intro t' ht
        rcases List.mem_append.1 ht with ht | ht
        · exact h.tasks t' ht
        · simp only [List.mem_singleton] at ht
          subst ht
          exact h2
  | settle ask r =>
    simp only [Wasm.step]
    split
    · exact ⟨p, rfl, h⟩
    · rename_i i hi
      rw [List.findIdx?_eq_some_iff_getElem] at hi
      obtain ⟨hlt, hw, _⟩ := hi
      rw [List.getElem?_eq_getElem hlt]
      obtain ⟨t', asks, h1, h2⟩ := settleTask_ok ((waitsFor_iff _ _).1 hw) (h.tasks _ (List.getElem_mem hlt)) he p.asks
      refine ⟨{ p with asks, tasks := p.tasks.set i t' }, ?_, h.registry, h.cache, ?_⟩
      · simp only [h1, Go.bind_ok, Go.pure_eq]
      · intro u hu
        rcases List.mem_or_eq_of_mem_set hu with hu | rfl
        · exact h.tasks u hu
        · exact h2

theorem Safe.run {files : Files} (hfiles : ∀ lang src o sp, files lang = some src → Ord.Ok o → parseSpec o src = .ok sp → Runs sp)
    (hload : ∀ o lang specs, Ord.Ok o → CacheOk files specs → ∃ r specs', loadSpec files o lang specs = .ok (r, specs')) :
    ∀ (es : List Event) {p : Page}, Safe files p → Keyed p.registry → (∀ e ∈ es, Documented e) →
    ∃ q, run files p es = .ok q ∧ Safe files q := by
  intro es
  induction es with
  | nil => intro p h _ _; exact ⟨p, rfl, h⟩
  | cons e es ih =>
    intro p h hk he
    obtain ⟨q, h1, h2⟩ := h.step hfiles hload hk (he e (by simp))
    obtain ⟨q', h3, h4⟩ := ih h2 (step_keyed h1 hk) (fun e' h' => he e' (by simp [h']))
    exact ⟨q', run_cons.2 ⟨q, h1, h3⟩, h4⟩

end Verif.Wasm
