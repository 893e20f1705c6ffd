import Verif.Proofs.Goroutines

/-! # One goroutine -/

namespace Verif.Goroutines

open Verif.Spec.Goroutines

/-- translit/translit.go:33-35, by schemes. -/
def drop (r : Registry) (ss : List Bytes) : Registry := ss.foldl (fun r s => (r.remove s).1) r

theorem uninstall_drop : ∀ (ts : List Translit) (r : Registry), uninstall r ts = drop r (ts.map (·.scheme))
  | [], _ => rfl
  | t :: ts, r => by
    simp only [uninstall, uninstall_drop ts, drop, List.map_cons, List.foldl_cons]

/-- Where the goroutine is, given the shared variables at the start of its call. -/
def Within (files : Files) (m₀ m : Memory) (t : Thread) : Prop :=
  match t.pc with
  | .start => m = m₀
  | .store sp => m = m₀ ∧ m₀.specs.lookup t.lang = none ∧ (∃ src o, files t.lang = some src ∧ o.Ok ∧ parseSpec o src = .ok sp) ∧
    ∃ c rest, t.todo = c :: rest ∧ (c = .load t.lang ∨ ∃ word, c = .hangulize t.lang word)
  | .detach sp => ∃ lang word rest o, t.todo = .hangulize lang word :: rest ∧ o.Ok ∧ loadSpec files o lang m₀.specs = .ok (.inl sp, m.specs) ∧
    m.registry = m₀.registry
  | .check r => ∃ c rest, t.todo = c :: rest ∧ Does files m₀ m c (.word r)
  | .make r => ∃ c rest, t.todo = c :: rest ∧ Does files m₀ m c (.word r)
  | .look done x xs => m.specs = m₀.specs ∧ ∃ ts rest, t.todo = .install ts :: rest ∧
    installLoop m.registry done (x :: xs) = install ts m₀.registry
  | .add done x xs => m.specs = m₀.specs ∧ ∃ ts rest, t.todo = .install ts :: rest ∧
    installLoop (mapSet m.registry x.scheme x) (done ++ [x]) xs = install ts m₀.registry
  | .find s ss last => m.specs = m₀.specs ∧
    ((last = some false ∧ ∃ ts rest, t.todo = .install ts :: rest ∧ install ts m₀.registry = (drop m.registry (s :: ss), false)) ∨
      (last = none ∧ ss = [] ∧ m.registry = m₀.registry ∧ ∃ rest, t.todo = .unuse s :: rest))
  | .delete s ss last => m.specs = m₀.specs ∧ (m.registry.lookup s).isSome = true ∧
    ((last = some false ∧ ∃ ts rest, t.todo = .install ts :: rest ∧ install ts m₀.registry = (drop m.registry (s :: ss), false)) ∨
      (last = none ∧ ss = [] ∧ m.registry = m₀.registry ∧ ∃ rest, t.todo = .unuse s :: rest))

/-- What holds for the goroutine. -/
def Single (files : Files) (m : Memory) (calls : List Call) (m' : Memory) (t : Thread) : Prop :=
  ∃ done m₀, calls = done ++ t.todo ∧ Serially files m done t.results m₀ ∧ Within files m₀ m' t

theorem Single.ret {files : Files} {m m₀ m' : Memory} {calls done : List Call} {t : Thread} {c : Call} {rest : List Call} {r : Res}
    (h1 : calls = done ++ t.todo) (h2 : Serially files m done t.results m₀) (ht : t.todo = c :: rest) (h : Does files m₀ m' c r) :
    Single files m calls m' (t.ret r) :=
  ⟨done ++ [c], m', by simp [Thread.ret, h1, ht], .snoc h2 h, rfl⟩

theorem Single.goto {files : Files} {m m₀ m' : Memory} {calls done : List Call} {t : Thread} {pc : Pc}
    (h1 : calls = done ++ t.todo) (h2 : Serially files m done t.results m₀) (h : Within files m₀ m' (t.goto pc)) :
    Single files m calls m' (t.goto pc) := ⟨done, m₀, h1, h2, h⟩

theorem does_kagome {files : Files} {m m' : Memory} {c : Call} {r : Res} (h : Does files m m' c r) (b : Bool) :
    Does files m { m' with kagome := b } c r := by
  cases c <;> cases r <;> exact h

theorem Single.installing {files : Files} {m m₀ m' : Memory} {calls done : List Call} {t : Thread} {ts : List Translit} {rest : List Call}
    (h1 : calls = done ++ t.todo) (h2 : Serially files m done t.results m₀) (ht : t.todo = .install ts :: rest)
    (hs : m'.specs = m₀.specs) (xs ys : List Translit) (h : installLoop m'.registry xs ys = install ts m₀.registry) :
    Single files m calls m' (t.installing xs ys) := by
  cases ys with
  | nil =>
    refine Single.ret h1 h2 ht ⟨?_, hs⟩
    rw [← h]
    rfl
  | cons y ys => exact Single.goto h1 h2 ⟨hs, ts, rest, ht, h⟩

theorem Single.removing {files : Files} {m m₀ m' : Memory} {calls done : List Call} {t : Thread} {ts : List Translit} {rest : List Call}
    (h1 : calls = done ++ t.todo) (h2 : Serially files m done t.results m₀) (ht : t.todo = .install ts :: rest)
    (hs : m'.specs = m₀.specs) (ss : List Bytes) (h : install ts m₀.registry = (drop m'.registry ss, false)) :
    Single files m calls m' (t.removing false ss) := by
  cases ss with
  | nil => exact Single.ret h1 h2 ht ⟨h, hs⟩
  | cons s ss => exact Single.goto h1 h2 ⟨hs, .inl ⟨rfl, ts, rest, ht, h⟩⟩

theorem Single.forward {files : Files} {m m₀ m' : Memory} {calls done : List Call} {t t' : Thread} {c : Call} {rest : List Call}
    (h1 : calls = done ++ t.todo) (h2 : Serially files m done t.results m₀) (ht : t.todo = c :: rest) {sp : Spec} {translits : Registry}
    {word : Bytes} (h : ∀ r, wordErr (Verif.forward sp translits word none).1 = .ok r → Does files m₀ m' c (.word r))
    (hf : t.forward sp translits word = .ok t') : Single files m calls m' t' := by
  simp only [Thread.forward, Go.bind_eq_ok, Go.pure_eq, Go.ok.injEq] at hf
  obtain ⟨r, hw, rfl⟩ := hf
  split
  · exact Single.goto h1 h2 ⟨c, rest, ht, h r hw⟩
  · exact Single.ret h1 h2 ht (h r hw)

/-- A spec is at hand. -/
theorem Single.loaded {files : Files} {m m₀ m' : Memory} {calls done : List Call} {t : Thread} {c : Call} {rest : List Call}
    (h1 : calls = done ++ t.todo) (h2 : Serially files m done t.results m₀) (ht : t.todo = c :: rest)
    (hc : c = .load t.lang ∨ ∃ word, c = .hangulize t.lang word) {o : Ord} (ho : o.Ok) {r : Spec ⊕ Err}
    (hl : loadSpec files o t.lang m₀.specs = .ok (r, m'.specs)) (hr : m'.registry = m₀.registry) :
    Single files m calls m' (t.loaded r) := by
  rcases hc with hc | ⟨word, hc⟩
  · have e : t.loaded r = t.ret (.spec r) := by cases r <;> simp [Thread.loaded, ht, hc]
    rw [e]
    refine Single.ret h1 h2 ht ?_
    rw [hc]
    refine ⟨o, { world m₀ with specs := m'.specs }, ho, ?_, rfl, hr⟩
    have e2 : (world m₀).specs = m₀.specs := rfl
    simp [Verif.call, e2, hl]
  · cases r with
    | inl sp =>
      have e : t.loaded (.inl sp) = t.goto (.detach sp) := by simp [Thread.loaded, ht, hc]
      rw [e]
      exact Single.goto h1 h2 ⟨t.lang, word, rest, o, by rw [← hc]; exact ht, ho, hl, hr⟩
    | inr er =>
      have e : t.loaded (.inr er) = t.ret (.word (word, some er)) := by simp [Thread.loaded, ht, hc]
      rw [e]
      refine Single.ret h1 h2 ht ?_
      rw [hc]
      refine ⟨o, { world m₀ with specs := m'.specs }, ho, ?_, rfl, hr⟩
      have e2 : (world m₀).specs = m₀.specs := rfl
      simp [Verif.call, e2, hl]

theorem Single.load {files : Files} {m m₀ : Memory} {calls done : List Call} {t t' : Thread} {c : Call} {rest : List Call}
    (h1 : calls = done ++ t.todo) (h2 : Serially files m done t.results m₀) (ht : t.todo = c :: rest)
    (hc : c = .load t.lang ∨ ∃ word, c = .hangulize t.lang word) {o : Ord} (ho : o.Ok) (hs : t.load files o m₀.specs = .ok t') :
    Single files m calls m₀ t' := by
  simp only [Thread.load] at hs
  cases hl : m₀.specs.lookup t.lang with
  | some sp =>
    simp only [hl, Go.ok.injEq] at hs
    subst hs
    exact Single.loaded h1 h2 ht hc ho (by simp [loadSpec, hl]) rfl
  | none =>
    simp only [hl] at hs
    cases hf : files t.lang with
    | none =>
      simp only [hf, Go.ok.injEq] at hs
      subst hs
      exact Single.loaded h1 h2 ht hc ho (by simp [loadSpec, hl, hf]) rfl
    | some src =>
      simp only [hf] at hs
      cases hp : parseSpec o src with
      | ok sp =>
        simp only [hp, Go.ok.injEq] at hs
        subst hs
        exact Single.goto h1 h2 ⟨rfl, hl, ⟨src, o, hf, ho, hp⟩, c, rest, ht, hc⟩
      | err => simp [hp] at hs
      | panic => simp [hp] at hs
      | hang => simp [hp] at hs

theorem Single.step {files : Files} {m m₁ m' : Memory} {calls : List Call} {t t' : Thread} (h : Single files m calls m₁ t) {o : Ord}
    (ho : o.Ok) (hs : t.step files o m₁ = .ok (t', m')) : Single files m calls m' t' := by
  obtain ⟨done, m₀, h1, h2, h3⟩ := h
  obtain ⟨pc, todo, results⟩ := t
  cases pc with
  | start =>
    cases h3
    cases todo with
    | nil =>
      simp only [Thread.step, Go.ok.injEq, Prod.mk.injEq] at hs
      obtain ⟨rfl, rfl⟩ := hs
      exact ⟨done, m₁, h1, h2, rfl⟩
    | cons c todo =>
      cases c with
      | load lang =>
        simp only [Thread.step, Go.bind_eq_ok, Go.pure_eq, Go.ok.injEq, Prod.mk.injEq] at hs
        obtain ⟨t1, ht1, rfl, rfl⟩ := hs
        exact Single.load h1 h2 rfl (.inl rfl) ho ht1
      | hangulize lang word =>
        simp only [Thread.step, Go.bind_eq_ok, Go.pure_eq, Go.ok.injEq, Prod.mk.injEq] at hs
        obtain ⟨t1, ht1, rfl, rfl⟩ := hs
        exact Single.load h1 h2 rfl (.inr ⟨word, rfl⟩) ho ht1
      | unload lang =>
        simp only [Thread.step, Go.ok.injEq, Prod.mk.injEq] at hs
        obtain ⟨rfl, rfl⟩ := hs
        exact Single.ret h1 h2 rfl ⟨_, rfl, rfl, rfl⟩
      | run sp translits word =>
        simp only [Thread.step, Go.bind_eq_ok, Go.pure_eq, Go.ok.injEq, Prod.mk.injEq] at hs
        obtain ⟨t1, ht1, rfl, rfl⟩ := hs
        exact Single.forward h1 h2 rfl (fun r hr => ⟨hr, rfl, rfl⟩) ht1
      | install ts =>
        simp only [Thread.step, Go.ok.injEq, Prod.mk.injEq] at hs
        obtain ⟨rfl, rfl⟩ := hs
        exact Single.installing h1 h2 rfl rfl [] ts rfl
      | unuse s =>
        simp only [Thread.step, Go.ok.injEq, Prod.mk.injEq] at hs
        obtain ⟨rfl, rfl⟩ := hs
        exact Single.goto h1 h2 ⟨rfl, .inr ⟨rfl, rfl, rfl, todo, rfl⟩⟩
  | store sp =>
    obtain ⟨rfl, hl, ⟨src, o', hf, ho', hp⟩, c, rest, ht, hc⟩ := h3
    simp only [Thread.step, Go.ok.injEq, Prod.mk.injEq] at hs
    obtain ⟨rfl, rfl⟩ := hs
    exact Single.loaded h1 h2 ht hc ho' (by simp [loadSpec, hl, hf, hp]) rfl
  | detach sp =>
    obtain ⟨lang, word, rest, o', e, ho', hl, hr⟩ := h3
    simp only at e
    subst e
    simp only [Thread.step, Go.bind_eq_ok, Go.pure_eq, Go.ok.injEq, Prod.mk.injEq] at hs
    obtain ⟨t1, ht1, rfl, rfl⟩ := hs
    refine Single.forward h1 h2 rfl (fun r hw => ⟨o', { world m₀ with specs := m₁.specs }, ho', ?_, rfl, hr⟩) ht1
    have e2 : (world m₀).specs = m₀.specs := rfl
    have e3 : (world m₀).map 0 = m₁.registry := hr.symm
    simp [Verif.call, e2, e3, hl, hw]
  | check r =>
    obtain ⟨c, rest, e, hd⟩ := h3
    simp only [Thread.step, Go.ok.injEq, Prod.mk.injEq] at hs
    obtain ⟨rfl, rfl⟩ := hs
    split
    · exact Single.ret h1 h2 e hd
    · exact Single.goto h1 h2 ⟨c, rest, e, hd⟩
  | make r =>
    obtain ⟨c, rest, e, hd⟩ := h3
    simp only [Thread.step, Go.ok.injEq, Prod.mk.injEq] at hs
    obtain ⟨rfl, rfl⟩ := hs
    exact Single.ret h1 h2 e (does_kagome hd true)
  | look xs x ys =>
    obtain ⟨hsp, ts, rest, e, hi⟩ := h3
    simp only [Thread.step] at hs
    simp only [installLoop, Registry.add] at hi
    cases hl : m₁.registry.lookup x.scheme with
    | some y =>
      simp only [hl, Go.ok.injEq, Prod.mk.injEq] at hs hi
      obtain ⟨rfl, rfl⟩ := hs
      refine Single.removing h1 h2 e hsp _ ?_
      rw [← hi, uninstall_drop]
    | none =>
      simp only [hl, Go.ok.injEq, Prod.mk.injEq] at hs hi
      obtain ⟨rfl, rfl⟩ := hs
      exact Single.goto h1 h2 ⟨hsp, ts, rest, e, hi⟩
  | add xs x ys =>
    obtain ⟨hsp, ts, rest, e, hi⟩ := h3
    simp only [Thread.step, Go.ok.injEq, Prod.mk.injEq] at hs
    obtain ⟨rfl, rfl⟩ := hs
    exact Single.installing (m' := { m₁ with registry := mapSet m₁.registry x.scheme x }) h1 h2 e hsp _ _ hi
  | find s ss last =>
    obtain ⟨hsp, h3⟩ := h3
    simp only [Thread.step] at hs
    cases hl : m₁.registry.lookup s with
    | some y =>
      simp only [hl, Go.ok.injEq, Prod.mk.injEq] at hs
      obtain ⟨rfl, rfl⟩ := hs
      exact Single.goto h1 h2 ⟨hsp, by simp [hl], h3⟩
    | none =>
      simp only [hl, Go.ok.injEq, Prod.mk.injEq] at hs
      obtain ⟨rfl, rfl⟩ := hs
      rcases h3 with ⟨rfl, ts, rest, e, hi⟩ | ⟨rfl, rfl, hr, rest, e⟩
      · refine Single.removing h1 h2 e hsp _ ?_
        simpa [drop, Registry.remove, hl] using hi
      · refine Single.ret h1 h2 e ⟨{ world m₀ with maps := [m₁.registry] }, ?_, hsp, rfl⟩
        have e3 : (world m₀).map 0 = m₁.registry := hr.symm
        simp [Verif.call, World.registry, e3, Registry.remove, hl]
        rfl
  | delete s ss last =>
    obtain ⟨hsp, hl, h3⟩ := h3
    obtain ⟨y, hl⟩ := Option.isSome_iff_exists.1 hl
    simp only [Thread.step, Go.ok.injEq, Prod.mk.injEq] at hs
    obtain ⟨rfl, rfl⟩ := hs
    rcases h3 with ⟨rfl, ts, rest, e, hi⟩ | ⟨rfl, rfl, hr, rest, e⟩
    · refine Single.removing (m' := { m₁ with registry := mapDelete m₁.registry s }) h1 h2 e hsp _ ?_
      simpa [drop, Registry.remove, hl] using hi
    · refine Single.ret h1 h2 e ⟨{ world m₀ with maps := [mapDelete m₁.registry s] }, ?_, hsp, rfl⟩
      have e3 : (world m₀).map 0 = m₁.registry := hr.symm
      simp [Verif.call, World.registry, e3, Registry.remove, hl]
      rfl

theorem Single.reach {files : Files} {m : Memory} {calls : List Call} {c : Machine}
    (hr : Reach files ⟨m, [Spec.Goroutines.routine calls]⟩ c) : ∃ t, c.threads = [t] ∧ Single files m calls c.memory t := by
  generalize hc0 : (⟨m, [Spec.Goroutines.routine calls]⟩ : Machine) = c0 at hr
  induction hr with
  | refl =>
    subst hc0
    exact ⟨_, rfl, [], m, rfl, .nil, rfl⟩
  | @step b _ _ s ih =>
    obtain ⟨t, e, h⟩ := ih
    cases s with
    | @mk i u u' o m' ho hi hs =>
      rw [e] at hi ⊢
      cases i with
      | zero =>
        simp only [List.getElem?_cons_zero, Option.some.injEq] at hi
        subst hi
        exact ⟨u', rfl, h.step ho hs⟩
      | succ i => simp at hi

end Verif.Goroutines
