import Verif.Model.Hook

/-! # Facts about `useHangulize` -/

namespace Verif.Hook

open Verif.Js (Str)

/-- Whether an input is valid. -/
def Hook.isValid (valid : Input → Bool) (h : Hook) (i : Nat) : Bool := (h.inputs[i]?.map valid).getD false

/-- What is known after the effect ran for the input `i`. -/
structure Last (valid : Input → Bool) (h : Hook) (i : Nat) : Prop where
  good : h.isValid valid i = true → h.target = some i ∧ ((∃ t ∈ h.tasks, t.input = i ∧ t.stage ≠ .done) ∨
      ∃ (j : Nat) (r : Str), h.jobs[j]? = some (Job.mk i (some r)) ∧ h.next.result = r ∧ h.next.phase = .idle ∧ h.timer = none ∧
        ∀ t ∈ h.tasks, t.input = i → t.stage = .done)
  bad : h.isValid valid i = false → h.timer = none ∧ h.next.phase = .idle ∧
    (h.next.result = [] ∨ ∃ (t j : Nat) (r : Str), h.target = some t ∧ h.jobs[j]? = some (Job.mk t (some r)) ∧ h.next.result = r)

/-- Where a call waits makes sense. -/
def Sensible (h : Hook) (t : Task) : Prop :=
  match t.stage with
  | .queued j => j < h.jobs.length
  | .running j => ∃ a, h.jobs[j]? = some ⟨t.input, a⟩
  | _ => True

/-- What holds for every state of the hook. -/
structure Inv (valid : Input → Bool) (h : Hook) : Prop where
  first : h.inputs[0]? = some ⟨[], []⟩
  nextIn : h.next.input < h.inputs.length
  shownLe : h.shown.input ≤ h.next.input
  ranLe : ∀ s i, h.ran = some (s, i) → i ≤ h.shown.input
  fresh : h.ran = none → h.shown.input = 0 ∧ h.target = none ∧ h.timer = none
  phase : h.ran ≠ none → h.next.phase ≠ .initializing ∧ (h.due = true → h.shown.phase ≠ .initializing)
  targetLe : ∀ t, h.target = some t → ∃ s i, h.ran = some (s, i) ∧ t ≤ i
  taskLe : ∀ t ∈ h.tasks, ∃ u, h.target = some u ∧ t.input ≤ u
  nodup : (h.tasks.map Task.input).Nodup
  stages : ∀ t ∈ h.tasks, Sensible h t
  proc : ∀ j, h.processing = some j → j < h.jobs.length
  timers : ∀ t ∈ h.timers, h.timer = some t
  last : ∀ s i, h.ran = some (s, i) → Last valid h i

theorem Inv.init {valid : Input → Bool} : Inv valid init where
  first := rfl
  nextIn := by decide
  shownLe := by decide
  ranLe := by intro s i h; cases h
  fresh := fun _ => ⟨rfl, rfl, rfl⟩
  phase := fun h => absurd rfl h
  targetLe := by intro t h; cases h
  taskLe := by intro t h; cases h
  nodup := .nil
  stages := by intro t h; cases h
  proc := by intro t h; cases h
  timers := by intro t h; cases h
  last := by intro s i h; cases h

theorem set_inputs {ts : List Task} {k i : Nat} {s s' : Stage} (h : ts[k]? = some ⟨i, s⟩) :
    (ts.set k ⟨i, s'⟩).map Task.input = ts.map Task.input := by
  rw [List.map_set]
  apply List.ext_getElem?
  intro n
  rw [List.getElem?_set]
  split
  · rename_i e
    subst e
    rw [List.getElem?_map, h]
    obtain ⟨h1, _⟩ := List.getElem?_eq_some_iff.1 h
    simp [h1]
  · rfl

/-- A call waits somewhere else, maybe for a new job. -/
theorem Inv.move {valid : Input → Bool} {h : Hook} (hi : Inv valid h) {k i : Nat} {s s' : Stage} (hk : h.tasks[k]? = some ⟨i, s⟩)
    {jobs : List Job} {p : Option Nat} (hs : Sensible { h with jobs := h.jobs ++ jobs } ⟨i, s'⟩)
    (hp : ∀ j, p = some j → j < (h.jobs ++ jobs).length) (hd : s ≠ .done) (hd' : s' = .done → h.target ≠ some i) :
    Inv valid ({ h with jobs := h.jobs ++ jobs, processing := p }.move k i s') := by
  have hmem : ∀ t ∈ h.tasks.set k ⟨i, s'⟩, t ∈ h.tasks ∨ t = ⟨i, s'⟩ := fun t ht => List.mem_or_eq_of_mem_set ht
  have hin : (⟨i, s⟩ : Task) ∈ h.tasks := List.mem_of_getElem? hk
  have hext : ∀ {j : Nat} {b : Job}, h.jobs[j]? = some b → (h.jobs ++ jobs)[j]? = some b := by
    intro j b hj
    obtain ⟨h1, _⟩ := List.getElem?_eq_some_iff.1 hj
    rw [List.getElem?_append_left h1, hj]
  refine ⟨hi.first, hi.nextIn, hi.shownLe, hi.ranLe, hi.fresh, hi.phase, hi.targetLe, ?_, ?_, ?_, hp, hi.timers, ?_⟩
  · intro t ht
    rcases hmem t ht with ht | rfl
    · exact hi.taskLe t ht
    · obtain ⟨u, h1, h2⟩ := hi.taskLe _ hin
      exact ⟨u, h1, h2⟩
  · show ((h.tasks.set k ⟨i, s'⟩).map Task.input).Nodup
    rw [set_inputs hk]
    exact hi.nodup
  · intro t ht
    rcases hmem t ht with ht | rfl
    · have := hi.stages t ht
      unfold Sensible at this ⊢
      simp only [Hook.move]
      split at this
      · rw [List.length_append]; omega
      · obtain ⟨a, ha⟩ := this
        exact ⟨a, hext ha⟩
      · trivial
    · exact hs
  · intro sp u hu
    have hl := hi.last sp u hu
    refine ⟨fun hv => ?_, fun hv => ?_⟩
    · have hl := hl.good hv
      obtain ⟨h1, h2⟩ := hl
      refine ⟨h1, ?_⟩
      rcases h2 with ⟨t, h3, h4, h5⟩ | ⟨j, r, h3, h4, h5, h6, h7⟩
      · left
        by_cases e : t = ⟨i, s⟩
        · subst e
          have hm : (⟨i, s'⟩ : Task) ∈ h.tasks.set k ⟨i, s'⟩ := List.mem_set (List.getElem?_eq_some_iff.1 hk).1 _
          exact ⟨⟨i, s'⟩, hm, h4, fun e => hd' e (by rw [h1, ← h4])⟩
        · refine ⟨t, ?_, h4, h5⟩
          obtain ⟨n, hn, e'⟩ := List.mem_iff_getElem.1 h3
          have hne : k ≠ n := by
            intro e2
            subst e2
            rw [List.getElem?_eq_getElem hn, Option.some.injEq] at hk
            exact e (e'.symm.trans hk)
          show t ∈ h.tasks.set k ⟨i, s'⟩
          exact List.mem_iff_getElem?.2 ⟨n, by rw [List.getElem?_set_ne hne, List.getElem?_eq_getElem hn, e']⟩
      · right
        refine ⟨j, r, hext h3, h4, h5, h6, fun t ht e => ?_⟩
        rcases hmem t ht with ht | rfl
        · exact h7 t ht e
        · exact absurd (h7 _ hin e) hd
    · have hl := hl.bad hv
      obtain ⟨h1, h2, h3⟩ := hl
      refine ⟨h1, h2, ?_⟩
      rcases h3 with h3 | ⟨t, j, r, h3, h4, h5⟩
      · exact .inl h3
      · exact .inr ⟨t, j, r, h3, hext h4, h5⟩

theorem Inv.wait {valid : Input → Bool} {h : Hook} (hi : Inv valid h) {k i : Nat} {s : Stage} (hk : h.tasks[k]? = some ⟨i, s⟩)
    (hd : s ≠ .done) : Inv valid ((h.wait i).1.move k i (h.wait i).2) := by
  unfold Hook.wait
  cases hp : h.processing with
  | some j =>
    have := hi.move (s' := .queued j) hk (jobs := []) (p := h.processing) (by
      have := hi.proc j hp
      simpa [Sensible] using this) (by intro j' e; simpa using hi.proc j' e) hd (by intro e; cases e)
    simpa using this
  | none =>
    exact hi.move (s' := .running h.jobs.length) hk (jobs := [⟨i, none⟩]) (p := some h.jobs.length)
      (by simp [Sensible]) (by intro j e; cases e; simp) hd (by intro e; cases e)

theorem Inv.start {valid : Input → Bool} {h : Hook} (hi : Inv valid h) {k i : Nat} {s : Stage} (hk : h.tasks[k]? = some ⟨i, s⟩)
    (hd : s ≠ .done) : Inv valid ((h.start i).1.move k i (h.start i).2) :=
  hi.move (s' := .running h.jobs.length) hk (jobs := [⟨i, none⟩]) (p := some h.jobs.length)
    (by simp [Sensible]) (by intro j e; cases e; simp) hd (by intro e; cases e)

theorem Inv.drop {valid : Input → Bool} {h : Hook} (hi : Inv valid h) {k i : Nat} {s : Stage} (hk : h.tasks[k]? = some ⟨i, s⟩)
    (hd : s ≠ .done) (ht : h.target ≠ some i) : Inv valid (h.move k i .done) := by
  have := hi.move (s' := .done) hk (jobs := []) (p := h.processing) (by simp [Sensible])
    (by intro j e; simpa using hi.proc j e) hd (fun _ => ht)
  simpa using this

theorem clear_timers {h : Hook} (ht : ∀ t ∈ h.timers, h.timer = some t) : h.clear.timers = [] := by
  unfold Hook.clear
  cases hx : h.timer with
  | none =>
    cases hy : h.timers with
    | nil => rfl
    | cons t ts =>
      have := ht t (by simp [hy])
      rw [hx] at this
      cases this
  | some u =>
    refine List.filter_eq_nil_iff.2 fun t h' => ?_
    have := ht t h'
    rw [hx, Option.some.injEq] at this
    simp [this]

/-- The last call ends. -/
theorem Inv.finish {valid : Input → Bool} {h : Hook} (hi : Inv valid h) {k i j : Nat} {r : Str} (hk : h.tasks[k]? = some ⟨i, .running j⟩)
    (ht : h.target = some i) (hr : h.answerOf j = some r) :
    Inv valid ({ h with next := { h.next with result := r, phase := .idle } }.clear.move k i .done) := by
  have hmem : ∀ t ∈ h.tasks.set k ⟨i, .done⟩, t ∈ h.tasks ∨ t = ⟨i, .done⟩ := fun t ht => List.mem_or_eq_of_mem_set ht
  have hin : (⟨i, .running j⟩ : Task) ∈ h.tasks := List.mem_of_getElem? hk
  have hj : h.jobs[j]? = some (Job.mk i (some r)) := by
    obtain ⟨a, ha⟩ := hi.stages _ hin
    unfold Hook.answerOf at hr
    rw [ha, Option.bind_some] at hr
    simp only at hr
    rw [ha, hr]
  have hnd : ∀ t ∈ h.tasks.set k ⟨i, .done⟩, t.input = i → t.stage = .done := by
    intro t ht e
    obtain ⟨n, hn, rfl⟩ := List.mem_iff_getElem.1 ht
    rw [List.getElem_set] at e ⊢
    split
    · rfl
    · rename_i hne
      rw [if_neg hne] at e
      have hn' : n < h.tasks.length := by simpa using hn
      obtain ⟨hk1, hk2⟩ := List.getElem?_eq_some_iff.1 hk
      exfalso
      rcases Nat.lt_or_gt_of_ne hne with hlt | hgt
      · refine List.pairwise_iff_getElem.1 hi.nodup k n (by simpa using hk1) (by simpa using hn') hlt ?_
        simp [hk2, e]
      · refine List.pairwise_iff_getElem.1 hi.nodup n k (by simpa using hn') (by simpa using hk1) hgt ?_
        simp [hk2, e]
  have htl := clear_timers (h := { h with next := { h.next with result := r, phase := .idle } }) hi.timers
  refine ⟨hi.first, hi.nextIn, hi.shownLe, hi.ranLe, ?_, ?_, hi.targetLe, ?_, ?_, ?_, hi.proc, ?_, ?_⟩
  · intro e
    have := (hi.fresh e).2.1
    rw [ht] at this
    cases this
  · intro e
    exact ⟨by simp [Hook.clear, Hook.move], (hi.phase e).2⟩
  · intro t ht
    rcases hmem t ht with ht | rfl
    · exact hi.taskLe t ht
    · obtain ⟨u, h1, h2⟩ := hi.taskLe _ hin
      exact ⟨u, h1, h2⟩
  · show ((h.tasks.set k ⟨i, .done⟩).map Task.input).Nodup
    rw [set_inputs hk]
    exact hi.nodup
  · intro t ht
    rcases hmem t ht with ht | rfl
    · exact hi.stages t ht
    · trivial
  · intro t ht
    have : t ∈ ({ h with next := { h.next with result := r, phase := .idle } }.clear).timers := ht
    rw [htl] at this
    cases this
  · intro sp u hu
    have hl := hi.last sp u hu
    refine ⟨fun hv => ?_, fun hv => ?_⟩
    · have hl := hl.good hv
      obtain ⟨h1, _⟩ := hl
      have hui : u = i := by rw [h1, Option.some.injEq] at ht; exact ht
      subst hui
      exact ⟨h1, .inr ⟨j, r, hj, rfl, rfl, rfl, hnd⟩⟩
    · have hl := hl.bad hv
      exact ⟨rfl, rfl, .inr ⟨i, j, r, ht, hj, rfl⟩⟩

theorem valid_append {valid : Input → Bool} {xs : List Input} {i : Nat} (h : i < xs.length) (x : Input) :
    ((xs ++ [x])[i]?.map valid).getD false = (xs[i]?.map valid).getD false := by
  rw [List.getElem?_append_left h]

theorem Inv.input {valid : Input → Bool} {h : Hook} (hi : Inv valid h) (x : Input) :
    Inv valid { h with inputs := h.inputs ++ [x], next := { h.next with input := h.inputs.length } } := by
  have h0 : 0 < h.inputs.length := Nat.lt_of_le_of_lt (Nat.zero_le _) hi.nextIn
  refine ⟨by rw [← hi.first]; exact List.getElem?_append_left h0, by simp, by
    have := hi.shownLe; have := hi.nextIn; simp only; omega, hi.ranLe, hi.fresh, hi.phase, hi.targetLe, hi.taskLe, hi.nodup, hi.stages,
    hi.proc, hi.timers, ?_⟩
  intro s i hr
  have hlt : i < h.inputs.length := by
    have := hi.ranLe s i hr; have := hi.shownLe; have := hi.nextIn; omega
  have := hi.last s i hr
  have e : Hook.isValid valid { h with inputs := h.inputs ++ [x], next := { h.next with input := h.inputs.length } } i = h.isValid valid i :=
    valid_append hlt x
  exact ⟨fun hv => this.good (e ▸ hv), fun hv => this.bad (e ▸ hv)⟩

theorem Inv.specs {valid : Input → Bool} {h : Hook} (hi : Inv valid h) :
    Inv valid { h with next := { h.next with specs := h.next.specs + 1 } } :=
  ⟨hi.first, hi.nextIn, hi.shownLe, hi.ranLe, hi.fresh, hi.phase, hi.targetLe, hi.taskLe, hi.nodup, hi.stages, hi.proc, hi.timers,
    fun s i e => ⟨(hi.last s i e).good, (hi.last s i e).bad⟩⟩

theorem Inv.render {valid : Input → Bool} {h : Hook} (hi : Inv valid h) (hd : h.due = false) : Inv valid { h with shown := h.next } := by
  have hr : h.ran ≠ none := by
    intro e
    simp [Hook.due, e] at hd
  refine ⟨hi.first, hi.nextIn, Nat.le_refl _, ?_, fun e => absurd e hr, fun _ => ⟨(hi.phase hr).1, fun _ => (hi.phase hr).1⟩, hi.targetLe,
    hi.taskLe, hi.nodup, hi.stages, hi.proc, hi.timers, fun s i e => ⟨(hi.last s i e).good, (hi.last s i e).bad⟩⟩
  intro s i e
  exact Nat.le_trans (hi.ranLe s i e) hi.shownLe

theorem Inv.answer {valid : Input → Bool} {h : Hook} (hi : Inv valid h) {i j : Nat} (r : Str) (hj : h.jobs[j]? = some ⟨i, none⟩) :
    Inv valid { h with jobs := h.jobs.set j ⟨i, some r⟩ } := by
  obtain ⟨hlt, _⟩ := List.getElem?_eq_some_iff.1 hj
  have hans : ∀ {n u : Nat} {b : Str}, h.jobs[n]? = some ⟨u, some b⟩ → (h.jobs.set j ⟨i, some r⟩)[n]? = some ⟨u, some b⟩ := by
    intro n u b hn
    have hne : j ≠ n := by
      rintro rfl
      rw [hj] at hn
      cases hn
    rw [List.getElem?_set_ne hne, hn]
  refine ⟨hi.first, hi.nextIn, hi.shownLe, hi.ranLe, hi.fresh, hi.phase, hi.targetLe, hi.taskLe, hi.nodup, ?_, ?_, hi.timers, ?_⟩
  · intro t ht
    have := hi.stages t ht
    unfold Sensible at this ⊢
    split at this
    · simpa using this
    · rename_i n _
      obtain ⟨a, ha⟩ := this
      by_cases e : j = n
      · subst e
        rw [hj] at ha
        cases ha
        exact ⟨some r, by simp [hlt]⟩
      · exact ⟨a, by simp only [List.getElem?_set_ne e, ha]⟩
    · trivial
  · intro n hn
    simpa using hi.proc n hn
  · intro s u hu
    have hl := hi.last s u hu
    refine ⟨fun hv => ?_, fun hv => ?_⟩
    · have hl := hl.good hv
      obtain ⟨h1, h2 | ⟨n, b, h3, h4⟩⟩ := hl
      · exact ⟨h1, .inl h2⟩
      · exact ⟨h1, .inr ⟨n, b, hans h3, h4⟩⟩
    · have hl := hl.bad hv
      obtain ⟨h1, h2, h3 | ⟨t, n, b, h3, h4, h5⟩⟩ := hl
      · exact ⟨h1, h2, .inl h3⟩
      · exact ⟨h1, h2, .inr ⟨t, n, b, h3, hans h4, h5⟩⟩

theorem Inv.fire {valid : Input → Bool} {h : Hook} (hi : Inv valid h) {t : Nat} (ht : t ∈ h.timers) :
    Inv valid { h with timers := h.timers.filter (· ≠ t), next := { h.next with phase := .delayed } } := by
  have htm := hi.timers t ht
  refine ⟨hi.first, hi.nextIn, hi.shownLe, hi.ranLe, hi.fresh, ?_, hi.targetLe, hi.taskLe, hi.nodup, hi.stages, hi.proc, ?_, ?_⟩
  · intro e
    exact ⟨by simp, (hi.phase e).2⟩
  · intro u hu
    exact hi.timers u (List.mem_filter.1 hu).1
  · intro s u hu
    have hl := hi.last s u hu
    refine ⟨fun hv => ?_, fun hv => ?_⟩
    · have hl := hl.good hv
      obtain ⟨h1, h2 | ⟨n, b, h3, h4, h5, h6, _⟩⟩ := hl
      · exact ⟨h1, .inl h2⟩
      · rw [htm] at h6; cases h6
    · obtain ⟨h1, _⟩ := hl.bad hv
      rw [htm] at h1; cases h1

/-- The effect for an input which is new and valid. -/
theorem Inv.begin {valid : Input → Bool} {h : Hook} (hi : Inv valid h) (hv : h.isValid valid h.shown.input = true)
    (hn : h.target ≠ some h.shown.input) {g : Hook} {s : Stage} {jobs : List Job}
    (hjobs : g.jobs = h.jobs ++ jobs) (hs : Sensible g ⟨h.shown.input, s⟩) (hproc : ∀ j, g.processing = some j → j < g.jobs.length)
    (h1 : g.inputs = h.inputs) (h2 : g.next.input = h.next.input) (h3 : g.shown = h.shown)
    (h4 : g.ran = some (h.shown.specs, h.shown.input)) (h5 : g.target = some h.shown.input) (h6 : g.tasks = h.tasks)
    (h7 : g.next.phase ≠ .initializing) (h8 : ∀ t ∈ g.timers, g.timer = some t) (hns : s ≠ .done) :
    Inv valid { g with tasks := g.tasks ++ [⟨h.shown.input, s⟩] } := by
  have hle : ∀ u, h.target = some u → u < h.shown.input := by
    intro u hu
    obtain ⟨sp, i, e1, e2⟩ := hi.targetLe u hu
    have := hi.ranLe sp i e1
    have : u ≠ h.shown.input := by rintro rfl; exact hn hu
    omega
  have hext : ∀ {j : Nat} {b : Job}, h.jobs[j]? = some b → g.jobs[j]? = some b := by
    intro j b hj
    obtain ⟨h1, _⟩ := List.getElem?_eq_some_iff.1 hj
    rw [hjobs, List.getElem?_append_left h1, hj]
  refine ⟨by simpa [h1] using hi.first, by simpa [h1, h2] using hi.nextIn, by simpa [h2, h3] using hi.shownLe, ?_, ?_, ?_, ?_, ?_, ?_, ?_,
    hproc, h8, ?_⟩
  · intro s i e
    simp only [h4, Option.some.injEq, Prod.mk.injEq] at e
    simp [h3, e.2]
  · intro e
    simp only [h4] at e
    cases e
  · intro _
    refine ⟨h7, fun e => ?_⟩
    simp [Hook.due, h3, h4] at e
  · intro t e
    simp only [h5, Option.some.injEq] at e
    exact ⟨_, _, h4, by omega⟩
  · intro t ht
    refine ⟨_, h5, ?_⟩
    simp only [h6, List.mem_append, List.mem_singleton] at ht
    rcases ht with ht | rfl
    · obtain ⟨u, e1, e2⟩ := hi.taskLe t ht
      have := hle u e1
      omega
    · exact Nat.le_refl _
  · simp only [h6, List.map_append, List.map_cons, List.map_nil]
    rw [List.nodup_append]
    refine ⟨hi.nodup, List.nodup_cons.2 ⟨by simp, .nil⟩, ?_⟩
    intro a ha b hb
    obtain ⟨t, ht, rfl⟩ := List.mem_map.1 ha
    obtain ⟨u, e1, e2⟩ := hi.taskLe t ht
    have := hle u e1
    rw [List.mem_singleton.1 hb]
    omega
  · intro t ht
    simp only [h6, List.mem_append, List.mem_singleton] at ht
    rcases ht with ht | rfl
    · have := hi.stages t ht
      unfold Sensible at this ⊢
      split at this
      · simp only [hjobs, List.length_append]; omega
      · obtain ⟨a, ha⟩ := this
        exact ⟨a, hext ha⟩
      · trivial
    · exact hs
  · intro sp u e
    simp only [h4, Option.some.injEq, Prod.mk.injEq] at e
    obtain ⟨_, rfl⟩ := e
    refine ⟨fun _ => ⟨h5, .inl ⟨⟨_, s⟩, by simp, rfl, hns⟩⟩, fun hv' => ?_⟩
    have : h.isValid valid h.shown.input = false := by
      rw [← hv']
      simp [Hook.isValid, h1]
    rw [hv] at this
    cases this

theorem effect_invalid {valid : Input → Bool} {h : Hook} (hv : h.isValid valid h.shown.input = false) :
    h.effect valid = ({ h with ran := some (h.shown.specs, h.shown.input), next := { h.next with result := [], phase := .idle } } : Hook).clear := by
  unfold Hook.effect
  unfold Hook.isValid at hv
  simp only [hv, if_true]

theorem Inv.effect {valid : Input → Bool} (h0 : valid ⟨[], []⟩ = false) {h : Hook} (hi : Inv valid h) (hd : h.due = true) :
    Inv valid (h.effect valid) := by
  have hlast : h.ran ≠ none → ∃ s i, h.ran = some (s, i) := by
    intro e
    cases hr : h.ran with
    | none => exact absurd hr e
    | some x => exact ⟨x.1, x.2, rfl⟩
  cases hv : h.isValid valid h.shown.input with
  | false =>
    rw [effect_invalid hv]
    have htl := clear_timers (h := { h with ran := some (h.shown.specs, h.shown.input), next := { h.next with result := [], phase := .idle } }) hi.timers
    refine ⟨hi.first, hi.nextIn, hi.shownLe, ?_, ?_, ?_, ?_, hi.taskLe, hi.nodup, hi.stages, hi.proc, ?_, ?_⟩
    · intro s i e
      simp only [Hook.clear, Option.some.injEq, Prod.mk.injEq] at e
      simp [Hook.clear, e.2]
    · intro e; cases e
    · intro _
      exact ⟨by simp [Hook.clear], fun e => by simp [Hook.due, Hook.clear] at e⟩
    · intro t e
      obtain ⟨s, i, e1, e2⟩ := hi.targetLe t e
      exact ⟨_, _, rfl, Nat.le_trans e2 (hi.ranLe s i e1)⟩
    · intro t ht
      rw [htl] at ht
      cases ht
    · intro s i e
      simp only [Hook.clear, Option.some.injEq, Prod.mk.injEq] at e
      obtain ⟨_, rfl⟩ := e
      refine ⟨fun hv' => ?_, fun _ => ⟨rfl, rfl, .inl rfl⟩⟩
      have : h.isValid valid h.shown.input = true := hv'
      rw [hv] at this
      cases this
  | true =>
    have hran : h.ran ≠ none := by
      intro e
      have := (hi.fresh e).1
      rw [this, Hook.isValid, hi.first] at hv
      simp [h0] at hv
    have hph := (hi.phase hran).2 hd
    have hv' := hv
    unfold Hook.isValid at hv
    unfold Hook.effect
    simp only [hv, hph, Bool.true_eq_false, if_false]
    by_cases ht : h.target = some h.shown.input
    · simp only [ht, if_true]
      obtain ⟨s, i, hr⟩ := hlast hran
      obtain ⟨s', i', e1, e2⟩ := hi.targetLe _ ht
      have e3 := hi.ranLe s' i' e1
      have hl := hi.last s' i' e1
      have : i' = h.shown.input := by omega
      subst this
      refine ⟨hi.first, hi.nextIn, hi.shownLe, ?_, ?_, ?_, ?_, ?_, hi.nodup, hi.stages, hi.proc, hi.timers, ?_⟩
      · intro s i e
        simp only [Option.some.injEq, Prod.mk.injEq] at e
        simp [e.2]
      · intro e; cases e
      · intro _
        exact ⟨(hi.phase hran).1, fun e => by simp [Hook.due] at e⟩
      · intro t e
        simp only [Option.some.injEq] at e
        exact ⟨_, _, rfl, by omega⟩
      · intro t ht'
        obtain ⟨u, e4, e5⟩ := hi.taskLe t ht'
        exact ⟨u, by rw [← e4, ht], e5⟩
      · intro s i e
        simp only [Option.some.injEq, Prod.mk.injEq] at e
        obtain ⟨_, rfl⟩ := e
        refine ⟨fun hv => ?_, fun hv => ?_⟩
        · obtain ⟨g1, g2⟩ := hl.good hv'
          exact ⟨rfl, g2⟩
        · have : h.isValid valid h.shown.input = false := hv
          rw [hv'] at this
          cases this
    · simp only [ht, if_false]
      have hdelay : ∀ g : Hook, g.delay.jobs = g.jobs ∧ g.delay.processing = g.processing ∧ g.delay.inputs = g.inputs ∧
          g.delay.next.input = g.next.input ∧ g.delay.shown = g.shown ∧ g.delay.ran = g.ran ∧ g.delay.target = g.target ∧
          g.delay.tasks = g.tasks ∧ (g.next.phase ≠ .initializing → g.delay.next.phase ≠ .initializing) ∧
          ((∀ t ∈ g.timers, g.timer = some t) → ∀ t ∈ g.delay.timers, g.delay.timer = some t) := by
        intro g
        unfold Hook.delay
        cases hx : g.timer with
        | some t => exact ⟨rfl, rfl, rfl, rfl, rfl, rfl, rfl, rfl, id, fun h => by rw [hx]; exact h⟩
        | none =>
          refine ⟨rfl, rfl, rfl, rfl, rfl, rfl, rfl, rfl, fun _ => by simp, fun h t ht => ?_⟩
          simp only [List.mem_append, List.mem_singleton] at ht
          rcases ht with ht | rfl
          · have := h t ht
            cases this
          · rfl
      obtain ⟨d1, d2, d3, d4, d5, d6, d7, d8, d9, d10⟩ := hdelay ({ h with ran := some (h.shown.specs, h.shown.input), target := some h.shown.input } : Hook)
      generalize (Hook.delay { h with ran := some (h.shown.specs, h.shown.input), target := some h.shown.input }) = g at *
      simp only at d1 d2 d3 d4 d5 d6 d7 d8
      have d9 := d9 (hi.phase hran).1
      have d10 := d10 hi.timers
      have hp : ∀ j, g.processing = some j → j < g.jobs.length := by
        intro j e
        rw [d1]
        exact hi.proc j (by rw [← d2]; exact e)
      by_cases hr : h.shown.result ≠ []
      · simp only [hr, ne_eq, not_false_eq_true, if_true]
        exact hi.begin hv' ht (jobs := []) (by simpa using d1) (by simp [Sensible]) hp d3 d4 d5 d6 d7 d8 d9 d10 (by simp)
      · simp only [hr, if_false]
        unfold Hook.wait
        cases hx : g.processing with
        | some j =>
          exact hi.begin hv' ht (jobs := []) (by simpa using d1) (by simpa [Sensible] using hp j hx) hp d3 d4 d5 d6 d7 d8 d9 d10
            (by simp)
        | none =>
          exact hi.begin hv' ht (g := (g.start h.shown.input).1) (s := .running g.jobs.length) (jobs := [⟨h.shown.input, none⟩]) (by simp [Hook.start, d1])
            ⟨none, by simp [Hook.start]⟩ (by intro j e; simp only [Hook.start, Option.some.injEq] at e; subst e; simp [Hook.start])
            d3 d4 d5 d6 d7 d8 d9 d10 (by simp)

theorem Inv.step {valid : Input → Bool} (h0 : valid ⟨[], []⟩ = false) {h h' : Hook} {e : Event} (hi : Inv valid h) (hs : h.step valid e = some h') :
    Inv valid h' := by
  cases e with
  | input x => cases hs; exact hi.input x
  | specs => cases hs; exact hi.specs
  | render =>
    simp only [Hook.step] at hs
    split at hs
    · cases hs
    · rename_i hd
      cases hs
      refine hi.render ?_
      simp only [Bool.or_eq_true, not_or, Bool.not_eq_true] at hd
      exact hd.1
  | effect =>
    simp only [Hook.step] at hs
    split at hs
    · cases hs
      exact hi.effect h0 (by assumption)
    · cases hs
  | wake k =>
    simp only [Hook.step] at hs
    split at hs
    · rename_i i hk
      split at hs
      · cases hs
        exact hi.drop hk (by simp) (by assumption)
      · cases hs
        exact hi.wait hk (by simp)
    · cases hs
  | answer j r =>
    simp only [Hook.step] at hs
    split at hs
    · cases hs
      exact hi.answer r (by assumption)
    · cases hs
  | resume k =>
    simp only [Hook.step] at hs
    split at hs
    · rename_i i j hk
      split at hs
      · cases hs
        exact hi.start hk (by simp)
      · cases hs
    · rename_i i j hk
      split at hs
      · rename_i r hr
        split at hs
        · cases hs
          exact hi.drop hk (by simp) (by assumption)
        · rename_i ht
          cases hs
          exact hi.finish hk (by simpa using ht) hr
      · cases hs
    · cases hs
  | fire t =>
    simp only [Hook.step] at hs
    split at hs
    · cases hs
      exact hi.fire (by assumption)
    · cases hs

theorem Inv.steps {valid : Input → Bool} (h0 : valid ⟨[], []⟩ = false) : ∀ {es : List Event} {h h' : Hook}, Inv valid h →
    h.steps valid es = some h' → Inv valid h'
  | [], _, _, hi, hs => by cases hs; exact hi
  | e :: es, h, h', hi, hs => by
    simp only [Hook.steps] at hs
    cases he : h.step valid e with
    | none => rw [he] at hs; cases hs
    | some g => rw [he] at hs; exact Inv.steps h0 (hi.step h0 he) hs

end Verif.Hook

namespace Verif.Hook

/-! ## Termination -/

/-- How much a call has still to do. -/
def Stage.weight : Stage → Nat
  | .sleeping => 6
  | .queued _ => 4
  | .running _ => 2
  | .done => 0

/-- How much a job has still to do. -/
def Job.weight (j : Job) : Nat := if j.answer = none then 1 else 0

/-- How much calls, jobs and timers have still to do. -/
def Hook.weight (h : Hook) : Nat :=
  (h.tasks.map fun t => t.stage.weight).sum + (h.jobs.map Job.weight).sum + h.timers.length

/-- How much is left to do without the user. -/
def Hook.measure (h : Hook) : Nat :=
  20 * ((if h.due then 1 else 0) + if (h.next.specs, h.next.input) = (h.shown.specs, h.shown.input) then 0 else 1) + 2 * h.weight +
    if h.next = h.shown then 0 else 1

theorem sum_set {α : Type} (w : α → Nat) : ∀ {l : List α} {k : Nat} {a : α} (b : α), l[k]? = some a →
    ((l.set k b).map w).sum + w a = (l.map w).sum + w b
  | [], k, a, b, h => by simp at h
  | x :: l, 0, a, b, h => by
    simp at h
    subst h
    simp
    omega
  | x :: l, k + 1, a, b, h => by
    have := sum_set w (l := l) (k := k) b (by simpa using h)
    simp only [List.set_cons_succ, List.map_cons, List.sum_cons]
    omega

/-- A step which leaves the dependencies alone. -/
theorem measure_weight {h g : Hook} (h1 : g.ran = h.ran) (h2 : g.shown = h.shown) (h3 : g.next.specs = h.next.specs)
    (h4 : g.next.input = h.next.input) (hw : g.weight < h.weight) : g.measure < h.measure := by
  unfold Hook.measure Hook.due
  rw [h1, h2, h3, h4]
  have e1 : (if g.next = h.shown then 0 else 1) ≤ 1 := by split <;> omega
  have e2 : 0 ≤ (if h.next = h.shown then 0 else 1) := Nat.zero_le _
  omega

theorem wait_weight (h : Hook) (i : Nat) : (h.wait i).1.weight + (h.wait i).2.weight ≤ h.weight + 4 ∧ (h.wait i).1.tasks = h.tasks ∧
    (h.wait i).1.ran = h.ran ∧ (h.wait i).1.shown = h.shown ∧ (h.wait i).1.next = h.next := by
  unfold Hook.wait
  cases h.processing with
  | some j => exact ⟨by simp [Stage.weight], rfl, rfl, rfl, rfl⟩
  | none =>
    refine ⟨?_, rfl, rfl, rfl, rfl⟩
    simp [Hook.start, Hook.weight, Stage.weight, Job.weight]
    omega

theorem start_weight (h : Hook) (i : Nat) : (h.start i).1.weight + (h.start i).2.weight = h.weight + 3 ∧ (h.start i).1.tasks = h.tasks := by
  refine ⟨?_, rfl⟩
  simp [Hook.start, Hook.weight, Stage.weight, Job.weight]
  omega

theorem clear_weight (h : Hook) : h.clear.weight ≤ h.weight := by
  unfold Hook.clear Hook.weight
  simp only
  split
  · rename_i t _
    have := List.length_filter_le (fun x => decide (x ≠ t)) h.timers
    omega
  · omega

theorem move_weight {h : Hook} {k i : Nat} {s : Stage} (hk : h.tasks[k]? = some ⟨i, s⟩) (s' : Stage) :
    (h.move k i s').weight + s.weight = h.weight + s'.weight := by
  have := sum_set (fun t : Task => t.stage.weight) (⟨i, s'⟩ : Task) hk
  unfold Hook.weight Hook.move
  simp only at this ⊢
  omega

theorem effect_measure {valid : Input → Bool} {h : Hook} (hd : h.due = true) : (h.effect valid).measure < h.measure := by
  have key : ∀ g : Hook, g.ran = some (h.shown.specs, h.shown.input) → g.shown = h.shown → g.next.specs = h.next.specs →
      g.next.input = h.next.input → g.weight ≤ h.weight + 7 → g.measure < h.measure := by
    intro g g1 g2 g3 g4 g5
    unfold Hook.measure
    have e0 : g.due = false := by simp [Hook.due, g1, g2]
    rw [hd, e0, g2, g3, g4]
    have e1 : (if g.next = h.shown then 0 else 1) ≤ 1 := by split <;> omega
    simp only [Bool.false_eq_true, if_false, if_true]
    omega
  unfold Hook.effect
  simp only
  split
  · refine key _ rfl rfl rfl rfl ?_
    refine Nat.le_trans (clear_weight _) ?_
    simp [Hook.weight]
  · split
    · exact key _ rfl rfl rfl rfl (by simp [Hook.weight])
    · split
      · exact key _ rfl rfl rfl rfl (by simp [Hook.weight])
      · have hdelay : ∀ g : Hook, g.delay.ran = g.ran ∧ g.delay.shown = g.shown ∧ g.delay.next.specs = g.next.specs ∧
            g.delay.next.input = g.next.input ∧ g.delay.weight ≤ g.weight + 1 := by
          intro g
          unfold Hook.delay
          cases g.timer with
          | some t => exact ⟨rfl, rfl, rfl, rfl, by simp⟩
          | none => exact ⟨rfl, rfl, rfl, rfl, by simp [Hook.weight]; omega⟩
        obtain ⟨d1, d2, d3, d4, d5⟩ := hdelay ({ h with ran := some (h.shown.specs, h.shown.input), target := some h.shown.input } : Hook)
        generalize (Hook.delay { h with ran := some (h.shown.specs, h.shown.input), target := some h.shown.input }) = g at *
        have d6 : g.weight ≤ h.weight + 1 := d5
        have happ : ∀ (f : Hook) (t : Task), Hook.weight { f with tasks := f.tasks ++ [t] } = f.weight + t.stage.weight := by
          intro f t
          simp [Hook.weight]
          omega
        split
        · refine key _ d1 d2 d3 d4 ?_
          rw [happ]
          simp only [Stage.weight]
          omega
        · obtain ⟨w1, w2, w3, w4, w5⟩ := wait_weight g h.shown.input
          refine key _ (w3.trans d1) (w4.trans d2) ?_ ?_ ?_
          · simp only [w5]; exact d3
          · simp only [w5]; exact d4
          · rw [happ]
            simp only
            omega

/-- The events which happen without the user. -/
def Automatic : Event → Prop
  | .input _ => False
  | .specs => False
  | _ => True

theorem step_measure {valid : Input → Bool} {h h' : Hook} {e : Event} (ha : Automatic e) (hs : h.step valid e = some h') :
    h'.measure < h.measure := by
  cases e with
  | input x => exact ha.elim
  | specs => exact ha.elim
  | render =>
    simp only [Hook.step] at hs
    split at hs
    · cases hs
    · rename_i hd
      cases hs
      simp only [Bool.or_eq_true, not_or, Bool.not_eq_true, decide_eq_true_eq] at hd
      unfold Hook.measure
      rw [hd.1]
      simp only [Hook.weight, if_true, hd.2, if_false]
      have e1 : h.ran = some (h.shown.specs, h.shown.input) := by
        have := hd.1
        simpa [Hook.due] using this
      by_cases e2 : (h.next.specs, h.next.input) = (h.shown.specs, h.shown.input)
      · have : ({ h with shown := h.next } : Hook).due = false := by simp [Hook.due, e1, ← e2]
        rw [this, e2]
        simp
      · have : (if ({ h with shown := h.next } : Hook).due = true then 1 else 0) ≤ 1 := by split <;> omega
        rw [if_neg e2]
        simp only [Bool.false_eq_true, if_false]
        omega
  | effect =>
    simp only [Hook.step] at hs
    split at hs
    · cases hs
      exact effect_measure (by assumption)
    · cases hs
  | wake k =>
    simp only [Hook.step] at hs
    split at hs
    · rename_i i hk
      split at hs
      · cases hs
        refine measure_weight rfl rfl rfl rfl ?_
        have := move_weight hk .done
        simp only [Stage.weight] at this
        omega
      · cases hs
        obtain ⟨w1, w2, w3, w4, w5⟩ := wait_weight h i
        refine measure_weight w3 w4 (by simp only [Hook.move, w5]) (by simp only [Hook.move, w5]) ?_
        have := move_weight (h := (h.wait i).1) (w2 ▸ hk) (h.wait i).2
        simp only [Stage.weight] at this
        simp only [Stage.weight] at w1
        omega
    · cases hs
  | answer j r =>
    simp only [Hook.step] at hs
    split at hs
    · rename_i i hj
      cases hs
      refine measure_weight rfl rfl rfl rfl ?_
      have := sum_set Job.weight (⟨i, some r⟩ : Job) hj
      simp only [Job.weight, if_true, reduceCtorEq, if_false] at this
      unfold Hook.weight
      simp only
      omega
    · cases hs
  | resume k =>
    simp only [Hook.step] at hs
    split at hs
    · rename_i i j hk
      split at hs
      · cases hs
        obtain ⟨w1, w2⟩ := start_weight h i
        refine measure_weight rfl rfl rfl rfl ?_
        have := move_weight (h := (h.start i).1) (w2 ▸ hk) (h.start i).2
        simp only [Stage.weight] at this
        simp only [Stage.weight] at w1
        omega
      · cases hs
    · rename_i i j hk
      split at hs
      · rename_i r hr
        split at hs
        · cases hs
          refine measure_weight rfl rfl rfl rfl ?_
          have := move_weight hk .done
          simp only [Stage.weight] at this
          omega
        · cases hs
          refine measure_weight rfl rfl rfl rfl ?_
          have hc : ∀ g : Hook, g.tasks = h.tasks → g.weight = h.weight → (g.clear.move k i .done).weight < h.weight := by
            intro g g1 g2
            have h1 := move_weight (h := g.clear) (g1 ▸ hk : g.clear.tasks[k]? = _) .done
            have h2 := clear_weight g
            simp only [Stage.weight] at h1
            omega
          exact hc _ rfl rfl
      · cases hs
    · cases hs
  | fire t =>
    simp only [Hook.step] at hs
    split at hs
    · rename_i ht
      cases hs
      refine measure_weight rfl rfl rfl rfl ?_
      have : (h.timers.filter (· ≠ t)).length < h.timers.length :=
        List.length_filter_lt_length_iff_exists.2 ⟨t, ht, by simp⟩
      unfold Hook.weight
      simp only
      omega
    · cases hs

end Verif.Hook
