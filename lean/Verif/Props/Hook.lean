import Verif.Proofs.Hook

/-! C76: the hook of the web page. -/

namespace Verif.Props

open Verif.Hook Verif.Js

/-- Nothing is left to do: React has rendered the last states and run the effect for them, and no call waits. -/
def Settled (h : Hook) : Prop :=
  h.next = h.shown ∧ h.ran = some (h.shown.specs, h.shown.input) ∧ ∀ t ∈ h.tasks, t.stage = .done

/-- C76: once nothing is left to do, the result of the last valid input is shown, as the worker answered for this input, and the
state is idle. -/
theorem C76_settled {valid : Input → Bool} (h0 : valid ⟨[], []⟩ = false) {es : List Event} {h : Hook} (hr : init.steps valid es = some h)
    (hs : Settled h) {x : Input} (hx : h.inputs[h.shown.input]? = some x) (hv : valid x = true) :
    ∃ (j : Nat) (r : Str), h.jobs[j]? = some ⟨h.shown.input, some r⟩ ∧ h.shown.result = r ∧ h.shown.phase = .idle := by
  have hi := Inv.init.steps h0 hr
  obtain ⟨_, h1⟩ := (hi.last _ _ hs.2.1).good (by simp [Hook.isValid, hx, hv])
  rcases h1 with ⟨t, h2, _, h3⟩ | ⟨j, r, h2, h3, h4, _⟩
  · exact absurd (hs.2.2 t h2) h3
  · exact ⟨j, r, h2, by rw [← hs.1, h3], by rw [← hs.1, h4]⟩

/-- C76: what happens without the user comes to an end. -/
theorem C76_terminates (valid : Input → Bool) (f : Nat → Hook) : ¬ ∀ n, ∃ e, Automatic e ∧ (f n).step valid e = some (f (n + 1)) := by
  intro h
  have key : ∀ n, (f n).measure + n ≤ (f 0).measure := by
    intro n
    induction n with
    | zero => simp
    | succ n ih =>
      obtain ⟨e, h1, h2⟩ := h n
      have := step_measure h1 h2
      omega
  have := key ((f 0).measure + 1)
  omega

/-- C76: and then nothing is left to do. -/
theorem C76_settles {valid : Input → Bool} (h0 : valid ⟨[], []⟩ = false) {es : List Event} {h : Hook} (hr : init.steps valid es = some h)
    (hn : ∀ e, Automatic e → h.step valid e = none) : Settled h := by
  have hi := Inv.init.steps h0 hr
  have hd : h.due = false := by
    have := hn .effect trivial
    simp only [Hook.step] at this
    split at this
    · cases this
    · simpa using ‹¬ h.due = true›
  have hj : ∀ j, j < h.jobs.length → (h.answerOf j).isSome = true := by
    intro j hj
    have := hn (.answer j []) trivial
    simp only [Hook.step] at this
    split at this
    · cases this
    · rename_i hno
      unfold Hook.answerOf
      rw [List.getElem?_eq_getElem hj]
      cases ha : h.jobs[j].answer with
      | none => exact absurd (by rw [List.getElem?_eq_getElem hj, ← ha]) (hno h.jobs[j].input)
      | some r => simp [ha]
  refine ⟨?_, ?_, ?_⟩
  · have := hn .render trivial
    simp only [Hook.step, hd, Bool.false_or] at this
    split at this
    · rename_i h1
      simpa using h1
    · cases this
  · simpa [Hook.due] using hd
  · intro t ht
    obtain ⟨k, hk, e⟩ := List.mem_iff_getElem.1 ht
    have hk' : h.tasks[k]? = some t := by rw [List.getElem?_eq_getElem hk, e]
    obtain ⟨i, s⟩ := t
    have hsen := hi.stages _ ht
    cases s with
    | done => rfl
    | sleeping =>
      have := hn (.wake k) trivial
      simp only [Hook.step, hk'] at this
      split at this <;> cases this
    | queued j =>
      have := hn (.resume k) trivial
      simp only [Hook.step, hk', hj j hsen, if_true] at this
      cases this
    | running j =>
      have := hn (.resume k) trivial
      obtain ⟨a, ha⟩ := hsen
      have := hj j (List.getElem?_eq_some_iff.1 ha).1
      obtain ⟨r, hr⟩ := Option.isSome_iff_exists.1 this
      have := hn (.resume k) trivial
      simp only [Hook.step, hk', hr] at this
      split at this <;> cases this

/-- C76 for an input which is not valid: the result is empty, or it is the answer for an earlier input. -/
theorem C76_cleared_partial {valid : Input → Bool} (h0 : valid ⟨[], []⟩ = false) {es : List Event} {h : Hook} (hr : init.steps valid es = some h)
    (hs : Settled h) {x : Input} (hx : h.inputs[h.shown.input]? = some x) (hv : valid x = false) :
    h.shown.phase = .idle ∧
      (h.shown.result = [] ∨ ∃ (t j : Nat) (r : Str), h.target = some t ∧ h.jobs[j]? = some ⟨t, some r⟩ ∧ h.shown.result = r) := by
  have hi := Inv.init.steps h0 hr
  obtain ⟨_, h1, h2⟩ := (hi.last _ _ hs.2.1).bad (by simp [Hook.isValid, hx, hv])
  rw [hs.1] at h1 h2
  exact ⟨h1, h2⟩

/-- The user does nothing. -/
def Untouched : Event → Prop
  | .input _ => False
  | _ => True

/-- C76 for an input which is not valid: if no call waits when the effect runs for it, then the result is empty from there on, as long
as the user does nothing. -/
theorem C76_cleared_quiet_partial {valid : Input → Bool} {h : Hook} (hd : h.due = true) (hq : h.next.input = h.shown.input)
    (ht : ∀ t ∈ h.tasks, t.stage = .done) {x : Input} (hx : h.inputs[h.shown.input]? = some x) (hv : valid x = false) {es : List Event}
    (he : ∀ e ∈ es, Untouched e) {g : Hook} (hr : h.steps valid (.effect :: es) = some g) :
    g.next.result = [] ∧ (Settled g → g.shown.result = [] ∧ g.inputs[g.shown.input]? = some x) := by
  let P : Hook → Prop := fun g => g.next.result = [] ∧ g.next.input = g.shown.input ∧ (∀ t ∈ g.tasks, t.stage = .done) ∧
    g.inputs[g.shown.input]? = some x
  have hP : ∀ (es : List Event), (∀ e ∈ es, Untouched e) → ∀ h g : Hook, P h → h.steps valid es = some g → P g := by
    intro es
    induction es with
    | nil => intro _ h g p e; cases e; exact p
    | cons e es ih =>
      intro he h g p hr
      obtain ⟨h', h1, h2⟩ := Option.bind_eq_some_iff.1 hr
      refine ih (fun e h => he e (List.mem_cons_of_mem _ h)) h' g ?_ h2
      obtain ⟨p1, p2, p3, p4⟩ := p
      have hno : ∀ (k i : Nat) (s : Stage), h.tasks[k]? = some ⟨i, s⟩ → s = .done := fun k i s hk => p3 _ (List.mem_of_getElem? hk)
      cases e with
      | input y => exact (he _ (List.mem_cons_self ..)).elim
      | specs => cases h1; exact ⟨p1, p2, p3, p4⟩
      | render =>
        simp only [Hook.step] at h1
        split at h1
        · cases h1
        · cases h1; exact ⟨p1, rfl, p3, by simpa [p2] using p4⟩
      | effect =>
        simp only [Hook.step] at h1
        split at h1
        · cases h1
          simp only [Hook.effect, p4, Option.map_some, Option.getD_some, hv, if_true]
          exact ⟨rfl, p2, p3, p4⟩
        · cases h1
      | wake k =>
        simp only [Hook.step] at h1
        split at h1
        · exact absurd (hno _ _ _ ‹_›) (by simp)
        · cases h1
      | answer j r =>
        simp only [Hook.step] at h1
        split at h1
        · cases h1; exact ⟨p1, p2, p3, p4⟩
        · cases h1
      | resume k =>
        simp only [Hook.step] at h1
        split at h1
        · exact absurd (hno _ _ _ ‹_›) (by simp)
        · exact absurd (hno _ _ _ ‹_›) (by simp)
        · cases h1
      | fire t =>
        simp only [Hook.step] at h1
        split at h1
        · cases h1; exact ⟨p1, p2, p3, p4⟩
        · cases h1
  obtain ⟨h', h1, h2⟩ := Option.bind_eq_some_iff.1 hr
  simp only [Hook.step, hd, if_true] at h1
  cases h1
  have := hP es he _ g (by
    simp only [Hook.effect, hx, Option.map_some, Option.getD_some, hv, if_true]
    exact ⟨rfl, hq, ht, hx⟩) h2
  exact ⟨this.1, fun s => ⟨by rw [← s.1]; exact this.1, this.2.2.2⟩⟩

/-- A word in the input of a language. -/
def typed (word : List Nat) : Input := ⟨[0x69], word⟩

/-- Inputs with a word are valid. -/
def wordy (x : Input) : Bool := decide (x.word ≠ [])

/-- The user types `a`, then `ab`, and waits. -/
example : ((init.steps wordy [.effect, .render, .input (typed [97]), .render, .effect, .render, .answer 0 [0xC544], .resume 0, .render,
      .input (typed [97, 98]), .render, .effect, .specs, .render, .effect, .wake 1, .resume 1, .fire 1, .render, .answer 1 [0xC555], .resume 1,
      .render]).map fun h => (h.shown, h.tasks.map Task.stage, decide (h.next = h.shown), h.due)) =
    some (⟨1, 2, .idle, [0xC555]⟩, [.done, .done], true, false) := by decide +kernel

/-- The user types `a`, waits for the result, clears the input, and the specs of the worker arrive: the effect runs for the cleared input
when no call waits, and the result is empty. -/
example : ((init.steps wordy [.effect, .render, .input (typed [97]), .render, .effect, .render, .answer 0 [0xC544], .resume 0, .render,
      .input (typed []), .render]).bind fun h => (h.steps wordy [.effect, .specs, .render, .effect]).map fun g =>
        ((h.due, decide (h.next.input = h.shown.input), h.tasks.map Task.stage), g.shown.result, decide (g.next = g.shown), g.due)) =
    some ((true, true, [Stage.done]), [], true, false) := by decide +kernel

/-- C76 fails for inputs which are not valid: the user types `a` and clears the input before the worker has answered.  Then the
result for `a` is shown, and stays. -/
theorem C76_cleared_refuted : ∃ es h, init.steps wordy es = some h ∧ Settled h ∧ h.inputs[h.shown.input]? = some (typed []) ∧
    h.shown.result = [0xC544] :=
  ⟨[.effect, .render, .input (typed [97]), .render, .effect, .render, .input (typed []), .render, .effect, .render, .answer 0 [0xC544],
    .resume 0, .render], _, rfl, by unfold Settled; decide +kernel, by decide +kernel, by decide +kernel⟩

/-- C76 fails for the jobs: three inputs are typed while the worker is busy with the first one.  When it has answered, the second input
is sent to it too, although nobody waits for it any more. -/
theorem C76_jobs_refuted : ∃ es h, init.steps wordy es = some h ∧ h.target = some 3 ∧ h.jobs.map (fun j => (j.input, j.answer.isSome)) =
    [(1, true), (2, false), (3, false)] :=
  ⟨[.effect, .render, .input (typed [97]), .render, .effect, .render, .input (typed [97, 97]), .render, .effect,
    .input (typed [97, 97, 97]), .render, .effect, .answer 0 [0xC544], .resume 0, .resume 1, .resume 2], _, rfl, by decide +kernel, by decide +kernel⟩

end Verif.Props
