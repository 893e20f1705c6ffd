import Verif.Proofs.Zoom

/-! # Property C77: the result is shown in the largest size in which it fits -/

namespace Verif.Props

open Verif.Zoom Verif.Spec.Zoom

/-- C77: whatever texts are shown and however often the window is resized while the search goes on, React renders the search less than
`3 * n + 1` times without another event, and if there is nothing left to render, the size is the largest one in which the last text
fits in the last window.  The size is never out of range. -/
theorem C77_settled {n : Nat} (h0 : 0 < n) (hn : n ≠ 2) {es : List Event} (he : ∀ e ∈ es, ∀ l, layoutOf e = some l → Falling l)
    {z : Zoom} (h : (init n).steps n es = some z) :
    (0 ≤ z.mid ∧ z.mid < n) ∧
    (∀ fits, layoutAfter es = some fits → z.next = z.mid → Best n fits z.mid) ∧
    ∀ k z', z.steps n (List.replicate k .render) = some z' → k ≤ 3 * n := by
  have hi := Inv.steps hn es (Inv.init h0) he h
  refine ⟨hi.mid, ?_, ?_⟩
  · intro fits hl
    refine hi.best fits ?_
    rw [steps_layout es h]
    unfold layoutAfter at hl
    cases hx : (es.filterMap layoutOf).getLast? with
    | none => rw [hx] at hl; simp at hl
    | some o => rw [hx] at hl; simpa using hl
  · intro k z' hk
    have := hi.renders hn k hk
    have := hi.left_le
    omega

/-- C77: with nothing left to render, the size stays as it is however often the result is rendered again. -/
theorem C77_stays {n : Nat} (h0 : 0 < n) (hn : n ≠ 2) {es : List Event} (he : ∀ e ∈ es, ∀ l, layoutOf e = some l → Falling l)
    {z : Zoom} (h : (init n).steps n es = some z) (hs : z.next = z.mid) (k : Nat) :
    ∃ z', z.steps n (List.replicate k .loading) = some z' ∧ z'.mid = z.mid ∧ z'.next = z.mid := by
  have key : ∀ (k : Nat) (z : Zoom), Inv n z → z.next = z.mid →
      ∃ z', z.steps n (List.replicate k .loading) = some z' ∧ z'.mid = z.mid ∧ z'.next = z.mid := by
    intro k
    induction k with
    | zero => exact fun z _ hs => ⟨z, rfl, rfl, hs⟩
    | succ k ih =>
      intro z hi hs
      have h1 := hi.again hs
      obtain ⟨z', h2, h3, h4⟩ := ih z.render (hi.render hn) (h1.2.trans h1.1.symm)
      exact ⟨z', by simpa [List.replicate_succ, Zoom.steps, Zoom.step] using h2, h3.trans h1.1, h4.trans h1.1⟩
  exact key k z (Inv.steps hn es (Inv.init h0) he h) hs

/-- A text which fits in the two smallest of the five sizes. -/
example : ∃ z, (init sizes).steps sizes [.text (some (· ≤ 1)), .render, .render, .render, .render] = some z ∧
    z.next = z.mid ∧ z.mid = 1 ∧ Best sizes (· ≤ 1) 1 := by
  have h : ((init sizes).steps sizes [.text (some (· ≤ 1)), .render, .render, .render, .render]).map (fun z => (z.mid, z.next)) =
      some (1, 1) := by decide
  rw [Option.map_eq_some_iff] at h
  obtain ⟨z, h1, h2⟩ := h
  rw [Prod.mk.injEq] at h2
  refine ⟨z, h1, by omega, h2.1, ?_⟩
  have := (C77_settled (n := sizes) (by decide) (by decide) ?_ h1).2.1 (· ≤ 1) rfl (by omega)
  · rwa [h2.1] at this
  · intro e he l hl
    simp only [List.mem_cons, List.not_mem_nil, or_false] at he
    rcases he with rfl | rfl | rfl | rfl | rfl <;> simp [layoutOf] at hl
    subst hl
    intro f hf a b hab hb
    cases hf
    simp at hb ⊢
    omega

/-- The window is resized twice before React renders, the second time so that everything fits again. -/
example : ((init sizes).steps sizes [.text (some fun _ => true), .resize (some (· ≤ 0)), .resize (some fun _ => true), .render,
    .loading, .render]).map (fun z => (z.mid, z.next)) = some (4, 4) := by decide

/-- With two sizes the smaller one would stay, though the larger one fits. -/
example : ((init 2).steps 2 [.text (some (· ≤ 0)), .render, .text (some fun _ => true)]).map (fun z => (z.mid, z.next)) =
    some (0, 0) := by decide

end Verif.Props
