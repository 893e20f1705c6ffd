import Verif.Spec.Zoom

/-! # The binary search of `Result` -/

namespace Verif.Zoom

open Verif.Spec.Zoom

/-- The events with falling layouts. -/
def Event.Falls (e : Event) : Prop := ∀ l, layoutOf e = some l → Falling l

/-- What holds between the events. -/
structure Inv (n : Nat) (z : Zoom) : Prop where
  range : 0 ≤ z.lo ∧ z.lo ≤ z.next ∧ z.next ≤ z.hi ∧ z.hi < n
  mid : 0 ≤ z.mid ∧ z.mid < n
  falling : Falling z.layout
  low : ∀ fits, z.layout = some fits → z.lo = 0 ∨ fits z.lo = true
  high : ∀ fits, z.layout = some fits → z.hi = (n : Int) - 1 ∨ fits z.hi = false
  top : ∀ fits, z.layout = some fits → fits z.hi = false ∨ z.lo = 0 ∨ z.lo < z.next
  blank : z.layout = none → z.lo = 0 ∧ z.hi = (n : Int) - 1
  best : ∀ fits, z.layout = some fits → z.next = z.mid → Best n fits z.mid
  stable : ∀ fits, z.layout = some fits → z.next = z.mid →
    (fits z.mid = false → z.mid = z.lo) ∧ (fits z.mid = true → z.hi - z.lo ≤ 1 ∨ z.mid = z.hi)

/-- How much is left to do. -/
def Zoom.left (z : Zoom) : Nat :=
  (3 * (z.hi - z.lo) + if z.next = z.lo then 1 else if z.next = z.hi then 2 else 0).toNat

/-- Before `update`, where `mid` has been rendered. -/
structure Ready (n : Nat) (z : Zoom) : Prop where
  range : 0 ≤ z.lo ∧ z.lo ≤ z.mid ∧ z.mid ≤ z.hi ∧ z.hi < n
  next : z.lo ≤ z.next ∧ z.next ≤ z.hi
  falling : Falling z.layout
  low : ∀ fits, z.layout = some fits → z.lo = 0 ∨ fits z.lo = true
  high : ∀ fits, z.layout = some fits → z.hi = (n : Int) - 1 ∨ fits z.hi = false
  top : ∀ fits, z.layout = some fits → fits z.hi = false ∨ z.lo = 0 ∨ z.lo < z.mid
  blank : z.layout = none → z.lo = 0 ∧ z.hi = (n : Int) - 1
  free : z.next = z.mid ∨ z.lo = 0 ∧ z.hi = (n : Int) - 1

theorem Ready.update {n : Nat} (hn : n ≠ 2) {z : Zoom} (h : Ready n z) : Inv n z.update := by
  obtain ⟨lo, hi, mid, next, layout⟩ := z
  obtain ⟨⟨h1, h2, h3, h4⟩, ⟨h5, h6⟩, h7, h8, h9, h10, h11, h12⟩ := h
  simp only at *
  unfold Zoom.update
  cases layout with
  | none => exact ⟨⟨h1, h5, h6, h4⟩, ⟨by simp only; omega, by simp only; omega⟩, h7, by simp, by simp, by simp, h11, by simp, by simp⟩
  | some fits =>
    replace h8 := h8 fits rfl
    replace h9 := h9 fits rfl
    replace h10 := h10 fits rfl
    have hf := h7 fits rfl
    simp only
    split
    · rename_i hm
      refine ⟨⟨h1, by simp only; omega, by simp only; omega, by simp only; omega⟩, ⟨by simp only; omega, by simp only; omega⟩, h7, ?_, ?_, ?_, by simp, ?_, ?_⟩
      · rintro _ ⟨⟩; exact h8
      · rintro _ ⟨⟩; exact .inr hm
      · rintro _ ⟨⟩; exact .inl hm
      · rintro _ ⟨⟩ he
        simp only at he ⊢
        have e1 : mid = lo := by omega
        have e2 : lo = 0 := by
          rcases h8 with h8 | h8
          · exact h8
          · rw [← e1, hm] at h8; simp at h8
        have key : ∀ k, 0 ≤ k → fits k = false := by
          intro k hk
          by_cases hx : fits k = true
          · rw [hf mid k (by omega) hx] at hm; simp at hm
          · simpa using hx
        exact ⟨by omega, by omega, fun k hk _ => key k (by omega), .inr fun k hk _ => key k hk⟩
      · rintro _ ⟨⟩ he
        simp only at he ⊢
        exact ⟨fun _ => by omega, fun hx => by rw [hm] at hx; simp at hx⟩
    · rename_i hm
      simp only [Bool.not_eq_false] at hm
      split
      · rename_i hd
        refine ⟨⟨h1, h5, h6, h4⟩, ⟨by simp only; omega, by simp only; omega⟩, h7, ?_, ?_, ?_, by simp, ?_, ?_⟩
        · rintro _ ⟨⟩; exact h8
        · rintro _ ⟨⟩; exact h9
        · rintro _ ⟨⟩
          simp only
          rcases h12 with h12 | h12
          · rw [h12]; exact h10
          · exact .inr (.inl h12.1)
        · rintro _ ⟨⟩ he
          simp only at he ⊢
          refine ⟨by omega, by omega, ?_, .inl hm⟩
          intro k hk hk'
          by_cases hx : fits k = true
          · exfalso
            -- something larger fits
            by_cases hmh : mid = hi
            · rcases h9 with h9 | h9
              · omega
              · rw [hmh, h9] at hm; simp at hm
            · have e1 : mid = lo := by omega
              have e2 := hf hi k (by omega) hx
              rcases h9 with h9 | h9
              · rcases h10 with h10 | h10 | h10
                · rw [e2] at h10; simp at h10
                · omega
                · omega
              · rw [e2] at h9; simp at h9
          · simpa using hx
        · rintro _ ⟨⟩ he
          exact ⟨fun hx => by rw [hm] at hx; simp at hx, fun _ => .inl hd⟩
      · rename_i hd
        split
        · rename_i hne
          refine ⟨⟨by simp only; omega, by simp only; omega, by simp only; omega, h4⟩, ⟨by simp only; omega, by simp only; omega⟩, h7, ?_, ?_, ?_, by simp, ?_, ?_⟩
          · rintro _ ⟨⟩; exact .inr hm
          · rintro _ ⟨⟩; exact h9
          · rintro _ ⟨⟩; simp only; right; right; omega
          · rintro _ ⟨⟩ he; simp only at he; omega
          · rintro _ ⟨⟩ he; simp only at he; omega
        · rename_i hne
          simp only [ne_eq, Decidable.not_not] at hne
          have e9 : hi = (n : Int) - 1 := by
            rcases h9 with h9 | h9
            · exact h9
            · rw [← hne, hm] at h9; simp at h9
          refine ⟨⟨h1, h5, h6, h4⟩, ⟨by simp only; omega, by simp only; omega⟩, h7, ?_, ?_, ?_, by simp, ?_, ?_⟩
          · rintro _ ⟨⟩; exact h8
          · rintro _ ⟨⟩; exact h9
          · rintro _ ⟨⟩
            simp only
            rcases h12 with h12 | h12
            · rw [h12]; exact h10
            · exact .inr (.inl h12.1)
          · rintro _ ⟨⟩ he
            simp only at he ⊢
            exact ⟨by omega, by omega, fun k hk hk' => by omega, .inl hm⟩
          · rintro _ ⟨⟩ he
            exact ⟨fun hx => by rw [hm] at hx; simp at hx, fun _ => .inr hne⟩

theorem Inv.ready {n : Nat} {z : Zoom} (h : Inv n z) : Ready n { z with mid := z.next } :=
  ⟨⟨h.range.1, h.range.2.1, h.range.2.2.1, h.range.2.2.2⟩, ⟨h.range.2.1, h.range.2.2.1⟩, h.falling, h.low, h.high, h.top, h.blank, .inl rfl⟩

theorem Inv.render {n : Nat} (hn : n ≠ 2) {z : Zoom} (h : Inv n z) : Inv n z.render := h.ready.update hn

theorem ready_reset {n : Nat} {z : Zoom} {layout : Option (Int → Bool)} (hl : Falling layout) (h1 : 0 ≤ z.mid ∧ z.mid < n)
    (h2 : 0 ≤ z.next ∧ z.next < n) : Ready n ({ z with layout := layout }.reset n) := by
  refine ⟨⟨by simp [Zoom.reset], ?_, ?_, ?_⟩, ⟨?_, ?_⟩, hl, ?_, ?_, ?_, ?_, ?_⟩ <;> simp only [Zoom.reset] <;> try omega
  · intro _ _; exact .inl trivial
  · intro _ _; exact .inl trivial
  · intro _ _; exact .inr (.inl trivial)
  · intro _; trivial
  · exact .inr ⟨trivial, trivial⟩

theorem Inv.step {n : Nat} (hn : n ≠ 2) {z z' : Zoom} (h : Inv n z) {e : Event} (he : e.Falls) (hs : z.step n e = some z') :
    Inv n z' := by
  have hnext : 0 ≤ z.next ∧ z.next < n := ⟨by have := h.range; omega, by have := h.range; omega⟩
  cases e with
  | text layout =>
    simp only [Zoom.step, Option.some.injEq] at hs
    subst hs
    exact (ready_reset (z := { z with mid := z.next }) (he _ rfl) hnext hnext).update hn
  | loading =>
    simp only [Zoom.step, Option.some.injEq] at hs
    subst hs
    exact h.render hn
  | resize layout =>
    simp only [Zoom.step, Option.some.injEq] at hs
    subst hs
    exact (ready_reset (he _ rfl) h.mid hnext).update hn
  | render =>
    simp only [Zoom.step] at hs
    split at hs
    · simp at hs
    · simp only [Option.some.injEq] at hs
      subst hs
      exact h.render hn

theorem Inv.steps {n : Nat} (hn : n ≠ 2) : ∀ (es : List Event) {z z' : Zoom}, Inv n z → (∀ e ∈ es, e.Falls) →
    z.steps n es = some z' → Inv n z'
  | [], z, z', h, _, hs => by simp only [Zoom.steps, Option.some.injEq] at hs; exact hs ▸ h
  | e :: es, z, z', h, he, hs => by
    simp only [Zoom.steps, Option.bind_eq_some_iff] at hs
    obtain ⟨z1, h1, h2⟩ := hs
    exact Inv.steps hn es (h.step hn (he e (by simp)) h1) (fun e hx => he e (by simp [hx])) h2

theorem Inv.init {n : Nat} (h0 : 0 < n) : Inv n (init n) := by
  refine ⟨⟨?_, ?_, ?_, ?_⟩, ⟨?_, ?_⟩, ?_, ?_, ?_, ?_, ?_, ?_, ?_⟩ <;> simp [Zoom.init, Falling] <;> omega

/-- Each rendering leaves less to do. -/
theorem Inv.less {n : Nat} {z : Zoom} (h : Inv n z) (hne : z.render.next ≠ z.render.mid) : z.render.left < z.left := by
  obtain ⟨lo, hi, mid, next, layout⟩ := z
  obtain ⟨⟨h1, h2, h3, h4⟩, -, -, hlow, hhigh, -, -, -⟩ := h
  simp only at h1 h2 h3 h4
  unfold Zoom.render Zoom.update at *
  cases layout with
  | none => simp at hne
  | some fits =>
    replace hlow := hlow fits rfl
    replace hhigh := hhigh fits rfl
    simp only at *
    split at hne
    · rename_i hm
      simp only at hne
      rw [if_pos hm]
      simp only [Zoom.left]
      repeat' split
      all_goals omega
    · rename_i hm
      rw [if_neg hm]
      split at hne
      · simp at hne
      · rename_i hd
        rw [if_neg hd]
        split at hne
        · rename_i hx
          rw [if_pos hx]
          simp only at hne
          simp only [Zoom.left]
          repeat' split
          all_goals omega
        · simp at hne

theorem Inv.renders {n : Nat} (hn : n ≠ 2) : ∀ (k : Nat) {z z' : Zoom}, Inv n z →
    z.steps n (List.replicate k .render) = some z' → k ≤ z.left + 1
  | 0, _, _, _, _ => by omega
  | k + 1, z, z', h, hs => by
    simp only [List.replicate_succ, Zoom.steps, Option.bind_eq_some_iff] at hs
    obtain ⟨z1, h1, h2⟩ := hs
    have hi := h.step hn (by intro l hl; simp [layoutOf] at hl) h1
    have := Inv.renders hn k hi h2
    simp only [Zoom.step] at h1
    split at h1
    · simp at h1
    · simp only [Option.some.injEq] at h1
      subst h1
      by_cases hne : z.render.next = z.render.mid
      · cases k with
        | zero => omega
        | succ k =>
          simp only [List.replicate_succ, Zoom.steps, Zoom.step, hne, if_pos, Option.bind_eq_some_iff] at h2
          simp at h2
      · have := h.less hne
        omega

theorem Inv.left_le {n : Nat} {z : Zoom} (h : Inv n z) : z.left < 3 * n := by
  have := h.range
  unfold Zoom.left
  repeat' split
  all_goals omega

theorem update_layout (z : Zoom) : z.update.layout = z.layout := by
  obtain ⟨lo, hi, mid, next, layout⟩ := z
  unfold Zoom.update
  cases layout with
  | none => rfl
  | some f =>
    simp only
    split
    · rfl
    · split
      · rfl
      · split <;> rfl

theorem step_layout {n : Nat} {z z' : Zoom} {e : Event} (h : z.step n e = some z') :
    z'.layout = (layoutOf e).getD z.layout := by
  cases e with
  | text l =>
    simp only [Zoom.step, Option.some.injEq] at h
    subst h
    simp [Zoom.render, update_layout, Zoom.reset, layoutOf]
  | loading =>
    simp only [Zoom.step, Option.some.injEq] at h
    subst h
    simp [Zoom.render, update_layout, layoutOf]
  | resize l =>
    simp only [Zoom.step, Option.some.injEq] at h
    subst h
    simp [update_layout, Zoom.reset, layoutOf]
  | render =>
    simp only [Zoom.step] at h
    split at h
    · simp at h
    · simp only [Option.some.injEq] at h
      subst h
      simp [Zoom.render, update_layout, layoutOf]

theorem steps_layout {n : Nat} : ∀ (es : List Event) {z z' : Zoom}, z.steps n es = some z' →
    z'.layout = (es.filterMap layoutOf).getLast?.getD z.layout
  | [], z, z', h => by simp only [Zoom.steps, Option.some.injEq] at h; simp [h]
  | e :: es, z, z', h => by
    simp only [Zoom.steps, Option.bind_eq_some_iff] at h
    obtain ⟨z1, h1, h2⟩ := h
    rw [steps_layout es h2, step_layout h1]
    cases hl : layoutOf e with
    | none => simp [hl]
    | some l =>
      simp only [List.filterMap_cons, hl, Option.getD_some]
      rw [List.getLast?_cons]
      rfl

theorem Inv.again {n : Nat} {z : Zoom} (h : Inv n z) (he : z.next = z.mid) : z.render.mid = z.mid ∧ z.render.next = z.mid := by
  obtain ⟨lo, hi, mid, next, layout⟩ := z
  simp only at he
  subst he
  unfold Zoom.render Zoom.update
  cases layout with
  | none => exact ⟨rfl, rfl⟩
  | some fits =>
    have := h.stable fits rfl rfl
    simp only at this ⊢
    split
    · rename_i hm
      have := this.1 hm
      exact ⟨rfl, by simp only; omega⟩
    · rename_i hm
      split
      · exact ⟨rfl, rfl⟩
      · split
        · rename_i h1 h2
          simp only [Bool.not_eq_false] at hm
          have := this.2 hm
          omega
        · exact ⟨rfl, rfl⟩

end Verif.Zoom
