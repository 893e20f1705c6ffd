import Verif.Proofs.Groups

/-! The groups that `Find` reports, for patterns with edges and lookarounds. -/

namespace Verif.Spec.Expr

open Verif.Rx Verif.Spec Verif.Spec.Hre Verif.Hre

/-! ## Marks and choices -/

theorem reps_chooses {M : List Nat → Nat → Chars → Places → Prop} {C : List Nat → List Rune → Prop}
    (h : ∀ c i y gs, M c i y gs → C c (y.map Prod.fst)) {g : Bool} {c : List Nat} {i : Nat} {y : Chars} {gs : Places}
    (hr : Reps M g c i y gs) : ∃ (d : List Nat) (v : List Rune) (ps : List (List Nat × List Rune)), c = d ++ rounds g ps ∧
      y.map Prod.fst = v ++ ps.flatMap Prod.snd ∧ C d v ∧ ∀ p ∈ ps, C p.1 p.2 := by
  induction hr with
  | last hm => exact ⟨_, _, [], rfl, by simp, h _ _ _ _ hm, by simp⟩
  | next hm _ ih =>
    obtain ⟨d, v, ps, rfl, h2, h3, h4⟩ := ih
    refine ⟨_, _, (d, v) :: ps, by simp [rounds], by rw [List.map_append, h2]; rfl, h _ _ _ _ hm, ?_⟩
    intro p hp
    rcases List.mem_cons.1 hp with rfl | hp
    · exact h3
    · exact h4 p hp

theorem marks_chooses : ∀ {e : Expr} {c : List Nat} {i : Nat} {y : Chars} {gs : Places}, Marks e c i y gs →
    Chooses e c (y.map Prod.fst)
  | .nothing, _, _, _, _, ⟨h1, h2, _⟩ => ⟨h1, by rw [h2]; rfl⟩
  | .char _, _, _, _, _, ⟨h1, h2, _⟩ => ⟨h1, h2⟩
  | .any, _, _, _, _, ⟨h1, h2, _⟩ => ⟨h1, h2⟩
  | .oneOf _, _, _, _, _, ⟨h1, h2, _⟩ => ⟨h1, h2⟩
  | .var _ _, _, _, _, _, ⟨n, h1, h2, _⟩ => ⟨n, h1, h2⟩
  | .seq a b, _, _, _, _, ⟨c, d, u, v, g, h, h1, h2, _, h4, h5⟩ =>
    ⟨c, d, _, _, h1, by rw [h2, List.map_append], marks_chooses h4, marks_chooses h5⟩
  | .or a b, _, _, _, _, .inl ⟨c, g, h1, _, h3⟩ => .inl ⟨c, h1, marks_chooses h3⟩
  | .or a b, _, _, _, _, .inr ⟨c, g, h1, _, h3⟩ => .inr ⟨c, h1, marks_chooses h3⟩
  | .group _ a, _, _, _, _, ⟨_, _, h⟩ => marks_chooses (e := a) h
  | .opt _ a, _, _, _, _, .inl ⟨c, h1, h2⟩ => .inl ⟨c, h1, marks_chooses h2⟩
  | .opt _ a, _, _, _, _, .inr ⟨h1, h2, _⟩ => .inr ⟨h1, by rw [h2]; rfl⟩
  | .many _ a, _, _, _, _, .inl ⟨c, h1, h2⟩ => by
    obtain ⟨d, v, ps, rfl, k2, k3, k4⟩ := reps_chooses (M := Marks a) (C := Chooses a) (fun _ _ _ _ => marks_chooses (e := a)) h2
    refine ⟨(d, v) :: ps, by rw [h1]; simp [rounds], k2, ?_⟩
    intro p hp
    rcases List.mem_cons.1 hp with rfl | hp
    · exact k3
    · exact k4 p hp
  | .many _ a, _, _, _, _, .inr ⟨h1, h2, _⟩ => ⟨[], h1, by rw [h2]; rfl, by simp⟩
  | .more _ a, _, _, _, _, h => reps_chooses (M := Marks a) (C := Chooses a) (fun _ _ _ _ => marks_chooses (e := a)) h

theorem chooses_reps {M : List Nat → Nat → Chars → Places → Prop} {C : List Nat → List Rune → Prop}
    (h : ∀ c i (y : Chars), C c (y.map Prod.fst) → ∃ gs, M c i y gs) {g : Bool} : ∀ {ps : List (List Nat × List Rune)} {d : List Nat}
    {v : List Rune} {i : Nat} {y : Chars}, y.map Prod.fst = v ++ ps.flatMap Prod.snd → C d v → (∀ p ∈ ps, C p.1 p.2) →
    ∃ gs, Reps M g (d ++ rounds g ps) i y gs
  | [], d, v, i, y, hy, hd, _ => by
    obtain ⟨gs, hm⟩ := h d i y (by rw [hy]; simpa using hd)
    exact ⟨gs, .last hm⟩
  | (d', v') :: ps, d, v, i, y, hy, hd, hp => by
    obtain ⟨u, z, rfl, hu, hz⟩ := List.map_eq_append_iff.1 hy
    obtain ⟨gs, hm⟩ := h d i u (by rw [hu]; exact hd)
    obtain ⟨hs, hr⟩ := chooses_reps h (g := g) (ps := ps) (i := i + bytes u) (hz.trans rfl) (hp (d', v') (by simp)) fun p h => hp p (by simp [h])
    refine ⟨later gs hs, ?_⟩
    have e : d ++ rounds g ((d', v') :: ps) = d ++ again g :: (d' ++ rounds g ps) := by simp [rounds]
    rw [e]
    exact .next hm hr

theorem chooses_marks : ∀ {e : Expr} {c : List Nat} (i : Nat) {y : Chars}, Chooses e c (y.map Prod.fst) → ∃ gs, Marks e c i y gs
  | .nothing, _, _, _, ⟨h1, h2⟩ => ⟨[], h1, by simpa using h2, rfl⟩
  | .char _, _, _, _, ⟨h1, h2⟩ => ⟨[], h1, h2, rfl⟩
  | .any, _, _, _, ⟨h1, h2⟩ => ⟨[], h1, h2, rfl⟩
  | .oneOf _, _, _, _, ⟨h1, h2⟩ => ⟨[], h1, h2, rfl⟩
  | .var _ _, _, _, _, ⟨n, h1, h2⟩ => ⟨_, n, h1, h2, rfl⟩
  | .seq a b, _, i, _, ⟨c, d, v, w, h1, h2, h3, h4⟩ => by
    obtain ⟨u, z, rfl, rfl, rfl⟩ := List.map_eq_append_iff.1 h2
    obtain ⟨g, k1⟩ := chooses_marks i h3
    obtain ⟨h, k2⟩ := chooses_marks (i + bytes u) h4
    exact ⟨g ++ h, c, d, u, z, g, h, h1, rfl, rfl, k1, k2⟩
  | .or a b, _, i, _, .inl ⟨c, h1, h2⟩ => by
    obtain ⟨g, k⟩ := chooses_marks i h2
    exact ⟨_, .inl ⟨c, g, h1, rfl, k⟩⟩
  | .or a b, _, i, _, .inr ⟨c, h1, h2⟩ => by
    obtain ⟨g, k⟩ := chooses_marks i h2
    exact ⟨_, .inr ⟨c, g, h1, rfl, k⟩⟩
  | .group _ a, _, i, _, h => by
    obtain ⟨g, k⟩ := chooses_marks (e := a) i h
    exact ⟨_, g, rfl, k⟩
  | .opt _ a, _, i, _, .inl ⟨c, h1, h2⟩ => by
    obtain ⟨g, k⟩ := chooses_marks i h2
    exact ⟨g, .inl ⟨c, h1, k⟩⟩
  | .opt _ a, _, _, _, .inr ⟨h1, h2⟩ => ⟨_, .inr ⟨h1, by simpa using h2, rfl⟩⟩
  | .many g a, _, _, _, ⟨[], h1, h2, _⟩ => ⟨_, .inr ⟨h1, by simpa using h2, rfl⟩⟩
  | .many g a, _, i, _, ⟨(d, v) :: ps, h1, h2, h3⟩ => by
    obtain ⟨gs, k⟩ := chooses_reps (g := g) (C := Chooses a) (fun c i y => chooses_marks (e := a) i) (i := i) h2 (h3 (d, v) (by simp))
      fun p hp => h3 p (by simp [hp])
    exact ⟨gs, .inl ⟨_, by rw [h1]; simp [rounds], k⟩⟩
  | .more g a, _, i, _, ⟨d, v, ps, h1, h2, h3, h4⟩ => by
    obtain ⟨gs, k⟩ := chooses_reps (g := g) (C := Chooses a) (fun c i y => chooses_marks (e := a) i) (i := i) h2 h3 h4
    exact ⟨gs, by rw [h1]; exact k⟩

/-! ## The marks are determined -/

theorem prefix_map {y y' t t' : Chars} (h : y ++ t = y' ++ t') (hl : y.length = y'.length) : y = y' :=
  (List.append_inj h hl).1

/-- One text, choices and places for all that come before the rests. -/
def Only (M : List Nat → Nat → Chars → Places → Prop) : Prop :=
  ∀ {c r c' r' : List Nat} {i : Nat} {y t y' t' : Chars} {gs gs' : Places}, M c i y gs → M c' i y' gs' → c ++ r = c' ++ r' →
    y ++ t = y' ++ t' → c = c' ∧ y = y' ∧ gs = gs'

theorem again_ne (g : Bool) : again g ≠ enough g := by cases g <;> decide

theorem only_reps {M : List Nat → Nat → Chars → Places → Prop} (h : Only M) {g : Bool} : Only (Reps M g) := by
  intro c r c' r' i y t y' t' gs gs' h1
  induction h1 generalizing c' r' y' t' gs' with
  | last hm =>
    intro h2 hc hy
    cases h2 with
    | last hm' =>
      rw [List.append_assoc, List.append_assoc] at hc
      obtain ⟨rfl, rfl, rfl⟩ := h hm hm' hc hy
      exact ⟨rfl, rfl, rfl⟩
    | next hm' hr =>
      rw [List.append_assoc, List.append_assoc] at hc
      rw [List.append_assoc] at hy
      obtain ⟨rfl, rfl, rfl⟩ := h hm hm' hc hy
      have := List.append_cancel_left hc
      simp only [List.cons_append, List.cons.injEq] at this
      exact absurd this.1.symm (again_ne g)
  | next hm hr ih =>
    intro h2 hc hy
    cases h2 with
    | last hm' =>
      rw [List.append_assoc, List.append_assoc] at hc
      rw [List.append_assoc] at hy
      obtain ⟨rfl, rfl, rfl⟩ := h hm hm' hc hy
      have := List.append_cancel_left hc
      simp only [List.cons_append, List.cons.injEq] at this
      exact absurd this.1 (again_ne g)
    | next hm' hr' =>
      rw [List.append_assoc, List.append_assoc] at hc
      rw [List.append_assoc, List.append_assoc] at hy
      obtain ⟨rfl, rfl, rfl⟩ := h hm hm' hc hy
      have hc := List.append_cancel_left hc
      simp only [List.cons_append, List.cons.injEq, true_and] at hc
      obtain ⟨rfl, rfl, rfl⟩ := ih hr' hc (List.append_cancel_left hy)
      exact ⟨rfl, rfl, rfl⟩

theorem only_marks : ∀ {e : Expr}, Only (Marks e)
  | .nothing, _, _, _, _, _, _, _, _, _, _, _, ⟨h1, h2, h3⟩, ⟨k1, k2, k3⟩, _, _ =>
    ⟨h1.trans k1.symm, h2.trans k2.symm, h3.trans k3.symm⟩
  | .char _, _, _, _, _, _, _, _, _, _, _, _, ⟨h1, h2, h3⟩, ⟨k1, k2, k3⟩, _, hy =>
    ⟨h1.trans k1.symm, prefix_map hy (by simpa using (congrArg List.length h2).trans (congrArg List.length k2).symm), h3.trans k3.symm⟩
  | .any, _, _, _, _, _, _, _, _, _, _, _, ⟨h1, ⟨_, h2, _⟩, h3⟩, ⟨k1, ⟨_, k2, _⟩, k3⟩, _, hy =>
    ⟨h1.trans k1.symm, prefix_map hy (by simpa using (congrArg List.length h2).trans (congrArg List.length k2).symm), h3.trans k3.symm⟩
  | .oneOf _, _, _, _, _, _, _, _, _, _, _, _, ⟨h1, ⟨_, h2, _⟩, h3⟩, ⟨k1, ⟨_, k2, _⟩, k3⟩, _, hy =>
    ⟨h1.trans k1.symm, prefix_map hy (by simpa using (congrArg List.length h2).trans (congrArg List.length k2).symm), h3.trans k3.symm⟩
  | .var _ _, _, _, _, _, _, _, _, _, _, _, _, ⟨n, rfl, h2, rfl⟩, ⟨n', rfl, k2, rfl⟩, hc, hy => by
    simp only [List.cons_append, List.cons.injEq] at hc
    obtain ⟨rfl, _⟩ := hc
    rw [h2] at k2
    simp only [Option.some.injEq] at k2
    have := prefix_map hy (by simpa using congrArg List.length k2)
    subst this
    exact ⟨rfl, rfl, rfl⟩
  | .seq a b, _, _, _, _, _, _, _, _, _, _, _, ⟨c, d, u, v, g, h, rfl, rfl, rfl, h4, h5⟩,
      ⟨c', d', u', v', g', h', rfl, rfl, rfl, k4, k5⟩, hc, hy => by
    rw [List.append_assoc, List.append_assoc] at hc hy
    obtain ⟨rfl, rfl, rfl⟩ := only_marks h4 k4 hc hy
    obtain ⟨rfl, rfl, rfl⟩ := only_marks h5 k5 (List.append_cancel_left hc) (List.append_cancel_left hy)
    exact ⟨rfl, rfl, rfl⟩
  | .or a b, _, _, _, _, _, _, _, _, _, _, _, .inl ⟨c, g, rfl, rfl, h⟩, .inl ⟨c', g', rfl, rfl, k⟩, hc, hy => by
    simp only [List.cons_append, List.cons.injEq, true_and] at hc
    obtain ⟨rfl, rfl, rfl⟩ := only_marks h k hc hy
    exact ⟨rfl, rfl, rfl⟩
  | .or a b, _, _, _, _, _, _, _, _, _, _, _, .inr ⟨c, g, rfl, rfl, h⟩, .inr ⟨c', g', rfl, rfl, k⟩, hc, hy => by
    simp only [List.cons_append, List.cons.injEq, true_and] at hc
    obtain ⟨rfl, rfl, rfl⟩ := only_marks h k hc hy
    exact ⟨rfl, rfl, rfl⟩
  | .or a b, _, _, _, _, _, _, _, _, _, _, _, .inl ⟨c, g, rfl, rfl, h⟩, .inr ⟨c', g', rfl, rfl, k⟩, hc, hy => by simp at hc
  | .or a b, _, _, _, _, _, _, _, _, _, _, _, .inr ⟨c, g, rfl, rfl, h⟩, .inl ⟨c', g', rfl, rfl, k⟩, hc, hy => by simp at hc
  | .group _ a, _, _, _, _, _, _, _, _, _, _, _, ⟨g, rfl, h⟩, ⟨g', rfl, k⟩, hc, hy => by
    obtain ⟨rfl, rfl, rfl⟩ := only_marks (e := a) h k hc hy
    exact ⟨rfl, rfl, rfl⟩
  | .opt _ a, _, _, _, _, _, _, _, _, _, _, _, .inl ⟨c, rfl, h⟩, .inl ⟨c', rfl, k⟩, hc, hy => by
    simp only [List.cons_append, List.cons.injEq, true_and] at hc
    obtain ⟨rfl, rfl, rfl⟩ := only_marks h k hc hy
    exact ⟨rfl, rfl, rfl⟩
  | .opt _ a, _, _, _, _, _, _, _, _, _, _, _, .inr ⟨rfl, rfl, rfl⟩, .inr ⟨rfl, rfl, rfl⟩, hc, hy => ⟨rfl, rfl, rfl⟩
  | .opt g a, _, _, _, _, _, _, _, _, _, _, _, .inl ⟨c, rfl, h⟩, .inr ⟨rfl, _, _⟩, hc, hy => by
    simp only [List.cons_append, List.cons.injEq] at hc
    exact absurd hc.1 (again_ne g)
  | .opt g a, _, _, _, _, _, _, _, _, _, _, _, .inr ⟨rfl, _, _⟩, .inl ⟨c, rfl, h⟩, hc, hy => by
    simp only [List.cons_append, List.cons.injEq] at hc
    exact absurd hc.1.symm (again_ne g)
  | .many _ a, _, _, _, _, _, _, _, _, _, _, _, .inl ⟨c, rfl, h⟩, .inl ⟨c', rfl, k⟩, hc, hy => by
    simp only [List.cons_append, List.cons.injEq, true_and] at hc
    obtain ⟨rfl, rfl, rfl⟩ := only_reps (M := Marks a) (only_marks (e := a)) h k hc hy
    exact ⟨rfl, rfl, rfl⟩
  | .many _ a, _, _, _, _, _, _, _, _, _, _, _, .inr ⟨rfl, rfl, rfl⟩, .inr ⟨rfl, rfl, rfl⟩, hc, hy => ⟨rfl, rfl, rfl⟩
  | .many g a, _, _, _, _, _, _, _, _, _, _, _, .inl ⟨c, rfl, h⟩, .inr ⟨rfl, _, _⟩, hc, hy => by
    simp only [List.cons_append, List.cons.injEq] at hc
    exact absurd hc.1 (again_ne g)
  | .many g a, _, _, _, _, _, _, _, _, _, _, _, .inr ⟨rfl, _, _⟩, .inl ⟨c, rfl, h⟩, hc, hy => by
    simp only [List.cons_append, List.cons.injEq] at hc
    exact absurd hc.1.symm (again_ne g)
  | .more _ a, _, _, _, _, _, _, _, _, _, _, _, h, k, hc, hy => only_reps (M := Marks a) (only_marks (e := a)) h k hc hy

/-! ## Places further on -/

/-- Places in a text that begins `o` further on. -/
def move (o : Nat) (gs : Places) : Places := gs.map (Option.map fun p => (p.1 + o, p.2 + o))

theorem move_append {o : Nat} {gs hs : Places} : move o (gs ++ hs) = move o gs ++ move o hs := List.map_append

theorem move_unused {o : Nat} {e : Expr} : move o (unused e) = unused e := by simp [move, unused]

theorem move_later {o : Nat} : ∀ {gs hs : Places}, move o (later gs hs) = later (move o gs) (move o hs)
  | [], _ => by simp [move, later]
  | _ :: _, [] => by simp [move, later]
  | g :: gs, h :: hs => by
    have := move_later (o := o) (gs := gs) (hs := hs)
    simp only [move, later, List.zipWith_cons_cons, List.map_cons, List.cons.injEq] at this ⊢
    exact ⟨by cases g <;> cases h <;> rfl, this⟩

theorem reps_move {M : List Nat → Nat → Chars → Places → Prop} {o : Nat} (h : ∀ {c i y gs}, M c i y gs → M c (i + o) y (move o gs))
    {g : Bool} {c : List Nat} {i : Nat} {y : Chars} {gs : Places} (hr : Reps M g c i y gs) : Reps M g c (i + o) y (move o gs) := by
  induction hr with
  | last hm => exact .last (h hm)
  | next hm _ ih =>
    rw [move_later]
    refine .next (h hm) ?_
    rwa [Nat.add_right_comm]

theorem marks_move {o : Nat} : ∀ {e : Expr} {c : List Nat} {i : Nat} {y : Chars} {gs : Places}, Marks e c i y gs →
    Marks e c (i + o) y (move o gs)
  | .nothing, _, _, _, _, ⟨h1, h2, h3⟩ => ⟨h1, h2, by rw [h3]; rfl⟩
  | .char _, _, _, _, _, ⟨h1, h2, h3⟩ => ⟨h1, h2, by rw [h3]; rfl⟩
  | .any, _, _, _, _, ⟨h1, h2, h3⟩ => ⟨h1, h2, by rw [h3]; rfl⟩
  | .oneOf _, _, _, _, _, ⟨h1, h2, h3⟩ => ⟨h1, h2, by rw [h3]; rfl⟩
  | .var _ _, _, i, y, _, ⟨n, h1, h2, h3⟩ => ⟨n, h1, h2, by rw [h3]; simp [move]; omega⟩
  | .seq a b, _, i, _, _, ⟨c, d, u, v, g, h, h1, h2, h3, h4, h5⟩ => by
    have := marks_move (o := o) h5
    rw [Nat.add_right_comm] at this
    exact ⟨c, d, u, v, _, _, h1, h2, by rw [h3, move_append], marks_move h4, this⟩
  | .or a b, _, _, _, _, .inl ⟨c, g, h1, h2, h3⟩ => .inl ⟨c, _, h1, by rw [h2, move_append, move_unused], marks_move h3⟩
  | .or a b, _, _, _, _, .inr ⟨c, g, h1, h2, h3⟩ => .inr ⟨c, _, h1, by rw [h2, move_append, move_unused], marks_move h3⟩
  | .group b a, _, i, y, _, ⟨g, h1, h⟩ => by
    refine ⟨move o g, ?_, marks_move (e := a) h⟩
    subst h1
    cases b
    · rfl
    · simp [move]; omega
  | .opt _ a, _, _, _, _, .inl ⟨c, h1, h2⟩ => .inl ⟨c, h1, marks_move h2⟩
  | .opt _ a, _, _, _, _, .inr ⟨h1, h2, h3⟩ => .inr ⟨h1, h2, by rw [h3, move_unused]⟩
  | .many _ a, _, _, _, _, .inl ⟨c, h1, h2⟩ => .inl ⟨c, h1, reps_move (M := Marks a) (fun h => marks_move (e := a) h) h2⟩
  | .many _ a, _, _, _, _, .inr ⟨h1, h2, h3⟩ => .inr ⟨h1, h2, by rw [h3, move_unused]⟩
  | .more _ a, _, _, _, _, h => reps_move (M := Marks a) (fun h => marks_move (e := a) h) h

/-! ## The offsets -/

theorem record_get {gs : Places} : ∀ {n i : Nat} {c : List (Option Nat)}, i < 2 * (n + 1) → (record n gs c)[i]? = c[i]? := by
  induction gs with
  | nil => intros; rfl
  | cons g gs ih =>
    intro n i c h
    match g with
    | none => exact ih (by omega)
    | some (a, b) => rw [record, ih (by omega), List.getElem?_set_ne (by omega), List.getElem?_set_ne (by omega)]

def cells (gs : Places) : List (Option Nat) :=
  gs.flatMap fun g => match g with
    | some (a, b) => [some a, some b]
    | none => [none, none]

theorem record_cells : ∀ {gs : Places} {n : Nat} {c : List (Option Nat)},
    (∀ i, 2 * (n + 1) ≤ i → i < 2 * (n + 1) + 2 * gs.length → c[i]? = some none) →
    ((record n gs c).drop (2 * (n + 1))).take (2 * gs.length) = cells gs
  | [], _, _, _ => by simp [cells]
  | g :: gs, n, c, h => by
    have two : ∀ {l : List (Option Nat)} {j m : Nat} {a b : Option Nat}, l[j]? = some a → l[j + 1]? = some b →
        (l.drop j).take (2 * (m + 1)) = a :: b :: (l.drop (j + 2)).take (2 * m) := by
      intro l j m a b h1 h2
      obtain ⟨l1, e1⟩ := List.getElem?_eq_some_iff.1 h1
      obtain ⟨l2, e2⟩ := List.getElem?_eq_some_iff.1 h2
      rw [List.drop_eq_getElem_cons l1, List.drop_eq_getElem_cons l2, e1, e2]
      rfl
    have c0 := h (2 * (n + 1)) (by omega) (by simp)
    have c1 := h (2 * (n + 1) + 1) (by omega) (by simp; omega)
    have l0 := (List.getElem?_eq_some_iff.1 c0).1
    have l1 := (List.getElem?_eq_some_iff.1 c1).1
    match g with
    | none =>
      rw [List.length_cons, record, two (by rw [record_get (by omega)]; exact c0) (by rw [record_get (by omega)]; exact c1)]
      have ih := record_cells (gs := gs) (n := n + 1) (c := c) fun i h1 h2 => h i (by omega) (by simp; omega)
      rw [show 2 * (n + 1) + 2 = 2 * (n + 1 + 1) by omega, ih]
      rfl
    | some (a, b) =>
      rw [List.length_cons, record]
      rw [two (a := some a) (b := some b)]
      · have ih := record_cells (gs := gs) (n := n + 1) (c := (c.set (2 * (n + 1)) (some a)).set (2 * (n + 1) + 1) (some b))
          fun i h1 h2 => by
            rw [List.getElem?_set_ne (by omega), List.getElem?_set_ne (by omega)]
            exact h i (by omega) (by simp; omega)
        rw [show 2 * (n + 1) + 2 = 2 * (n + 1 + 1) by omega, ih]
        rfl
      · rw [record_get (by omega), List.getElem?_set_ne (by omega), List.getElem?_set_self l0]
      · rw [record_get (by omega), List.getElem?_set_self (by simpa using l1)]

theorem cells_offsets {o : Nat} (gs : Places) : ((cells gs).map toInt).map (shift o) = offsets (move o gs) := by
  induction gs with
  | nil => rfl
  | cons g gs ih =>
    match g with
    | none =>
      simp only [cells, offsets, move, List.flatMap_cons, List.map_append, List.map_cons, List.map_nil] at ih ⊢
      rw [ih]
      rfl
    | some (a, b) =>
      simp only [cells, offsets, move, List.flatMap_cons, List.map_append, List.map_cons, List.map_nil] at ih ⊢
      rw [ih, shift_toInt, shift_toInt]
      rfl

/-! ## The number of the groups -/

theorem layout_num {p : Pattern} {e1 lb la e2 : Re} {k : Nat} {l : List Re} {x : Bytes} (hx : compile x = .ok p.re)
    (h : Layout p e1 lb (l.map (shiftCap 2)).reverse k la e2) : numCap (mkCat l) = k := by
  unfold compile at hx
  split at hx
  · obtain ⟨ts, f, n, lr, hp, hre⟩ := parseRunes_iff.1 hx
    have hn : n = k + 4 := by rw [← hp.numCap, ← hre, h.num]
    subst hn
    refine numCap_eq fun i => ?_
    have hi := hp.hasCap (i + 2)
    rw [← hre, h.re] at hi
    have hcore : HasCapList (i + 2) (l.map (shiftCap 2)).reverse = true ↔ HasCap i (mkCat l) = true := by
      rw [hasCap_mkCat, hasCapList_iff, hasCapList_iff]
      constructor
      · rintro ⟨r, hr, hc⟩
        simp only [List.mem_reverse, List.mem_map] at hr
        obtain ⟨r', hr', rfl⟩ := hr
        exact ⟨r', hr', by simpa using (hasCap_shift_iff.1 hc).2⟩
      · rintro ⟨r, hr, hc⟩
        exact ⟨shiftCap 2 r, by simpa using ⟨r, hr, rfl⟩, hasCap_shift_iff.2 ⟨by omega, by simpa using hc⟩⟩
    rw [← hcore]
    constructor
    · intro hc
      have := h.core _ hc
      omega
    · intro hik
      have := hi.2 (by omega)
      simp only [HasCap] at this
      obtain ⟨r, hr, hc⟩ := hasCapList_iff.1 this
      simp only [List.cons_append, List.nil_append, List.mem_cons, List.mem_append, List.not_mem_nil, or_false] at hr
      rcases hr with rfl | rfl | hr | rfl | rfl
      · simp [HasCap, h.e1] at hc
      · simp [HasCap, h.lb] at hc; omega
      · exact hasCapList_iff.2 ⟨r, hr, hc⟩
      · simp [HasCap, h.la] at hc; omega
      · simp [HasCap, h.e2] at hc; omega
  · simp at hx

/-! ## What is reported -/

/-- What `TakesFrom` says without the groups. -/
theorem takes_picks {w : Whole} {word : Bytes} {o i j k : Nat} {gs : Places} (h : w.TakesFrom word o i j k gs) :
    w.PicksFrom word o i j k := by
  obtain ⟨v, e, x, y, z, f, t, c1, c2, c3, c4, c5, a1, a2, a3, a4, a5, a6, a7, a8, a9, a10⟩ := h
  exact ⟨v, e, x, y, z, f, t, _, a1, a2, a3, a4, ⟨c1, c2, c3, c4, c5, rfl, a5, a6, marks_chooses a7, a8, a9⟩, a10⟩

theorem picks_takes {w : Whole} {word : Bytes} {o i j k : Nat} (h : w.PicksFrom word o i j k) :
    ∃ gs, w.TakesFrom word o i j k gs := by
  obtain ⟨v, e, x, y, z, f, t, _, a1, a2, a3, a4, ⟨c1, c2, c3, c4, c5, rfl, a5, a6, a7, a8, a9⟩, a10⟩ := h
  obtain ⟨gs, hm⟩ := chooses_marks j a7
  exact ⟨gs, v, e, x, y, z, f, t, c1, c2, c3, c4, c5, a1, a2, a3, a4, a5, a6, hm, a8, a9, a10⟩

theorem takes_unique {w : Whole} (hw : w.Solid) {word : Bytes} {o i j k j' k' : Nat} {gs gs' : Places}
    (h : w.TakesFrom word o i j k gs) (h' : w.TakesFrom word o i j' k' gs') : j = j' ∧ k = k' ∧ gs = gs' := by
  obtain ⟨rfl, rfl⟩ := picks_unique hw (takes_picks h) (takes_picks h')
  refine ⟨rfl, rfl, ?_⟩
  obtain ⟨v, e, x, y, z, f, t, c1, c2, c3, c4, c5, a1, a2, a3, a4, a5, a6, a7, a8, a9, a10⟩ := h
  obtain ⟨v', e', x', y', z', f', t', d1, d2, d3, d4, d5, b1, b2, b3, b4, b5, b6, b7, b8, b9, b10⟩ := h'
  have hv : v = v' := by
    rw [bytes_eq] at a2 b2
    exact until_unique a1 b1 (by omega) prefix_of_width_le
  subst hv
  rw [a1] at b1
  have hr := List.append_cancel_left b1
  obtain ⟨-, -, rfl, rfl⟩ := parts_unique hw hr ⟨a5, a6, marks_chooses a7, a8, a9⟩ ⟨b5, b6, marks_chooses b7, b8, b9⟩
    (a10 _ e' x' y' z' f' t' hr ⟨_, _, _, _, _, rfl, b5, b6, marks_chooses b7, b8, b9⟩)
    (b10 _ e x y z f t hr.symm ⟨_, _, _, _, _, rfl, a5, a6, marks_chooses a7, a8, a9⟩)
  exact (only_marks a7 b7 (rfl : c3 ++ [] = c3 ++ []) (rfl : y ++ [] = y ++ [])).2.2

/-- The pattern of a whole, with its groups. -/
structure RunsG (w : Whole) (p : Pattern) (e1 lb : Re) (core : List Re) (k : Nat) (la e2 : Re) : Prop
    extends Runs w p e1 lb core k la e2 where
  num : k = groups w.mid
  marks : ∀ s, runCat core s = runE 2 w.mid s

section Step

variable {w : Whole} {p : Pattern} {e1 lb la e2 : Re} {core : List Re} {k : Nat}

/-- What the groups of the expression hold. -/
theorem layout_cells (h : Layout p e1 lb core k la e2) {prev : Option Rune} {pos : Nat} {rest : List (Rune × Nat)}
    {s1 s2 s3 s4 s : St} (h1 : s1 ∈ run (.cap 1 e1) (start p.re prev pos rest)) (h2 : s2 ∈ run (.cap 2 lb) s1)
    (h4 : s4 ∈ run (.cap (k + 3) la) s3) (h5 : s ∈ run (.cap (k + 4) e2) s4) {gs : Places}
    (hk : gs.length = k) (hc : s3.caps = record 2 gs s2.caps) : (s.caps.drop 6).take (2 * k) = cells gs := by
  have keep : ∀ i, 6 ≤ i → i < 2 * k + 6 → s2.caps[i]? = some none ∧ s.caps[i]? = s3.caps[i]? := by
    intro i hi hi'
    obtain ⟨m, hm⟩ : ∃ m, (i = 2 * m ∨ i = 2 * m + 1) ∧ 3 ≤ m ∧ m < k + 3 := ⟨i / 2, by omega⟩
    have q1 := run_keeps (r := .cap 1 e1) (i := m) (by simp [HasCap, h.e1]; omega) h1
    have q2 := run_keeps (r := .cap 2 lb) (i := m) (by simp [HasCap, h.lb]; omega) h2
    have q4 := run_keeps (r := .cap (k + 3) la) (i := m) (by simp [HasCap, h.la]; omega) h4
    have q5 := run_keeps (r := .cap (k + 4) e2) (i := m) (by simp [HasCap, h.e2]; omega) h5
    have hs : (start p.re prev pos rest).caps[i]? = some none := by
      simp only [start, h.num]
      rw [List.getElem?_replicate, if_pos (by omega)]
    rcases hm.1 with rfl | rfl
    · exact ⟨q2.1.trans (q1.1.trans hs), q5.1.trans q4.1⟩
    · exact ⟨q2.2.trans (q1.2.trans hs), q5.2.trans q4.2⟩
  have e : (s.caps.drop 6).take (2 * k) = (s3.caps.drop 6).take (2 * k) := by
    apply List.ext_getElem?
    intro i
    simp only [List.getElem?_take, List.getElem?_drop]
    split
    · exact (keep (6 + i) (by omega) (by omega)).2
    · rfl
  rw [e, hc, ← hk]
  exact record_cells (n := 2) fun i h1 h2 => (keep i (by omega) (by omega)).1

theorem RunsG.step (r : RunsG w p e1 lb core k la e2) (hw : w.Solid) {word : Bytes} {o o' : Nat}
    (hb : Boundary word o) {x : Option (List Int)} (hs : findStep p word o = .ok (some (o', x))) :
    ∃ i j k gs, w.TakesFrom word o i j k gs ∧ o ≤ i ∧ j < k ∧ Nothing (w.PicksFrom word o) o i ∧ o' = k ∧
      Boundary word k ∧
      ((x = none ∧ vetoes p word j k) ∨ (¬ vetoes p word j k ∧ x = some ((j : Int) :: (k : Int) :: offsets gs))) := by
  obtain ⟨i, j, k', hp, hi, hj, hn, ho, hbk, hx⟩ := r.toRuns.step hw hb hs
  obtain ⟨gs, ht⟩ := picks_takes hp
  refine ⟨i, j, k', gs, ht, hi, hj, hn, ho, hbk, ?_⟩
  rcases hx with hx | ⟨hv, g, rfl⟩
  · exact .inl hx
  refine .inr ⟨hv, ?_⟩
  obtain ⟨pos, s, h1, h2, h3, h4⟩ := findStep_search hs
  obtain ⟨u, v, k1, k2, k3, k4⟩ := searchFrom_first h1
  simp only [Nat.zero_add] at k2
  subst k2
  obtain ⟨s1, s2, s3, s4, c1, c2, c3, c4, c5, a1, a2, ⟨a3, a3'⟩, a4, a5, f, least⟩ := (r.chain hw u v).2 s k3
  have a6 : (c3, s3) ∈ trace 2 w.mid s2 := by
    rw [r.marks, ← trace_snd] at a3'
    have e : (outs w.mid s2.rest).map Prod.fst = (trace 2 w.mid s2).map Prod.fst := by
      rw [← trace_bare 2, List.map_map]
      rfl
    rw [e, List.zip_map'] at a3'
    obtain ⟨q, hq, he⟩ := List.mem_map.1 a3'
    simp only [Prod.mk.injEq] at he
    obtain ⟨rfl, rfl⟩ := he
    exact hq
  obtain ⟨y, hs3, m1, m2, m3, m4, m5⟩ := trace_sets a6
  obtain ⟨le, lx, ly, lz, lf, ee, ex, ey, ez, ef, g1, g2, g3, g4, g5⟩ := (five_iff hw).1 f
  have hy : y = ly := List.append_cancel_right (m1.symm.trans ey)
  subst hy
  have we : s1.pos = Rx.width u + Rx.width le := adv_split (run_adv a1) ee
  have wx := adv_split (run_adv a2) ex
  have wy := adv_split (runCat_adv a3) ey
  have hv' : v = le ++ (lx ++ (y ++ (lz ++ (lf ++ s.rest)))) := by
    rw [ee, ex, ey, ez, ef]
  have hdrop : decode (word.drop o) = u ++ (le ++ (lx ++ (y ++ (lz ++ (lf ++ s.rest))))) := by rw [k1, hv']
  have ht' : w.TakesFrom word o (o + Rx.width u) (s2.pos + o) (s3.pos + o) (move o hs3) := by
    refine ⟨u, le, lx, y, lz, lf, s.rest, c1, c2, c3, c4, c5, hdrop, rfl, ?_, ?_, g1, g2, marks_move m4, g4, g5, ?_⟩
    · rw [bytes_eq, bytes_eq, wx, we]; omega
    · rw [bytes_eq, wy]; omega
    · rintro ds e' x' y' z' f' t' he ⟨d1, d2, d3, d4, d5, rfl, q1, q2, q3, q4, q5⟩
      rcases least d1 d2 d3 d4 d5 _ _ _ _ t' ((five_iff hw).2
        ⟨e', x', y', z', f', hv'.trans he, rfl, rfl, rfl, rfl, q1, q2, q3, q4, q5⟩) with h | h
      · rw [h]; exact List.lt_irrefl _
      · exact h.not_lt
  have hii : i = o + Rx.width u := by
    rcases Nat.lt_trichotomy i (o + Rx.width u) with hlt | heq | hlt
    · exfalso
      obtain ⟨w0, e0, x0, y0, z0, f0, t0, cs, q1, q2, q3, q4, ⟨d1, d2, d3, d4, d5, rfl, r1, r2, r3, r4, r5⟩, -⟩ := hp
      have q10 : w0.length < u.length := by
        rw [bytes_eq] at q2
        obtain ⟨e', h5, h6⟩ := prefix_of_width q1 k1 (by omega)
        rw [h5]
        have := List.length_pos_iff.2 h6
        simp; omega
      refine (r.chain hw w0 (e0 ++ (x0 ++ (y0 ++ (z0 ++ (f0 ++ t0)))))).1 ?_ d1 d2 d3 d4 d5 _ _ _ _ t0
        ((five_iff hw).2 ⟨e0, x0, y0, z0, f0, rfl, rfl, rfl, rfl, rfl, r1, r2, r3, r4, r5⟩)
      have := k4 w0 _ q1 q10
      rwa [Nat.zero_add] at this
    · exact heq
    · exact absurd (takes_picks ht') (hn _ _ _ (by omega) hlt)
  subst hii
  obtain ⟨rfl, rfl, rfl⟩ := takes_unique hw ht ht'
  rcases h4 with ⟨h5, _⟩ | ⟨_, h6⟩
  · simp at h5
  · simp only [Option.some.injEq, List.cons.injEq] at h6
    obtain ⟨_, _, rfl⟩ := h6
    rw [r.layout.num, ← cells_offsets, ← layout_cells r.layout a1 a2 a4 a5 (by rw [m3, r.num]) m5]
    simp only [subs, List.map_cons, List.drop_succ_cons, List.map_take, List.map_drop, List.drop_drop]
    congr 3

theorem RunsG.reports (r : RunsG w p e1 lb core k la e2) (hw : w.Solid) {word : Bytes}
    (hv : ∀ j k, vetoes p word j k ↔ w.Vetoed word j k) : ∀ {fuel o count : Nat} {ms : List (List Int)}, Boundary word o →
    findLoop p word (-1) fuel o count = .ok ms → w.Reports word o ms := by
  intro fuel
  induction fuel with
  | zero => intro o count ms _ hf; simp [findLoop] at hf
  | succ fuel ih =>
    intro o count ms hb hf
    unfold findLoop at hf
    split at hf
    · rw [Go.bind_eq_ok] at hf
      obtain ⟨x, hx, hf⟩ := hf
      split at hf
      · simp at hf
        subst hf
        exact .done fun i j k gs h1 h2 h3 => r.toRuns.none hw hx (hi := word.length) i j k h1 h2 (takes_picks h3)
      · obtain ⟨i, j, k, gs, h1, h2, h3, h4, rfl, h6, h7⟩ := r.step hw hb hx
        rcases h7 with ⟨_, h7⟩ | ⟨_, h7⟩
        · exact .vetoed h1 h2 h3 (fun i' j' k' gs' a b c => h4 i' j' k' a b (takes_picks c)) ((hv _ _).1 h7) (ih h6 hf)
        · simp at h7
      · rename_i o' m
        rw [Go.bind_eq_ok] at hf
        obtain ⟨ms', hf, hms⟩ := hf
        simp at hms
        subst hms
        obtain ⟨i, j, k, gs, h1, h2, h3, h4, rfl, h6, h7⟩ := r.step hw hb hx
        rcases h7 with ⟨h7, _⟩ | ⟨h7, h8⟩
        · simp at h7
        · simp at h8
          subst h8
          exact .found h1 h2 h3 (fun i' j' k' gs' a b c => h4 i' j' k' a b (takes_picks c)) (fun h => h7 ((hv _ _).2 h)) (ih h6 hf)
    · rename_i hlt
      simp at hf
      subst hf
      refine .done ?_
      intro i j k gs hi hi'
      exact absurd ⟨by omega, .inl (by omega)⟩ hlt

end Step

theorem reports_unique {w : Whole} (hw : w.Solid) {word : Bytes} {lo : Nat} {ms ms' : List (List Int)}
    (h : w.Reports word lo ms) (h' : w.Reports word lo ms') : ms = ms' := by
  have same : ∀ {o i j k i' j' k' : Nat} {gs gs' : Places}, w.TakesFrom word o i j k gs → w.TakesFrom word o i' j' k' gs' → o ≤ i →
      o ≤ i' → (∀ i' j' k' gs', o ≤ i' → i' < i → ¬ w.TakesFrom word o i' j' k' gs') →
      (∀ i'' j' k' gs', o ≤ i'' → i'' < i' → ¬ w.TakesFrom word o i'' j' k' gs') → j = j' ∧ k = k' ∧ gs = gs' := by
    intro o i j k i' j' k' gs gs' a b c d e f
    have : i = i' := by
      rcases Nat.lt_trichotomy i i' with h | h | h
      · exact absurd a (f _ _ _ _ c h)
      · exact h
      · exact absurd b (e _ _ _ _ d h)
    subst this
    exact takes_unique hw a b
  induction h generalizing ms' with
  | done h =>
    cases h' with
    | done => rfl
    | found h1 h2 h3 => exact absurd h1 (h _ _ _ _ h2 (picks_bound (takes_picks h1) h3))
    | vetoed h1 h2 h3 => exact absurd h1 (h _ _ _ _ h2 (picks_bound (takes_picks h1) h3))
  | found h1 h2 h3 h4 h5 _ ih =>
    cases h' with
    | done h => exact absurd h1 (h _ _ _ _ h2 (picks_bound (takes_picks h1) h3))
    | found k1 k2 k3 k4 k5 k6 =>
      obtain ⟨rfl, rfl, rfl⟩ := same h1 k1 h2 k2 h4 k4
      rw [ih k6]
    | vetoed k1 k2 k3 k4 k5 k6 =>
      obtain ⟨rfl, rfl, rfl⟩ := same h1 k1 h2 k2 h4 k4
      exact absurd k5 h5
  | vetoed h1 h2 h3 h4 h5 _ ih =>
    cases h' with
    | done h => exact absurd h1 (h _ _ _ _ h2 (picks_bound (takes_picks h1) h3))
    | found k1 k2 k3 k4 k5 k6 =>
      obtain ⟨rfl, rfl, rfl⟩ := same h1 k1 h2 k2 h4 k4
      exact absurd h5 k5
    | vetoed k1 k2 k3 k4 k5 k6 =>
      obtain ⟨rfl, rfl, rfl⟩ := same h1 k1 h2 k2 h4 k4
      exact ih k6

/-- The pattern of a whole runs as laid out, with its groups. -/
theorem whole_runsG {vars : List (Bytes × List Bytes)} {w : Whole} (h : w.Fit vars) {x : Bytes} {p : Pattern} (sh : Shape x p) {rc : Re}
    (hx : x = w.bytes) (h1 : sh.nb = w.carets) (h2 : sh.na = w.dollars) (h3 : sh.lookB = w.behind.bytes)
    (h4 : sh.lookA = w.ahead.bytes) (hno : NoBar (expandEdges sh.core)) (hc : compile (expandEdges sh.core) = .ok rc)
    (hs : Same w.mid rc) : ∃ e1 lb core k la e2, RunsG w p e1 lb core k la e2 := by
  have hcore : sh.core = encode (text (core w.mid)) := by
    have e := hx.symm.trans sh.text
    rw [Whole.bytes, h1, h2, h3, h4] at e
    exact (List.append_cancel_right (List.append_cancel_left (List.append_cancel_left e))).symm
  have hf := fine_text (raw_core h.mid)
  obtain ⟨c1, c2, c3⟩ := fine_bytes hf
  have hc' := hc
  rw [hcore, expandEdges_plain c1 c2] at hc'
  obtain ⟨n1, n2⟩ := compile_groups h.mid hc'
  obtain ⟨e1, lb, core', k, la, e2, r, l, rfl, rfl⟩ := whole_runs h sh h1 h2 h3 h4 hno hc hs
  refine ⟨e1, lb, _, k, la, e2, r, ?_, ?_⟩
  · rw [← n1]
    exact (layout_num sh.re r.layout).symm
  · intro s
    have := n2 2 s
    rwa [shiftCap_mkCat, run_mkCat] at this

end Verif.Spec.Expr
