import Verif.Proofs.WordFind

/-! The first match in a text of two parts separated by a space. -/

namespace Verif.Words

open Verif.Rx

open Verif.Hre

variable {n : Nat} {re : Re}

/-! ## In the first part -/

theorem left_ext {β : List (Rune × Nat)} {s s' : St} (h : Ext β s s') (hne : s.rest ≠ []) :
    Pairs (Ext β) (run leftEdge s) (run leftEdge s') := by
  obtain ⟨h1, h2, h3, h4, h5⟩ := h
  have hh := steps_inner (ext_sim β) (fun _ h => h) hint inner_hint ⟨h1, h2, h3, h4, h5⟩
  obtain ⟨a, t, e⟩ := List.exists_cons_of_ne_nil hne
  have hb : blank a.1 = false := h5 a (by simp [e])
  have e2 : run blanks s = [] := blanks_none fun c t h => by
    rw [e] at h; simp at h; rw [← h.1]; exact hb
  have e3 : run blanks s' = [] := blanks_none fun c t h => by
    rw [h3, e] at h; simp at h; rw [← h.1]; exact hb
  rw [run_left, run_left, e2, e3, h1]
  refine Pairs.append ?_ hh
  unfold check
  split
  · exact .one ⟨h1, h2, h3, h4, h5⟩
  · exact .nil

theorem Within.ext (h : Within n re) {β : List (Rune × Nat)} {s s' : St} (hs : Ext β s s') (hne : s.rest ≠ [])
    (hl : 2 * n ≤ s.caps.length) : Heads (Alike n) (run re s) (run re s') := by
  cases h with
  | direct core => exact core.ext hs hl
  | edged G F core eq prev rest pos len ext caps marked =>
    rw [eq, eq]
    refine Heads.flatMap (left_ext (ext hs) (by rw [rest]; exact hne)) fun a ha _ _ h => core.ext h ?_
    rw [(run_adv ha).1, len]
    exact hl

theorem run_left_end {s : St} (h : s.rest = []) : run leftEdge s = check s.prev.isNone s := by
  have hs : Stuck s := by intro c t e; rw [h] at e; simp at e
  rw [run_left, eats_stuck hint inner_hint eats_hint hs, blanks_none fun c t e => by rw [h] at e; simp at e]
  simp

/-- Nothing matches at the end. -/
theorem Within.stop (h : Within n re) {s : St} (hs : s.rest = []) : run re s = [] := by
  have hk : Stuck s := by intro c t e; rw [hs] at e; simp at e
  cases h with
  | direct core => exact core.stuck hk
  | edged G F core eq prev rest pos len ext caps marked =>
    rw [eq, run_left_end (by rw [rest]; exact hs), List.flatMap_eq_nil_iff]
    intro u hu
    rw [(check_mem hu).1]
    exact core.stuck (hk.same (rest s))

theorem ext_start {β u : List (Rune × Nat)} (hu : ∀ c ∈ u, blank c.1 = false) (prev : Option Rune) (pos : Nat) :
    Ext β (start re prev pos u) (start re prev pos (u ++ space :: β)) := ⟨rfl, rfl, rfl, rfl, hu⟩

/-- The first match in the first part is found also if the text goes on; if there is none the search goes on at the
space. -/
theorem search_first (h : Within n re) (hn : n ≤ numCap re) (β : List (Rune × Nat)) : ∀ (u : List (Rune × Nat)), (∀ c ∈ u, blank c.1 = false) →
    ∀ (prev : Option Rune) (pos : Nat),
    (∃ p s s', searchFrom re u prev pos = some (p, s) ∧ searchFrom re (u ++ space :: β) prev pos = some (p, s') ∧
      Alike n s s') ∨
    (searchFrom re u prev pos = none ∧ ∃ prev' , searchFrom re (u ++ space :: β) prev pos =
      searchFrom re (space :: β) prev' (pos + width u))
  | [], _, prev, pos => by
    refine .inr ⟨?_, prev, by simp⟩
    simp [searchFrom, h.stop (s := start re prev pos []) rfl]
  | (c, k) :: u, hu, prev, pos => by
    have H := h.ext (ext_start (re := re) (β := β) hu prev pos) (by simp [start]) (by simp [start]; omega)
    rcases H with ⟨e1, e2⟩ | ⟨s, l, s', l', e1, e2, H⟩
    · rcases search_first h hn β u (fun c hc => hu c (by simp [hc])) (some c) (pos + k) with ⟨p, s, s', h1, h2, h3⟩ | ⟨h1, prev', h2⟩
      · exact .inl ⟨p, s, s', by simp only [searchFrom, e1, h1], by
          rw [List.cons_append] at e2 ⊢
          simp only [searchFrom, e2, h2], h3⟩
      · refine .inr ⟨by simp only [searchFrom, e1, h1], prev', ?_⟩
        rw [List.cons_append] at e2 ⊢
        have e3 : searchFrom re ((c, k) :: (u ++ space :: β)) prev pos = searchFrom re (u ++ space :: β) (some c) (pos + k) := by
          simp only [searchFrom, e2]
        rw [e3, h2, width_cons, Nat.add_assoc]
    · refine .inl ⟨pos, s, s', by simp only [searchFrom, e1], ?_, H⟩
      rw [List.cons_append] at e2 ⊢
      simp only [searchFrom, e2]

/-! ## In the second part -/

/-- The same match at another place. -/
def Moved (d : Nat) (a b : Option (Nat × St)) : Prop :=
  (a = none ∧ b = none) ∨ ∃ p s p' s', a = some (p, s) ∧ b = some (p', s') ∧ Late d s s' ∧ (p' = p + d ∨ Marked 5 s)

theorem late_start (d : Nat) (prev prev' : Option Rune) (pos : Nat) (u : List (Rune × Nat)) :
    Late d (start re prev pos u) (start re prev' (pos + d) u) := by
  refine ⟨rfl, rfl, fun i _ => ?_⟩
  simp only [start, List.getElem?_replicate]
  split <;> simp

theorem Pairs.heads' {α β : Type} {R : α → β → Prop} {l : List α} {m : List β} (h : Pairs R l m) :
    (l = [] ∧ m = []) ∨ ∃ a l' b m', l = a :: l' ∧ m = b :: m' ∧ R a b := h.heads

theorem check_late {d : Nat} {b : Bool} {s s' : St} (h : Late d s s') : Pairs (Late d) (check b s) (check b s') := by
  unfold check
  split
  · exact .one h
  · exact .nil

theorem late_before {G : St → St} (rest : ∀ s, (G s).rest = s.rest) (pos : ∀ s, (G s).pos = s.pos)
    (caps : ∀ s i, 5 ≤ i → (G s).caps[i]? = s.caps[i]?) {d : Nat} {s s' : St} (h : Late d s s') : Late d (G s) (G s') :=
  ⟨by rw [pos, pos, h.1], by rw [rest, rest, h.2.1], fun i hi => by rw [caps _ i hi, caps _ i hi, h.2.2 i hi]⟩

theorem late_skip {d : Nat} {s s' : St} (hp : s'.pos = s.pos + d)
    (hc : ∀ i, 5 ≤ i → s'.caps[i]? = (s.caps[i]?).map fun o => o.map (· + d)) (u : List (Rune × Nat)) :
    Late d (skip s u) (skip s' u) :=
  ⟨by rw [skip_pos, skip_pos, hp]; omega, by rw [skip_rest, skip_rest], fun i hi => by rw [skip_caps, skip_caps, hc i hi]⟩

/-- A pattern at another place, at the begin of the text at both places or at none. -/
theorem Within.late (h : Within n re) {d : Nat} {s s' : St} (hs : Late d s s') (hp : s'.prev.isNone = s.prev.isNone) :
    Pairs (Late d) (run re s) (run re s') := by
  cases h with
  | direct core => exact core.late hs
  | edged G F core eq prev rest pos len ext caps marked =>
    rw [eq, eq, run_left, run_left, prev, prev, hp]
    have := late_before rest pos caps hs
    exact ((check_late this).append ((late_blanks this).append (late_inner inner_hint this))).flatMap fun _ _ _ _ h => core.late h

theorem search_late (h : Within n re) (d : Nat) : ∀ (u : List (Rune × Nat)) (prev prev' : Option Rune) (pos : Nat),
    prev'.isNone = prev.isNone → Moved d (searchFrom re u prev pos) (searchFrom re u prev' (pos + d))
  | [], prev, prev', pos, hp => by
    refine .inl ⟨?_, ?_⟩ <;> simp only [searchFrom] <;> rw [h.stop (s := start re _ _ []) rfl] <;> rfl
  | (c, k) :: u, prev, prev', pos, hp => by
    rcases (h.late (late_start (re := re) d prev prev' pos ((c, k) :: u)) hp).heads with ⟨e1, e2⟩ | ⟨s, l, s', l', e1, e2, H⟩
    · have := search_late h d u (some c) (some c) (pos + k) rfl
      simp only [searchFrom, e1, e2]
      rw [show pos + d + k = pos + k + d by omega]
      exact this
    · simp only [searchFrom, e1, e2]
      exact .inr ⟨_, _, _, _, rfl, rfl, H, .inl rfl⟩

theorem direct_late (h : Core n (run re)) (d : Nat) : ∀ (u : List (Rune × Nat)) (prev prev' : Option Rune) (pos : Nat),
    Moved d (searchFrom re u prev pos) (searchFrom re u prev' (pos + d))
  | [], prev, prev', pos => by
    refine .inl ⟨?_, ?_⟩ <;> simp only [searchFrom] <;>
      rw [(Within.direct h).stop (s := start re _ _ []) rfl] <;> rfl
  | (c, k) :: u, prev, prev', pos => by
    rcases (h.late (late_start (re := re) d prev prev' pos ((c, k) :: u))).heads with ⟨e1, e2⟩ | ⟨s, l, s', l', e1, e2, H⟩
    · have := direct_late h d u (some c) (some c) (pos + k)
      simp only [searchFrom, e1, e2]
      rw [show pos + d + k = pos + k + d by omega]
      exact this
    · simp only [searchFrom, e1, e2]
      exact .inr ⟨_, _, _, _, rfl, rfl, H, .inl rfl⟩

theorem stuck_blank {s : St} {c : Rune × Nat} {t : List (Rune × Nat)} (e : s.rest = c :: t) (h : blank c.1 = true) : Stuck s := by
  intro c' t' e'
  rw [e] at e'
  simp at e'
  rw [← e'.1]
  exact h

/-- What comes of the left edge. -/
theorem edge_blank {F : St → List St} (core : Core n F) {s : St} {c : Rune} {k : Nat} {t : List (Rune × Nat)}
    (e : s.rest = (c, k) :: t) (h : blank c = true) : (run leftEdge s).flatMap F = F (skip s s.rest) := by
  have hk := stuck_blank e h
  rw [run_left, List.flatMap_append, List.flatMap_append, eats_stuck hint inner_hint eats_hint hk]
  have e1 : (check s.prev.isNone s).flatMap F = [] := by
    rw [List.flatMap_eq_nil_iff]
    intro u hu
    rw [(check_mem hu).1]
    exact core.stuck hk
  have e2 := blanks_then (F := F) (fun _ h => core.stuck h) s.rest.length s e h (Nat.le_refl _)
  rw [e1, run_blanks, e2]
  simp

theorem edge_solid {F : St → List St} {s : St} {c : Rune} {k : Nat} {t : List (Rune × Nat)}
    (e : s.rest = (c, k) :: t) (h : blank c = false) :
    (run leftEdge s).flatMap F = (check s.prev.isNone s).flatMap F ++ (run hint s).flatMap F := by
  rw [run_left, List.flatMap_append, List.flatMap_append, blanks_none fun c' t' e' => by
    rw [e] at e'; simp at e'; rw [← e'.1]; exact h]
  simp

/-- The search at the space finds what is found in the second part alone. -/
theorem search_second (h : Within n re) (h2 : 2 ≤ numCap re) (β : List (Rune × Nat)) (prev : Option Rune) (pos : Nat) :
    Moved (pos + 1) (searchFrom re β none 0) (searchFrom re (space :: β) prev pos) := by
  have hb : blank space.1 = true := by decide
  cases h with
  | direct core =>
    have e : run re (start re prev pos (space :: β)) = [] := core.stuck (stuck_blank rfl hb)
    have := direct_late core (pos + 1) β none (some space.1) 0
    rw [Nat.zero_add] at this
    simp only [space, searchFrom] at e ⊢
    rw [e]
    exact this
  | edged G F core eq hprev rest hpos len ext caps marked =>
    have H : Within n re := .edged G F core eq hprev rest hpos len ext caps marked
    obtain ⟨σ, hσ⟩ : ∃ σ, start re prev pos (space :: β) = σ := ⟨_, rfl⟩
    obtain ⟨τ, hτ⟩ : ∃ τ, start re none 0 β = τ := ⟨_, rfl⟩
    have eσ : run re σ = F (skip (G σ) (space :: β)) := by
      have e : (G σ).rest = space :: β := by rw [rest, ← hσ]; rfl
      rw [eq, edge_blank core e hb, e]
    obtain ⟨σ', hσ'⟩ : ∃ σ' : St, ({ G σ with prev := some space.1, pos := (G σ).pos + 1 } : St) = σ' := ⟨_, rfl⟩
    have hskip : skip (G σ) (space :: β) = skip σ' β := by
      show (if blank space.1 = true then _ else _) = _
      rw [if_pos hb, ← hσ']
      rfl
    rw [hskip] at eσ
    have pσ : σ'.pos = (G τ).pos + (pos + 1) := by
      rw [← hσ', hpos, ← hτ, ← hσ]
      simp [hpos, start]
    have cσ : ∀ i, 5 ≤ i → σ'.caps[i]? = ((G τ).caps[i]?).map fun o => o.map (· + (pos + 1)) := by
      intro i hi
      rw [← hσ']
      simp only
      rw [caps _ i hi, caps _ i hi, ← hσ, ← hτ]
      simp only [start, List.getElem?_replicate]
      split <;> simp
    have lσ : ∀ u, Late (pos + 1) (skip (G τ) u) (skip σ' u) := late_skip pσ cσ
    obtain ⟨τ', hτ'⟩ : ∃ τ', start re (some space.1) (pos + 1) β = τ' := ⟨_, rfl⟩
    have lτ : Late (pos + 1) (G τ) (G τ') := by
      refine late_before rest hpos caps ?_
      have := late_start (re := re) (pos + 1) none (some space.1) 0 β
      rwa [hτ, Nat.zero_add, hτ'] at this
    have lens : 5 < (G τ).caps.length := by
      rw [len, ← hτ]
      simp [start]
      omega
    have first : searchFrom re (space :: β) prev pos =
        match run re σ with | s :: _ => some (pos, s) | [] => searchFrom re β (some space.1) (pos + 1) := by
      rw [← hσ]; rfl
    have rτ : (G τ).rest = β := by rw [rest, ← hτ]; rfl
    have rτ' : (G τ').rest = β := by rw [rest, ← hτ']; rfl
    cases β with
    | nil =>
      have e : F (skip σ' []) = [] := core.stuck (by intro c t e; simp [skip] at e)
      rw [first, eσ, e]
      exact .inl ⟨by simp only [searchFrom, hτ]; rw [H.stop (by rw [← hτ]; rfl)]; rfl,
        by simp only [searchFrom, hτ']; rw [H.stop (by rw [← hτ']; rfl)]; rfl⟩
    | cons a t =>
      obtain ⟨c, k⟩ := a
      have second : ∀ p q, run re (start re p q ((c, k) :: t)) = [] →
          searchFrom re ((c, k) :: t) p q = searchFrom re t (some c) (q + k) := by
        intro p q e
        simp only [searchFrom, e]
      have found : ∀ p q s l, run re (start re p q ((c, k) :: t)) = s :: l →
          searchFrom re ((c, k) :: t) p q = some (q, s) := by
        intro p q s l e
        simp only [searchFrom, e]
      have later := search_late H (pos + 1) t (some c) (some c) (0 + k) rfl
      rw [show 0 + k + (pos + 1) = pos + 1 + k by omega] at later
      cases hc : blank c with
      | true =>
        have e1 : run re τ = F (skip (G τ) ((c, k) :: t)) := by rw [eq, edge_blank core rτ hc, rτ]
        have e2 : run re τ' = F (skip (G τ') ((c, k) :: t)) := by rw [eq, edge_blank core rτ' hc, rτ']
        rcases (core.late (lσ ((c, k) :: t))).heads with ⟨f1, f2⟩ | ⟨s, l, s', l', f1, f2, hL⟩
        · have f3 : F (skip (G τ') ((c, k) :: t)) = [] := by
            rcases (core.late (late_skip lτ.1 lτ.2.2 ((c, k) :: t))).heads with ⟨_, f3⟩ | ⟨s, l, s', l', f3, _, _⟩
            · exact f3
            · rw [f1] at f3; simp at f3
          rw [first, eσ, f2]
          simp only
          rw [second (some space.1) _ (by rw [hτ', e2, f3]), second none _ (by rw [hτ, e1, f1])]
          exact later
        · rw [first, eσ, f2, found none 0 s l (by rw [hτ, e1, f1])]
          exact .inr ⟨_, _, _, _, rfl, rfl, hL, .inr (marked (s := skip (G τ) ((c, k) :: t)) (by rw [skip_caps]; exact lens)
            (by rw [f1]; simp))⟩
      | false =>
        have e1 : run re τ = F (G τ) ++ (run hint (G τ)).flatMap F := by
          rw [eq, edge_solid rτ hc, hprev, ← hτ]
          simp [start, check]
        have e2 : run re τ' = (run hint (G τ')).flatMap F := by
          rw [eq, edge_solid rτ' hc, hprev, ← hτ']
          simp [start, check]
        have e3 : skip (G τ) ((c, k) :: t) = G τ := by
          rw [skip_none fun c' t' e => by simp at e; rw [← e.1]; exact hc, ← rτ]
        have hL := lσ ((c, k) :: t)
        rw [e3] at hL
        rcases (core.late hL).heads with ⟨f1, f2⟩ | ⟨s, l, s', l', f1, f2, hL⟩
        · rw [first, eσ, f2]
          simp only
          rcases ((late_inner inner_hint lτ).flatMap fun _ _ _ _ h => core.late h).heads with
            ⟨g1, g2⟩ | ⟨s, l, s', l', g1, g2, hL⟩
          · rw [second (some space.1) _ (by rw [hτ', e2, g2]), second none _ (by rw [hτ, e1, f1, g1]; rfl)]
            exact later
          · rw [found (some space.1) _ _ _ (by rw [hτ', e2, g2]), found none 0 s l (by rw [hτ, e1, f1, g1]; rfl)]
            exact .inr ⟨_, _, _, _, rfl, rfl, hL, .inl (by omega)⟩
        · rw [first, eσ, f2, found none 0 s (l ++ (run hint (G τ)).flatMap F) (by rw [hτ, e1, f1]; rfl)]
          exact .inr ⟨_, _, _, _, rfl, rfl, hL, .inr (marked lens (by rw [f1]; simp))⟩

end Verif.Words
