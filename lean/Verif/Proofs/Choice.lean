import Verif.Spec.Choice
import Verif.Proofs.ExprOrder

/-! The matcher tries the texts of an expression in the order of their choices. -/

namespace Verif.Spec.Expr

open Verif.Rx Verif.Spec

/-! ## The order of choices -/

/-- The choices differ, and the first difference is a lesser one. -/
def Lt (cs ds : List Nat) : Prop := ∃ p a b x y, cs = p ++ a :: x ∧ ds = p ++ b :: y ∧ a < b

theorem Lt.left {cs ds : List Nat} (h : Lt cs ds) (q : List Nat) : Lt (q ++ cs) (q ++ ds) := by
  obtain ⟨p, a, b, x, y, rfl, rfl, h⟩ := h
  exact ⟨q ++ p, a, b, x, y, by simp, by simp, h⟩

theorem Lt.right {cs ds : List Nat} (h : Lt cs ds) (x' y' : List Nat) : Lt (cs ++ x') (ds ++ y') := by
  obtain ⟨p, a, b, x, y, rfl, rfl, h⟩ := h
  exact ⟨p, a, b, x ++ x', y ++ y', by simp, by simp, h⟩

theorem Lt.head {a b : Nat} (h : a < b) (x y : List Nat) : Lt (a :: x) (b :: y) := ⟨[], a, b, x, y, rfl, rfl, h⟩

theorem Lt.irrefl {cs : List Nat} (h : Lt cs cs) : False := by
  obtain ⟨p, a, b, x, y, h1, h2, h⟩ := h
  rw [h1] at h2
  have := List.append_cancel_left h2
  simp only [List.cons.injEq] at this
  omega

theorem Lt.not_lt {cs ds : List Nat} (h : Lt cs ds) : ¬ ds < cs := by
  obtain ⟨p, a, b, x, y, rfl, rfl, h⟩ := h
  induction p with
  | nil =>
    simp only [List.nil_append, List.cons_lt_cons_iff]
    omega
  | cons q p ih =>
    simp only [List.cons_append, List.cons_lt_cons_iff]
    rintro (h | ⟨_, h⟩)
    · omega
    · exact ih h

/-! ## Lists of what is left, with the choices -/

/-- What is left, in the order of the choices, with exactly the texts that are chosen. -/
structure Good (o : Chars → List (List Nat × Chars)) (C : List Nat → List Rune → List Rune → Prop) : Prop where
  sorted : ∀ x, (o x).Pairwise fun p q => Lt p.1 q.1
  mem : ∀ x cs t, (cs, t) ∈ o x ↔ ∃ y, x = y ++ t ∧ C cs (y.map Prod.fst) (t.map Prod.fst)

theorem Good.congr {o : Chars → List (List Nat × Chars)} {C D : List Nat → List Rune → List Rune → Prop} (h : Good o C)
    (hc : ∀ cs u a, C cs u a ↔ D cs u a) : Good o D := by
  have : C = D := by funext cs u a; exact propext (hc cs u a)
  rwa [← this]

theorem good_one {p : Rune → Bool} : Good (fun x => (oneR p x).map ([], ·)) fun cs u _ => cs = [] ∧ ∃ c, u = [c] ∧ p c = true where
  sorted x := by
    unfold oneR
    split
    · simp
    · split <;> simp
  mem x cs t := by
    unfold oneR
    split
    · simp
    · rename_i r n x
      constructor
      · intro h
        split at h
        · simp only [List.map_cons, List.map_nil, List.mem_singleton, Prod.mk.injEq] at h
          obtain ⟨rfl, rfl⟩ := h
          exact ⟨[(r, n)], rfl, rfl, r, rfl, by assumption⟩
        · simp at h
      · rintro ⟨y, h1, rfl, c, h2, h3⟩
        match y, h2 with
        | [q], h2 =>
          simp only [List.cons_append, List.nil_append, List.cons.injEq, List.map_cons, List.map_nil] at h1 h2
          obtain ⟨rfl, rfl⟩ := h1
          simp only at h2
          rw [if_pos (by rw [h2.1]; exact h3)]
          simp

theorem good_nothing : Good (fun x => [([], x)]) fun cs u _ => cs = [] ∧ u = [] where
  sorted x := by simp
  mem x cs t := by
    simp only [List.mem_singleton, Prod.mk.injEq]
    constructor
    · rintro ⟨rfl, rfl⟩; exact ⟨[], rfl, rfl, rfl⟩
    · rintro ⟨y, rfl, rfl, h⟩
      simp only [List.map_eq_nil_iff] at h
      subst h
      exact ⟨rfl, rfl⟩

def seqA (o q : Chars → List (List Nat × Chars)) (x : Chars) : List (List Nat × Chars) :=
  (o x).flatMap fun p => (q p.2).map fun r => (p.1 ++ r.1, r.2)

theorem good_seq {o q : Chars → List (List Nat × Chars)} {C D : List Nat → List Rune → Prop} (h1 : Good o fun cs u _ => C cs u)
    (h2 : Good q fun cs u _ => D cs u) :
    Good (seqA o q) fun cs u _ => ∃ c d v w, cs = c ++ d ∧ u = v ++ w ∧ C c v ∧ D d w where
  sorted x := by
    unfold seqA
    rw [List.pairwise_flatMap]
    constructor
    · intro p _
      rw [List.pairwise_map]
      exact (h2.sorted p.2).imp fun h => h.left _
    · refine (h1.sorted x).imp fun h => ?_
      intro r hr r' hr'
      simp only [List.mem_map] at hr hr'
      obtain ⟨_, _, rfl⟩ := hr
      obtain ⟨_, _, rfl⟩ := hr'
      exact h.right _ _
  mem x cs t := by
    unfold seqA
    simp only [List.mem_flatMap, List.mem_map, Prod.exists, Prod.mk.injEq]
    constructor
    · rintro ⟨c, t1, m1, d, t2, m2, rfl, rfl⟩
      obtain ⟨y1, rfl, k1⟩ := (h1.mem _ _ _).1 m1
      obtain ⟨y2, rfl, k2⟩ := (h2.mem _ _ _).1 m2
      exact ⟨y1 ++ y2, by simp, c, d, _, _, rfl, by simp, k1, k2⟩
    · rintro ⟨y, rfl, c, d, v, w, rfl, hu, k1, k2⟩
      obtain ⟨y1, y2, rfl, rfl, rfl⟩ := List.map_eq_append_iff.1 hu
      exact ⟨c, y2 ++ t, (h1.mem _ _ _).2 ⟨y1, by simp, k1⟩, d, t, (h2.mem _ _ _).2 ⟨y2, rfl, k2⟩, rfl, rfl⟩

/-- Two ways, the first of which is preferred. -/
theorem good_or {o q : Chars → List (List Nat × Chars)} {C D : List Nat → List Rune → List Rune → Prop} (h1 : Good o C)
    (h2 : Good q D) (a b : Nat) (hab : a < b) :
    Good (fun x => (o x).map (fun p => (a :: p.1, p.2)) ++ (q x).map fun p => (b :: p.1, p.2))
      fun cs u r => (∃ c, cs = a :: c ∧ C c u r) ∨ ∃ c, cs = b :: c ∧ D c u r where
  sorted x := by
    rw [List.pairwise_append]
    refine ⟨?_, ?_, ?_⟩
    · rw [List.pairwise_map]
      exact (h1.sorted x).imp fun h => h.left [a]
    · rw [List.pairwise_map]
      exact (h2.sorted x).imp fun h => h.left [b]
    · intro r hr r' hr'
      simp only [List.mem_map] at hr hr'
      obtain ⟨_, _, rfl⟩ := hr
      obtain ⟨_, _, rfl⟩ := hr'
      exact Lt.head hab _ _
  mem x cs t := by
    simp only [List.mem_append, List.mem_map, Prod.exists, Prod.mk.injEq]
    constructor
    · rintro (⟨c, t, m, rfl, rfl⟩ | ⟨c, t, m, rfl, rfl⟩)
      · obtain ⟨y, h, k⟩ := (h1.mem _ _ _).1 m
        exact ⟨y, h, .inl ⟨c, rfl, k⟩⟩
      · obtain ⟨y, h, k⟩ := (h2.mem _ _ _).1 m
        exact ⟨y, h, .inr ⟨c, rfl, k⟩⟩
    · rintro ⟨y, h, ⟨c, rfl, k⟩ | ⟨c, rfl, k⟩⟩
      · exact .inl ⟨c, t, (h1.mem _ _ _).2 ⟨y, h, k⟩, rfl, rfl⟩
      · exact .inr ⟨c, t, (h2.mem _ _ _).2 ⟨y, h, k⟩, rfl, rfl⟩

/-! ## Repetitions -/

def More (g : Bool) (C : List Nat → List Rune → Prop) (cs : List Nat) (u : List Rune) : Prop :=
  ∃ (c : List Nat) (v : List Rune) (ps : List (List Nat × List Rune)), cs = c ++ rounds g ps ∧
    u = v ++ ps.flatMap Prod.snd ∧ C c v ∧ ∀ p ∈ ps, C p.1 p.2

theorem more_iff {g : Bool} {C : List Nat → List Rune → Prop} {cs : List Nat} {u : List Rune} :
    More g C cs u ↔ ∃ c v, C c v ∧ ((cs = c ++ [enough g] ∧ u = v) ∨
      ∃ d w, cs = c ++ again g :: d ∧ u = v ++ w ∧ More g C d w) := by
  constructor
  · rintro ⟨c, v, ps, rfl, rfl, h1, h2⟩
    refine ⟨c, v, h1, ?_⟩
    cases ps with
    | nil => left; simp [rounds]
    | cons p ps =>
      right
      refine ⟨p.1 ++ rounds g ps, p.2 ++ ps.flatMap Prod.snd, by simp [rounds], by simp, p.1, p.2, ps, rfl, rfl, h2 p (by simp),
        fun q hq => h2 q (by simp [hq])⟩
  · rintro ⟨c, v, h1, ⟨rfl, rfl⟩ | ⟨d, w, rfl, rfl, c', v', ps, rfl, rfl, h2, h3⟩⟩
    · exact ⟨c, u, [], by simp [rounds], by simp, h1, by simp⟩
    · refine ⟨c, v, (c', v') :: ps, by simp [rounds], by simp, h1, ?_⟩
      intro p hp
      rcases List.mem_cons.1 hp with rfl | hp
      · exact h2
      · exact h3 p hp

def loopA (g : Bool) (o : Chars → List (List Nat × Chars)) : Nat → Chars → List (List Nat × Chars)
  | 0, x => (o x).map fun p => (p.1 ++ [enough g], p.2)
  | n + 1, x => (o x).flatMap fun p =>
    if p.2.length < x.length then
      if g then (loopA g o n p.2).map (fun q => (p.1 ++ again g :: q.1, q.2)) ++ [(p.1 ++ [enough g], p.2)]
      else (p.1 ++ [enough g], p.2) :: (loopA g o n p.2).map (fun q => (p.1 ++ again g :: q.1, q.2))
    else [(p.1 ++ [enough g], p.2)]

theorem loopA_sorted {g : Bool} {o : Chars → List (List Nat × Chars)} (h : ∀ x, (o x).Pairwise fun p q => Lt p.1 q.1) :
    ∀ n x, (loopA g o n x).Pairwise fun p q => Lt p.1 q.1
  | 0, x => by
    rw [loopA, List.pairwise_map]
    exact (h x).imp fun h => h.right _ _
  | n + 1, x => by
    rw [loopA, List.pairwise_flatMap]
    constructor
    · intro p _
      have ih : ((loopA g o n p.2).map fun q => (p.1 ++ again g :: q.1, q.2)).Pairwise fun p q => Lt p.1 q.1 := by
        rw [List.pairwise_map]
        exact (loopA_sorted h n p.2).imp fun h => (h.left [again g]).left p.1
      split
      · cases g
        · simp only [Bool.false_eq_true, if_false, List.pairwise_cons]
          refine ⟨?_, ih⟩
          intro q hq
          simp only [List.mem_map] at hq
          obtain ⟨r, _, rfl⟩ := hq
          exact (Lt.head (by decide) _ _).left p.1
        · simp only [if_true, List.pairwise_append]
          refine ⟨ih, by simp, ?_⟩
          intro q hq q' hq'
          simp only [List.mem_map, List.mem_singleton] at hq hq'
          obtain ⟨r, _, rfl⟩ := hq
          subst hq'
          exact (Lt.head (by decide) _ _).left p.1
      · simp
    · refine (h x).imp fun hlt => ?_
      rename_i p q
      have shape : ∀ (p : List Nat × Chars) r, r ∈ (if p.2.length < x.length then
            if g then (loopA g o n p.2).map (fun q => (p.1 ++ again g :: q.1, q.2)) ++ [(p.1 ++ [enough g], p.2)]
            else (p.1 ++ [enough g], p.2) :: (loopA g o n p.2).map (fun q => (p.1 ++ again g :: q.1, q.2))
          else [(p.1 ++ [enough g], p.2)]) → ∃ z, r.1 = p.1 ++ z := by
        intro p r hr
        split at hr
        · split at hr
          · simp only [List.mem_append, List.mem_map, List.mem_singleton] at hr
            rcases hr with ⟨_, _, rfl⟩ | rfl <;> exact ⟨_, rfl⟩
          · simp only [List.mem_cons, List.mem_map] at hr
            rcases hr with rfl | ⟨_, _, rfl⟩ <;> exact ⟨_, rfl⟩
        · simp only [List.mem_singleton] at hr
          subst hr
          exact ⟨_, rfl⟩
      intro r hr r' hr'
      obtain ⟨z, hz⟩ := shape p r hr
      obtain ⟨z', hz'⟩ := shape q r' hr'
      rw [hz, hz']
      exact hlt.right _ _

theorem loopA_mem {g : Bool} {o : Chars → List (List Nat × Chars)} {C : List Nat → List Rune → Prop}
    (h : Good o fun cs u _ => C cs u) (hn : ∀ cs, ¬ C cs []) : ∀ n x cs t, x.length ≤ n →
    ((cs, t) ∈ loopA g o n x ↔ ∃ y, x = y ++ t ∧ More g C cs (y.map Prod.fst))
  | 0, x, cs, t, hx => by
    have : x = [] := List.length_eq_zero_iff.1 (by omega)
    subst this
    constructor
    · intro hm
      simp only [loopA, List.mem_map, Prod.exists, Prod.mk.injEq] at hm
      obtain ⟨c, t', hm, -, -⟩ := hm
      obtain ⟨y, h1, h2⟩ := (h.mem _ _ _).1 hm
      obtain ⟨rfl, -⟩ := List.append_eq_nil_iff.1 h1.symm
      exact absurd h2 (hn _)
    · rintro ⟨y, h1, c, v, ps, -, h2, h3, -⟩
      obtain ⟨rfl, -⟩ := List.append_eq_nil_iff.1 h1.symm
      have : v = [] := (List.append_eq_nil_iff.1 h2.symm).1
      subst this
      exact absurd h3 (hn _)
  | n + 1, x, cs, t, hx => by
    have short : ∀ c t', (c, t') ∈ o x → t'.length < x.length := by
      intro c t' hm
      obtain ⟨y, rfl, h2⟩ := (h.mem _ _ _).1 hm
      cases y with
      | nil => exact absurd h2 (hn _)
      | cons a y => simp; omega
    have step : (cs, t) ∈ loopA g o (n + 1) x ↔ ∃ c t', (c, t') ∈ o x ∧ ((cs = c ++ [enough g] ∧ t = t') ∨
        ∃ d, cs = c ++ again g :: d ∧ (d, t) ∈ loopA g o n t') := by
      simp only [loopA, List.mem_flatMap, Prod.exists]
      refine exists_congr fun c => exists_congr fun t' => and_congr_right fun hm => ?_
      rw [if_pos (short c t' hm)]
      cases g
      · simp only [Bool.false_eq_true, if_false, List.mem_cons, List.mem_map, Prod.exists, Prod.mk.injEq]
        refine or_congr Iff.rfl ?_
        constructor
        · rintro ⟨d, t, hd, rfl, rfl⟩; exact ⟨d, rfl, hd⟩
        · rintro ⟨d, rfl, hd⟩; exact ⟨d, t, hd, rfl, rfl⟩
      · simp only [if_true, List.mem_append, List.mem_map, List.mem_singleton, Prod.exists, Prod.mk.injEq]
        rw [or_comm]
        refine or_congr Iff.rfl ?_
        constructor
        · rintro ⟨d, t, hd, rfl, rfl⟩; exact ⟨d, rfl, hd⟩
        · rintro ⟨d, rfl, hd⟩; exact ⟨d, t, hd, rfl, rfl⟩
    rw [step]
    constructor
    · rintro ⟨c, t', hm, hcase⟩
      have hs := short c t' hm
      obtain ⟨y, rfl, h2⟩ := (h.mem _ _ _).1 hm
      rcases hcase with ⟨rfl, rfl⟩ | ⟨d, rfl, hd⟩
      · exact ⟨y, rfl, more_iff.2 ⟨c, _, h2, .inl ⟨rfl, rfl⟩⟩⟩
      · obtain ⟨y', rfl, h3⟩ := (loopA_mem h hn n t' d t (by omega)).1 hd
        exact ⟨y ++ y', by simp, more_iff.2 ⟨c, _, h2, .inr ⟨d, y'.map Prod.fst, rfl, by simp, h3⟩⟩⟩
    · rintro ⟨y, rfl, hmore⟩
      obtain ⟨c, v, h1, ⟨rfl, hv⟩ | ⟨d, w, rfl, hu, h2⟩⟩ := more_iff.1 hmore
      · exact ⟨c, t, (h.mem _ _ _).2 ⟨y, rfl, hv ▸ h1⟩, .inl ⟨rfl, rfl⟩⟩
      · obtain ⟨y1, y2, rfl, rfl, rfl⟩ := List.map_eq_append_iff.1 hu
        have hm := (h.mem ((y1 ++ y2) ++ t) c (y2 ++ t)).2 ⟨y1, by simp, h1⟩
        have hs := short _ _ hm
        exact ⟨c, y2 ++ t, hm, .inr ⟨d, rfl, (loopA_mem h hn n _ d t (by omega)).2 ⟨y2, rfl, h2⟩⟩⟩

/-! ## Expressions -/

def valsA : Nat → List (List Rune) → Chars → List (List Nat × Chars)
  | _, [], _ => []
  | i, v :: vs, x => (litsR v x).map ([i], ·) ++ valsA (i + 1) vs x

/-- `rests` with the choices. -/
def outs : Expr → Chars → List (List Nat × Chars)
  | .nothing, x => [([], x)]
  | .char c, x => (oneR (· == c) x).map ([], ·)
  | .any, x => (oneR (· != 0x0A) x).map ([], ·)
  | .oneOf ranges, x => (oneR (inRanges ranges) x).map ([], ·)
  | .var _ vals, x => valsA 0 vals x
  | .seq a b, x => seqA (outs a) (outs b) x
  | .or a b, x => (outs a x).map (fun p => (0 :: p.1, p.2)) ++ (outs b x).map fun p => (1 :: p.1, p.2)
  | .group _ a, x => outs a x
  | .opt g a, x =>
    if g then (outs a x).map (fun p => (0 :: p.1, p.2)) ++ [([1], x)]
    else ([0], x) :: (outs a x).map fun p => (1 :: p.1, p.2)
  | .many g a, x =>
    if g then (loopA g (outs a) x.length x).map (fun p => (0 :: p.1, p.2)) ++ [([1], x)]
    else ([0], x) :: (loopA g (outs a) x.length x).map fun p => (1 :: p.1, p.2)
  | .more g a, x => loopA g (outs a) x.length x

theorem valsA_snd : ∀ (i : Nat) (vs : List (List Rune)) (x : Chars), (valsA i vs x).map Prod.snd = vs.flatMap fun v => litsR v x
  | _, [], _ => rfl
  | i, v :: vs, x => by
    simp only [valsA, List.map_append, List.map_map, List.flatMap_cons, valsA_snd (i + 1) vs x]
    congr 1
    exact List.map_id _

theorem loopA_snd {g : Bool} {o : Chars → List (List Nat × Chars)} {f : Chars → List Chars} (h : ∀ x, (o x).map Prod.snd = f x) :
    ∀ n x, (loopA g o n x).map Prod.snd = loopR g f n x
  | 0, x => by
    rw [loopA, loopR, ← h x, List.map_map]
    rfl
  | n + 1, x => by
    rw [loopA, loopR, ← h x, List.map_flatMap, List.flatMap_map]
    refine congrArg (List.flatMap · (o x)) (funext fun p => ?_)
    have ih := loopA_snd (g := g) h n p.2
    have hm : ((loopA g o n p.2).map fun q => (p.1 ++ again g :: q.1, q.2)).map Prod.snd = loopR g f n p.2 := by
      rw [List.map_map, ← ih]
      rfl
    by_cases hl : p.2.length < x.length
    · simp only [if_pos hl]
      cases g
      · simp only [Bool.false_eq_true, if_false, List.map_cons]
        exact congrArg (p.2 :: ·) hm
      · simp only [if_true, List.map_append]
        exact congrArg (· ++ [p.2]) hm
    · simp only [if_neg hl, List.map_cons, List.map_nil]

theorem outs_snd : ∀ (e : Expr) (x : Chars), (outs e x).map Prod.snd = rests e x
  | .nothing, x => rfl
  | .char _, x | .any, x | .oneOf _, x => by
    simp only [outs, rests, List.map_map]
    exact List.map_id _
  | .var _ vals, x => valsA_snd 0 vals x
  | .seq a b, x => by
    simp only [outs, rests, seqA]
    rw [List.map_flatMap, ← outs_snd a x, List.flatMap_map]
    refine congrArg (List.flatMap · (outs a x)) (funext fun p => ?_)
    rw [← outs_snd b p.2, List.map_map]
    rfl
  | .or a b, x => by
    simp only [outs, rests, List.map_append, List.map_map, ← outs_snd a x, ← outs_snd b x]
    rfl
  | .group _ a, x => outs_snd a x
  | .opt g a, x => by
    cases g <;> simp [outs, rests, List.map_map, ← outs_snd a x, Function.comp_def]
  | .many g a, x => by
    have := loopA_snd (g := g) (outs_snd a) x.length x
    cases g <;> simp [outs, rests, List.map_map, ← this, Function.comp_def]
  | .more g a, x => loopA_snd (outs_snd a) x.length x

theorem litsR_mem : ∀ {v : List Rune} {x t : Chars}, t ∈ litsR v x ↔ ∃ y, x = y ++ t ∧ y.map Prod.fst = v
  | [], x, t => by
    simp only [litsR, List.mem_singleton, List.map_eq_nil_iff]
    exact ⟨fun h => ⟨[], by simp [h], rfl⟩, fun ⟨y, h, hy⟩ => by subst hy; simpa using h.symm⟩
  | r :: v, x, t => by
    simp only [litsR, List.mem_flatMap, litsR_mem (v := v)]
    constructor
    · rintro ⟨x', hx, y, rfl, hy⟩
      unfold oneR at hx
      split at hx
      · simp at hx
      · rename_i r' n x
        split at hx
        · simp only [List.mem_singleton] at hx
          subst hx
          rename_i hr
          simp only [beq_iff_eq] at hr
          exact ⟨(r', n) :: y, rfl, by simp [hr, hy]⟩
        · simp at hx
    · rintro ⟨y, rfl, hy⟩
      cases y with
      | nil => simp at hy
      | cons a y =>
        simp only [List.map_cons, List.cons.injEq] at hy
        refine ⟨y ++ t, ?_, y, rfl, hy.2⟩
        simp [oneR, hy.1]

theorem litsR_length {v : List Rune} : ∀ {x : Chars}, (litsR v x).length ≤ 1 := by
  induction v with
  | nil => intro x; simp [litsR]
  | cons r v ih =>
    intro x
    simp only [litsR]
    unfold oneR
    split
    · simp
    · split
      · simpa using ih
      · simp

theorem valsA_mem : ∀ {i : Nat} {vs : List (List Rune)} {x : Chars} {cs : List Nat} {t : Chars},
    (cs, t) ∈ valsA i vs x ↔ ∃ j v, cs = [i + j] ∧ vs[j]? = some v ∧ t ∈ litsR v x
  | i, [], x, cs, t => by simp [valsA]
  | i, w :: vs, x, cs, t => by
    simp only [valsA, List.mem_append, valsA_mem (vs := vs), List.mem_map, Prod.mk.injEq]
    constructor
    · rintro (⟨t', h, rfl, rfl⟩ | ⟨j, v, rfl, h1, h2⟩)
      · exact ⟨0, w, rfl, rfl, h⟩
      · exact ⟨j + 1, v, by simp; omega, by simpa using h1, h2⟩
    · rintro ⟨j, v, rfl, h1, h2⟩
      cases j with
      | zero =>
        simp only [List.getElem?_cons_zero, Option.some.injEq] at h1
        subst h1
        exact .inl ⟨t, h2, rfl, rfl⟩
      | succ j => exact .inr ⟨j, v, by simp; omega, by simpa using h1, h2⟩

theorem valsA_sorted : ∀ (i : Nat) (vs : List (List Rune)) (x : Chars), (valsA i vs x).Pairwise fun p q => Lt p.1 q.1
  | _, [], _ => by simp [valsA]
  | i, v :: vs, x => by
    rw [valsA, List.pairwise_append]
    refine ⟨?_, valsA_sorted (i + 1) vs x, ?_⟩
    · have := litsR_length (v := v) (x := x)
      match hl : litsR v x with
      | [] => simp
      | [a] => simp
      | a :: b :: l => rw [hl] at this; simp at this
    · rintro p hp ⟨cs, t⟩ hq
      simp only [List.mem_map] at hp
      obtain ⟨_, _, rfl⟩ := hp
      obtain ⟨j, _, rfl, _⟩ := valsA_mem.1 hq
      exact Lt.head (by omega) _ _

theorem means_of_chooses : ∀ {e : Expr} {cs : List Nat} {u : List Rune}, Chooses e cs u → Means e u
  | .nothing, _, _, h | .char _, _, _, h | .any, _, _, h | .oneOf _, _, _, h => h.2
  | .var _ vals, cs, u, ⟨i, _, h⟩ => List.mem_of_getElem? h
  | .seq a b, _, _, ⟨_, _, v, w, _, h, h1, h2⟩ => ⟨v, w, h, means_of_chooses h1, means_of_chooses h2⟩
  | .or a b, _, _, h => h.imp (fun ⟨_, _, h⟩ => means_of_chooses h) fun ⟨_, _, h⟩ => means_of_chooses h
  | .group _ a, _, _, h => means_of_chooses (e := a) h
  | .opt _ a, _, _, .inl ⟨_, _, h⟩ => .inr (means_of_chooses h)
  | .opt _ a, _, _, .inr ⟨_, h⟩ => .inl h
  | .many _ a, _, _, ⟨ps, _, h, h1⟩ => ⟨ps.map Prod.snd, by rw [h, List.flatMap_def], fun v hv => by
      obtain ⟨p, hp, rfl⟩ := List.mem_map.1 hv
      exact means_of_chooses (h1 p hp)⟩
  | .more _ a, _, _, ⟨c, v, ps, _, h, h1, h2⟩ => ⟨v :: ps.map Prod.snd, by simp, by rw [h, List.flatMap_def]; simp, fun w hw => by
      rcases List.mem_cons.1 hw with rfl | hw
      · exact means_of_chooses h1
      · obtain ⟨p, hp, rfl⟩ := List.mem_map.1 hw
        exact means_of_chooses (h2 p hp)⟩

/-- Each text of an expression is one of some choices. -/
theorem chooses_of_means : ∀ {e : Expr} {u : List Rune}, Means e u → ∃ cs, Chooses e cs u
  | .nothing, _, h | .char _, _, h | .any, _, h | .oneOf _, _, h => ⟨[], rfl, h⟩
  | .var _ vals, u, h => by
    obtain ⟨i, hi⟩ := List.getElem?_of_mem h
    exact ⟨[i], i, rfl, hi⟩
  | .seq a b, _, ⟨v, w, h, h1, h2⟩ => by
    obtain ⟨c, k1⟩ := chooses_of_means h1
    obtain ⟨d, k2⟩ := chooses_of_means h2
    exact ⟨c ++ d, c, d, v, w, rfl, h, k1, k2⟩
  | .or a b, _, .inl h => (chooses_of_means h).imp' (0 :: ·) fun c k => .inl ⟨c, rfl, k⟩
  | .or a b, _, .inr h => (chooses_of_means h).imp' (1 :: ·) fun c k => .inr ⟨c, rfl, k⟩
  | .group _ a, _, h => chooses_of_means (e := a) h
  | .opt g a, _, .inl h => ⟨[enough g], .inr ⟨rfl, h⟩⟩
  | .opt g a, _, .inr h => (chooses_of_means h).imp' (again g :: ·) fun c k => .inl ⟨c, rfl, k⟩
  | .many g a, _, ⟨us, h, h1⟩ => by
    have : ∃ ps : List (List Nat × List Rune), ps.map Prod.snd = us ∧ ∀ p ∈ ps, Chooses a p.1 p.2 := by
      clear h
      induction us with
      | nil => exact ⟨[], rfl, by simp⟩
      | cons v us ih =>
        obtain ⟨ps, k1, k2⟩ := ih fun w hw => h1 w (by simp [hw])
        obtain ⟨c, k3⟩ := chooses_of_means (h1 v (by simp))
        refine ⟨(c, v) :: ps, by simp [k1], ?_⟩
        intro p hp
        rcases List.mem_cons.1 hp with rfl | hp
        · exact k3
        · exact k2 p hp
    obtain ⟨ps, k1, k2⟩ := this
    exact ⟨rounds g ps, ps, rfl, by rw [h, ← k1, List.flatMap_def], k2⟩
  | .more g a, _, ⟨us, h0, h, h1⟩ => by
    have : ∃ ps : List (List Nat × List Rune), ps.map Prod.snd = us ∧ ∀ p ∈ ps, Chooses a p.1 p.2 := by
      clear h h0
      induction us with
      | nil => exact ⟨[], rfl, by simp⟩
      | cons v us ih =>
        obtain ⟨ps, k1, k2⟩ := ih fun w hw => h1 w (by simp [hw])
        obtain ⟨c, k3⟩ := chooses_of_means (h1 v (by simp))
        refine ⟨(c, v) :: ps, by simp [k1], ?_⟩
        intro p hp
        rcases List.mem_cons.1 hp with rfl | hp
        · exact k3
        · exact k2 p hp
    obtain ⟨ps, k1, k2⟩ := this
    cases ps with
    | nil => exact absurd k1.symm h0
    | cons p ps =>
      refine ⟨p.1 ++ rounds g ps, p.1, p.2, ps, rfl, ?_, k2 p (by simp), fun q hq => k2 q (by simp [hq])⟩
      rw [h, ← k1, List.map_cons, List.flatten_cons, List.flatMap_def]

theorem inRanges_iff {ranges : List (Nat × Nat)} {c : Rune} : inRanges ranges c = true ↔ ∃ p ∈ ranges, p.1 ≤ c ∧ c ≤ p.2 := by
  simp [inRanges]

theorem good_skip (a : Nat) : Good (fun x => [([a], x)]) fun cs u _ => cs = [a] ∧ u = [] := by
  refine ⟨fun x => by simp, fun x cs t => ?_⟩
  simp only [List.mem_singleton, Prod.mk.injEq]
  constructor
  · rintro ⟨rfl, rfl⟩; exact ⟨[], rfl, rfl, rfl⟩
  · rintro ⟨y, rfl, rfl, h⟩
    simp only [List.map_eq_nil_iff] at h
    subst h
    exact ⟨rfl, rfl⟩

/-- Something or nothing. -/
theorem good_maybe {g : Bool} {o : Chars → List (List Nat × Chars)} {C : List Nat → List Rune → Prop}
    (h : Good o fun cs u _ => C cs u) :
    Good (fun x => if g then (o x).map (fun p => (0 :: p.1, p.2)) ++ [([1], x)] else ([0], x) :: (o x).map fun p => (1 :: p.1, p.2))
      fun cs u _ => (∃ c, cs = again g :: c ∧ C c u) ∨ cs = [enough g] ∧ u = [] := by
  cases g
  · have := good_or good_nothing h 0 1 (by decide)
    refine Good.congr (C := fun cs u r => (∃ c, cs = 0 :: c ∧ c = [] ∧ u = []) ∨ ∃ c, cs = 1 :: c ∧ C c u) this ?_
    intro cs u _
    simp only [again, enough, Bool.false_eq_true, if_false]
    rw [or_comm]
    refine or_congr Iff.rfl ?_
    exact ⟨fun ⟨c, h1, h2, h3⟩ => ⟨by rw [h1, h2], h3⟩, fun ⟨h1, h2⟩ => ⟨[], h1, rfl, h2⟩⟩
  · have := good_or h good_nothing 0 1 (by decide)
    refine Good.congr (C := fun cs u r => (∃ c, cs = 0 :: c ∧ C c u) ∨ ∃ c, cs = 1 :: c ∧ c = [] ∧ u = []) this ?_
    intro cs u _
    simp only [again, enough, if_true]
    refine or_congr Iff.rfl ?_
    exact ⟨fun ⟨c, h1, h2, h3⟩ => ⟨by rw [h1, h2], h3⟩, fun ⟨h1, h2⟩ => ⟨[], h1, rfl, h2⟩⟩

theorem many_iff {g : Bool} {a : Expr} {cs : List Nat} {u : List Rune} :
    Chooses (.many g a) cs u ↔ (∃ c, cs = again g :: c ∧ More g (Chooses a) c u) ∨ cs = [enough g] ∧ u = [] := by
  constructor
  · rintro ⟨ps, rfl, rfl, h⟩
    cases ps with
    | nil => exact .inr ⟨by simp [rounds], by simp⟩
    | cons p ps =>
      exact .inl ⟨p.1 ++ rounds g ps, by simp [rounds], p.1, p.2, ps, rfl, by simp, h p (by simp), fun q hq => h q (by simp [hq])⟩
  · rintro (⟨c, rfl, c', v, ps, rfl, rfl, h1, h2⟩ | ⟨rfl, rfl⟩)
    · refine ⟨(c', v) :: ps, by simp [rounds], by simp, ?_⟩
      intro p hp
      rcases List.mem_cons.1 hp with rfl | hp
      · exact h1
      · exact h2 p hp
    · exact ⟨[], by simp [rounds], by simp, by simp⟩

theorem good_outs : ∀ {e : Expr}, Solid e → Good (outs e) fun cs u _ => Chooses e cs u
  | .nothing, _ => good_nothing
  | .char c, _ => good_one.congr fun cs u _ => by simp [Chooses]
  | .any, _ => good_one.congr fun cs u _ => by simp [Chooses]
  | .oneOf r, _ => good_one.congr fun cs u _ => by simp only [Chooses, inRanges_iff]
  | .var _ vals, _ => ⟨valsA_sorted 0 vals, fun x cs t => by
      simp only [outs, valsA_mem, Nat.zero_add, litsR_mem, Chooses]
      constructor
      · rintro ⟨j, v, rfl, h, y, h1, h2⟩; exact ⟨y, h1, j, rfl, h2 ▸ h⟩
      · rintro ⟨y, h1, j, rfl, h⟩; exact ⟨j, _, rfl, h, y, h1, rfl⟩⟩
  | .seq a b, h => good_seq (good_outs h.1) (good_outs h.2)
  | .or a b, h => good_or (good_outs h.1) (good_outs h.2) 0 1 (by decide)
  | .group _ a, h => good_outs (e := a) h
  | .opt _ a, h => good_maybe (good_outs (e := a) h)
  | .many g a, h => by
    have hn : ∀ cs, ¬ Chooses a cs [] := fun cs hc => h.2 (means_of_chooses hc)
    have hl : Good (fun x => loopA g (outs a) x.length x) fun cs u _ => More g (Chooses a) cs u :=
      ⟨fun x => loopA_sorted (good_outs h.1).sorted _ _, fun x cs t => loopA_mem (good_outs h.1) hn _ _ _ _ (Nat.le_refl _)⟩
    exact (good_maybe hl).congr fun cs u _ => many_iff.symm
  | .more g a, h => by
    have hn : ∀ cs, ¬ Chooses a cs [] := fun cs hc => h.2 (means_of_chooses hc)
    exact ⟨fun x => loopA_sorted (good_outs h.1).sorted _ _, fun x cs t => loopA_mem (good_outs h.1) hn _ _ _ _ (Nat.le_refl _)⟩

end Verif.Spec.Expr
