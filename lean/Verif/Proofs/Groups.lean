import Verif.Proofs.GroupsParse
import Verif.Proofs.ChoiceWhole

/-! The groups of an expression hold what `Spec/Groups.lean` says. -/

namespace Verif.Spec.Expr

open Verif.Rx Verif.Spec Verif.Hre

/-! ## Recording places -/

/-- The offsets of groups from the one numbered `n` on. -/
def record : Nat → Places → List (Option Nat) → List (Option Nat)
  | _, [], c => c
  | n, none :: gs, c => record (n + 1) gs c
  | n, some (a, b) :: gs, c => record (n + 1) gs ((c.set (2 * (n + 1)) (some a)).set (2 * (n + 1) + 1) (some b))

theorem record_set {gs : Places} : ∀ {n : Nat} {c : List (Option Nat)} {i : Nat} {v : Option Nat}, i < 2 * (n + 1) →
    record n gs (c.set i v) = (record n gs c).set i v := by
  induction gs with
  | nil => intros; rfl
  | cons g gs ih =>
    intro n c i v h
    match g with
    | none => exact ih (by omega)
    | some (a, b) =>
      simp only [record]
      rw [← ih (by omega), List.set_comm _ _ (by omega : 2 * (n + 1) + 1 ≠ i), List.set_comm _ _ (by omega : 2 * (n + 1) ≠ i)]

theorem record_append {gs hs : Places} : ∀ {n : Nat} {c : List (Option Nat)},
    record n (gs ++ hs) c = record (n + gs.length) hs (record n gs c) := by
  induction gs with
  | nil => intros; rfl
  | cons g gs ih =>
    intro n c
    match g with
    | none => simp only [List.cons_append, record, ih, List.length_cons]; congr 1; omega
    | some (a, b) => simp only [List.cons_append, record, ih, List.length_cons]; congr 1; omega

theorem record_unused {m : Nat} : ∀ {n : Nat} {c : List (Option Nat)}, record n (List.replicate m none) c = c := by
  induction m with
  | zero => intros; rfl
  | succ m ih => intro n c; rw [List.replicate_succ, record, ih]

theorem record_later : ∀ {gs hs : Places} {n : Nat} {c : List (Option Nat)}, gs.length = hs.length →
    record n hs (record n gs c) = record n (later gs hs) c
  | [], [], _, _, _ => rfl
  | g :: gs, [], _, _, h => by simp at h
  | [], g :: hs, _, _, h => by simp at h
  | g :: gs, h :: hs, n, c, hl => by
    have ih := fun c => record_later (gs := gs) (hs := hs) (n := n + 1) (c := c) (by simpa using hl)
    match g, h with
    | none, none => simpa [record, later] using ih c
    | some (a, b), none => simpa [record, later] using ih _
    | none, some (a, b) =>
      simp only [record, later, List.zipWith_cons_cons]
      rw [← record_set (by omega), ← record_set (by omega)]
      exact ih _
    | some (a, b), some (a', b') =>
      simp only [record, later, List.zipWith_cons_cons, Option.or_some]
      rw [← record_set (by omega), ← record_set (by omega)]
      refine (ih _).trans ?_
      rw [later]
      congr 1
      rw [List.set_comm (some b) (some a') (by omega), List.set_set, List.set_set]
      rfl

theorem record_length {gs : Places} : ∀ {n : Nat} {c : List (Option Nat)}, (record n gs c).length = c.length := by
  induction gs with
  | nil => intros; rfl
  | cons g gs ih =>
    intro n c
    match g with
    | none => simp [record, ih]
    | some (a, b) => simp [record, ih]

/-! ## The matcher with the choices -/

def valsT : Nat → List (List Rune) → St → List (List Nat × St)
  | _, [], _ => []
  | i, v :: vs, s => (lits v s).map ([i], ·) ++ valsT (i + 1) vs s

def loopT (g : Bool) (f : St → List (List Nat × St)) : Nat → St → List (List Nat × St)
  | 0, s => (f s).map fun p => (p.1 ++ [enough g], p.2)
  | n + 1, s => (f s).flatMap fun p =>
    if p.2.rest.length < s.rest.length then
      if g then (loopT g f n p.2).map (fun q => (p.1 ++ again g :: q.1, q.2)) ++ [(p.1 ++ [enough g], p.2)]
      else (p.1 ++ [enough g], p.2) :: (loopT g f n p.2).map (fun q => (p.1 ++ again g :: q.1, q.2))
    else [(p.1 ++ [enough g], p.2)]

def captureT (n : Nat) (f : St → List (List Nat × St)) (s : St) : List (List Nat × St) :=
  (f (setCap (2 * (n + 1)) s)).map fun p => (p.1, setCap (2 * (n + 1) + 1) p.2)

/-- `runE` with the choices. -/
def trace : Nat → Expr → St → List (List Nat × St)
  | _, .nothing, s => [([], s)]
  | _, .char c, s => (one (· == c) s).map ([], ·)
  | _, .any, s => (one (· != 0x0A) s).map ([], ·)
  | _, .oneOf ranges, s => (one (fun r => inRanges ranges r) s).map ([], ·)
  | n, .var _ vals, s => captureT n (valsT 0 vals) s
  | n, .seq a b, s => (trace n a s).flatMap fun p => (trace (n + groups a) b p.2).map fun q => (p.1 ++ q.1, q.2)
  | n, .or a b, s => (trace n a s).map (fun p => (0 :: p.1, p.2)) ++ (trace (n + groups a) b s).map fun p => (1 :: p.1, p.2)
  | n, .group true a, s => captureT n (trace (n + 1) a) s
  | n, .group false a, s => trace n a s
  | n, .opt g a, s =>
    if g then (trace n a s).map (fun p => (0 :: p.1, p.2)) ++ [([1], s)]
    else ([0], s) :: (trace n a s).map fun p => (1 :: p.1, p.2)
  | n, .many g a, s =>
    if g then (loopT g (trace n a) s.rest.length s).map (fun p => (0 :: p.1, p.2)) ++ [([1], s)]
    else ([0], s) :: (loopT g (trace n a) s.rest.length s).map fun p => (1 :: p.1, p.2)
  | n, .more g a, s => loopT g (trace n a) s.rest.length s

theorem valsT_snd : ∀ (i : Nat) (vs : List (List Rune)) (s : St), (valsT i vs s).map Prod.snd = vs.flatMap fun v => lits v s
  | _, [], _ => rfl
  | i, v :: vs, s => by
    simp only [valsT, List.map_append, List.map_map, List.flatMap_cons, valsT_snd (i + 1) vs s]
    congr 1
    exact List.map_id _

theorem loopT_snd {g : Bool} {o : St → List (List Nat × St)} {f : St → List St} (h : ∀ x, (o x).map Prod.snd = f x) :
    ∀ n x, (loopT g o n x).map Prod.snd = plusLoop g f n x
  | 0, x => by
    rw [loopT, plusLoop, ← h x, List.map_map]
    rfl
  | n + 1, x => by
    rw [loopT, plusLoop, ← h x, List.map_flatMap, List.flatMap_map]
    refine congrArg (List.flatMap · (o x)) (funext fun p => ?_)
    have ih := loopT_snd (g := g) h n p.2
    have hm : ((loopT g o n p.2).map fun q => (p.1 ++ again g :: q.1, q.2)).map Prod.snd = plusLoop g f n p.2 := by
      rw [List.map_map, ← ih]
      rfl
    by_cases hl : p.2.rest.length < x.rest.length
    · simp only [if_pos hl]
      cases g
      · simp only [Bool.false_eq_true, if_false, List.map_cons]
        exact congrArg (p.2 :: ·) hm
      · simp only [if_true, List.map_append]
        exact congrArg (· ++ [p.2]) hm
    · simp only [if_neg hl, List.map_cons, List.map_nil]

theorem captureT_snd {n : Nat} {o : St → List (List Nat × St)} {f : St → List St} (h : ∀ x, (o x).map Prod.snd = f x) (s : St) :
    (captureT n o s).map Prod.snd = capture n f s := by
  simp only [captureT, capture, ← h, List.map_map]
  rfl

theorem trace_snd : ∀ (n : Nat) (e : Expr) (s : St), (trace n e s).map Prod.snd = runE n e s
  | _, .nothing, _ => rfl
  | _, .char _, _ | _, .any, _ | _, .oneOf _, _ => by
    simp only [trace, runE, List.map_map]
    exact List.map_id _
  | n, .var _ vals, s => captureT_snd (valsT_snd 0 vals) s
  | n, .seq a b, s => by
    simp only [trace, runE]
    rw [List.map_flatMap, ← trace_snd n a s, List.flatMap_map]
    refine congrArg (List.flatMap · (trace n a s)) (funext fun p => ?_)
    rw [← trace_snd _ b p.2, List.map_map]
    rfl
  | n, .or a b, s => by
    simp only [trace, runE, List.map_append, List.map_map, ← trace_snd n a s, ← trace_snd _ b s]
    rfl
  | n, .group true a, s => captureT_snd (trace_snd (n + 1) a) s
  | n, .group false a, s => trace_snd n a s
  | n, .opt g a, s => by
    cases g <;> simp [trace, runE, List.map_map, ← trace_snd n a s, Function.comp_def]
  | n, .many g a, s => by
    have := loopT_snd (g := g) (trace_snd n a) s.rest.length s
    cases g <;> simp [trace, runE, starLoop, List.map_map, ← this, Function.comp_def]
  | n, .more g a, s => loopT_snd (trace_snd n a) s.rest.length s

/-! ## The same choices -/

/-- A state with its choices, without the groups. -/
def bare (p : List Nat × St) : List Nat × Chars := (p.1, p.2.rest)

theorem lits_rest : ∀ {v : List Rune} {s : St}, (lits v s).map St.rest = litsR v s.rest
  | [], s => rfl
  | r :: v, s => by
    simp only [lits, litsR]
    rw [List.map_flatMap, ← ord_one (p := (· == r)) (fun _ => rfl) s, List.flatMap_map]
    exact congrArg (List.flatMap · _) (funext fun s' => lits_rest (v := v))

theorem valsT_bare : ∀ (i : Nat) (vs : List (List Rune)) (s : St), (valsT i vs s).map bare = valsA i vs s.rest
  | _, [], _ => rfl
  | i, v :: vs, s => by
    simp only [valsT, valsA, List.map_append, valsT_bare (i + 1) vs s, ← lits_rest, List.map_map]
    rfl

theorem loopT_bare {g : Bool} {o : St → List (List Nat × St)} {f : Chars → List (List Nat × Chars)} (h : ∀ x, (o x).map bare = f x.rest) :
    ∀ n x, (loopT g o n x).map bare = loopA g f n x.rest
  | 0, x => by
    rw [loopT, loopA, ← h x, List.map_map, List.map_map]
    rfl
  | n + 1, x => by
    rw [loopT, loopA, ← h x, List.map_flatMap, List.flatMap_map]
    refine congrArg (List.flatMap · (o x)) (funext fun p => ?_)
    have ih := loopT_bare (g := g) h n p.2
    have hm : ((loopT g o n p.2).map fun q => (p.1 ++ again g :: q.1, q.2)).map bare =
        (loopA g f n (bare p).2).map fun q => ((bare p).1 ++ again g :: q.1, q.2) := by
      rw [show (bare p).2 = p.2.rest from rfl, ← ih, List.map_map, List.map_map]
      rfl
    by_cases hl : p.2.rest.length < x.rest.length
    · rw [if_pos hl, if_pos (show (bare p).2.length < x.rest.length from hl)]
      cases g
      · simp only [Bool.false_eq_true, if_false, List.map_cons, hm]
        rfl
      · simp only [if_true, List.map_append, hm]
        rfl
    · rw [if_neg hl, if_neg (show ¬ (bare p).2.length < x.rest.length from hl)]
      rfl

theorem captureT_bare {n : Nat} {o : St → List (List Nat × St)} {f : Chars → List (List Nat × Chars)}
    (h : ∀ x, (o x).map bare = f x.rest) (s : St) : (captureT n o s).map bare = f s.rest := by
  rw [← show (setCap (2 * (n + 1)) s).rest = s.rest from rfl, ← h, captureT, List.map_map]
  rfl

theorem one_bare {p : Rune → Bool} (s : St) : ((one p s).map (([] : List Nat), ·)).map bare = (oneR p s.rest).map ([], ·) := by
  rw [← ord_one (p := p) (fun _ => rfl) s, List.map_map, List.map_map]
  rfl

theorem trace_bare : ∀ (n : Nat) (e : Expr) (s : St), (trace n e s).map bare = outs e s.rest
  | _, .nothing, _ => rfl
  | _, .char _, s | _, .any, s | _, .oneOf _, s => one_bare s
  | n, .var _ vals, s => captureT_bare (valsT_bare 0 vals) s
  | n, .seq a b, s => by
    simp only [trace, outs, seqA]
    rw [List.map_flatMap, ← trace_bare n a s, List.flatMap_map]
    refine congrArg (List.flatMap · (trace n a s)) (funext fun p => ?_)
    rw [show (bare p).2 = p.2.rest from rfl, ← trace_bare _ b p.2, List.map_map, List.map_map]
    rfl
  | n, .or a b, s => by
    simp only [trace, outs, List.map_append, List.map_map, ← trace_bare n a s, ← trace_bare (n + groups a) b s]
    rfl
  | n, .group true a, s => captureT_bare (trace_bare (n + 1) a) s
  | n, .group false a, s => trace_bare n a s
  | n, .opt g a, s => by
    cases g <;> simp [trace, outs, List.map_map, ← trace_bare n a s, Function.comp_def, bare]
  | n, .many g a, s => by
    have := loopT_bare (g := g) (trace_bare n a) s.rest.length s
    cases g <;> simp [trace, outs, List.map_map, ← this, Function.comp_def, bare]
  | n, .more g a, s => loopT_bare (trace_bare n a) s.rest.length s

/-! ## What is recorded -/

/-- From one state to another, with the choices, as `M` says. -/
def Sets (n m : Nat) (M : List Nat → Nat → Chars → Places → Prop) (s : St) (c : List Nat) (s' : St) : Prop :=
  ∃ y gs, s.rest = y ++ s'.rest ∧ s'.pos = s.pos + bytes y ∧ gs.length = m ∧ M c s.pos y gs ∧ s'.caps = record n gs s.caps

theorem sets_one {n : Nat} {p : Rune → Bool} {s s' : St} (h : s' ∈ one p s) :
    ∃ r w, p r = true ∧ s.rest = (r, w) :: s'.rest ∧ s'.pos = s.pos + w ∧ s'.caps = record n [] s.caps := by
  unfold one at h
  split at h
  · rename_i r w t hr
    split at h
    · simp only [List.mem_singleton] at h
      subst h
      exact ⟨r, w, by assumption, hr, rfl, rfl⟩
    · simp at h
  · simp at h

theorem sets_lits : ∀ {v : List Rune} {s s' : St}, s' ∈ lits v s →
    ∃ y, s.rest = y ++ s'.rest ∧ s'.pos = s.pos + bytes y ∧ y.map Prod.fst = v ∧ s'.caps = s.caps
  | [], s, s', h => by
    simp only [lits, List.mem_singleton] at h
    subst h
    exact ⟨[], rfl, rfl, rfl, rfl⟩
  | r :: v, s, s', h => by
    simp only [lits, List.mem_flatMap] at h
    obtain ⟨s1, h1, h2⟩ := h
    obtain ⟨r', w, k1, k2, k3, k4⟩ := sets_one (n := 0) h1
    obtain ⟨y, l1, l2, l3, l4⟩ := sets_lits h2
    simp only [beq_iff_eq] at k1
    subst k1
    refine ⟨(r', w) :: y, by rw [k2, l1]; rfl, ?_, by rw [List.map_cons, l3], l4.trans k4⟩
    rw [l2, k3]
    simp only [bytes_eq, Rx.width]
    simp
    omega

theorem valsT_mem : ∀ {i : Nat} {vs : List (List Rune)} {s s' : St} {cs : List Nat},
    (cs, s') ∈ valsT i vs s → ∃ j v, cs = [i + j] ∧ vs[j]? = some v ∧ s' ∈ lits v s
  | i, [], s, s', cs, h => by simp [valsT] at h
  | i, w :: vs, s, s', cs, h => by
    simp only [valsT, List.mem_append, List.mem_map, Prod.mk.injEq] at h
    rcases h with ⟨t', h, rfl, rfl⟩ | h
    · exact ⟨0, w, rfl, rfl, h⟩
    · obtain ⟨j, v, rfl, h1, h2⟩ := valsT_mem h
      exact ⟨j + 1, v, by simp; omega, by simpa using h1, h2⟩

theorem sets_capture {n m : Nat} {M M' : List Nat → Nat → Chars → Places → Prop} {o : St → List (List Nat × St)}
    (h : ∀ s c s', (c, s') ∈ o s → Sets (n + 1) m M s c s')
    (hM : ∀ c i y gs, M c i y gs → M' c i y (some (i, i + bytes y) :: gs)) {s : St} {c : List Nat} {s' : St}
    (hm : (c, s') ∈ captureT n o s) : Sets n (m + 1) M' s c s' := by
  simp only [captureT, List.mem_map, Prod.exists, Prod.mk.injEq] at hm
  obtain ⟨c', t, hm, rfl, rfl⟩ := hm
  obtain ⟨y, gs, h1, h2, h3, h4, h5⟩ := h _ _ _ hm
  refine ⟨y, some (s.pos, s.pos + bytes y) :: gs, h1, h2, by simp [h3], hM _ _ _ _ h4, ?_⟩
  simp only [setCap] at h5 h2 ⊢
  rw [h5, h2, record, record_set (by omega), record_set (by omega), record_set (by omega)]

theorem sets_loop {g : Bool} {n m : Nat} {M : List Nat → Nat → Chars → Places → Prop} {o : St → List (List Nat × St)}
    (h : ∀ s c s', (c, s') ∈ o s → Sets n m M s c s') : ∀ (fuel : Nat) {s : St} {c : List Nat} {s' : St},
    (c, s') ∈ loopT g o fuel s → Sets n m (Reps M g) s c s' := by
  have last : ∀ {s : St} {c : List Nat} {s' : St}, (c, s') ∈ o s → Sets n m (Reps M g) s (c ++ [enough g]) s' := by
    intro s c s' hm
    obtain ⟨y, gs, h1, h2, h3, h4, h5⟩ := h _ _ _ hm
    exact ⟨y, gs, h1, h2, h3, .last h4, h5⟩
  intro fuel
  induction fuel with
  | zero =>
    intro s c s' hm
    simp only [loopT, List.mem_map, Prod.exists, Prod.mk.injEq] at hm
    obtain ⟨c', t, hm, rfl, rfl⟩ := hm
    exact last hm
  | succ fuel ih =>
    intro s c s' hm
    simp only [loopT, List.mem_flatMap, Prod.exists] at hm
    obtain ⟨c', t, h1, hm⟩ := hm
    have next : ∀ {d : List Nat}, (d, s') ∈ loopT g o fuel t → Sets n m (Reps M g) s (c' ++ again g :: d) s' := by
      intro d hd
      obtain ⟨y, gs, a1, a2, a3, a4, a5⟩ := h _ _ _ h1
      obtain ⟨z, hs, b1, b2, b3, b4, b5⟩ := ih hd
      refine ⟨y ++ z, later gs hs, by rw [a1, b1]; simp, ?_, by simp [later, a3, b3], .next a4 (a2 ▸ b4), ?_⟩
      · rw [b2, a2]; simp only [bytes_eq, width_append]; omega
      · rw [b5, a5, record_later (a3.trans b3.symm)]
    split at hm
    · split at hm
      · simp only [List.mem_append, List.mem_map, List.mem_singleton, Prod.exists, Prod.mk.injEq] at hm
        rcases hm with ⟨d, t', hd, rfl, rfl⟩ | ⟨rfl, rfl⟩
        · exact next hd
        · exact last h1
      · simp only [List.mem_cons, List.mem_map, Prod.exists, Prod.mk.injEq] at hm
        rcases hm with ⟨rfl, rfl⟩ | ⟨d, t', hd, rfl, rfl⟩
        · exact last h1
        · exact next hd
    · simp only [List.mem_singleton, Prod.mk.injEq] at hm
      obtain ⟨rfl, rfl⟩ := hm
      exact last h1

theorem sets_nothing {n : Nat} {e : Expr} {M : List Nat → Nat → Chars → Places → Prop} {c : List Nat} {s : St}
    (h : M c s.pos [] (unused e)) : Sets n (groups e) M s c s :=
  ⟨[], unused e, rfl, rfl, by simp [unused], h, by rw [unused, record_unused]⟩

theorem Sets.imp {n m : Nat} {M M' : List Nat → Nat → Chars → Places → Prop} {s s' : St} {c c' : List Nat} (h : Sets n m M s c s')
    (hM : ∀ i y gs, M c i y gs → M' c' i y gs) : Sets n m M' s c' s' := by
  obtain ⟨y, gs, h1, h2, h3, h4, h5⟩ := h
  exact ⟨y, gs, h1, h2, h3, hM _ _ _ h4, h5⟩

theorem trace_sets : ∀ {e : Expr} {n : Nat} {s : St} {c : List Nat} {s' : St}, (c, s') ∈ trace n e s →
    Sets n (groups e) (Marks e) s c s'
  | .nothing, n, s, c, s', h => by
    simp only [trace, List.mem_singleton, Prod.mk.injEq] at h
    obtain ⟨rfl, rfl⟩ := h
    exact sets_nothing (e := .nothing) ⟨rfl, rfl, rfl⟩
  | .char _, n, s, c, s', h => by
    simp only [trace, List.mem_map, Prod.mk.injEq] at h
    obtain ⟨t, h, rfl, rfl⟩ := h
    obtain ⟨r, w, h1, h2, h3, h4⟩ := sets_one (n := n) h
    exact ⟨[(r, w)], [], h2, h3, rfl, ⟨rfl, by simpa using h1, rfl⟩, h4⟩
  | .any, n, s, c, s', h => by
    simp only [trace, List.mem_map, Prod.mk.injEq] at h
    obtain ⟨t, h, rfl, rfl⟩ := h
    obtain ⟨r, w, h1, h2, h3, h4⟩ := sets_one (n := n) h
    exact ⟨[(r, w)], [], h2, h3, rfl, ⟨rfl, ⟨r, rfl, by simpa using h1⟩, rfl⟩, h4⟩
  | .oneOf _, n, s, c, s', h => by
    simp only [trace, List.mem_map, Prod.mk.injEq] at h
    obtain ⟨t, h, rfl, rfl⟩ := h
    obtain ⟨r, w, h1, h2, h3, h4⟩ := sets_one (n := n) h
    exact ⟨[(r, w)], [], h2, h3, rfl, ⟨rfl, ⟨r, rfl, inRanges_iff.1 h1⟩, rfl⟩, h4⟩
  | .var m vals, n, s, c, s', h => by
    refine sets_capture (m := 0) (M := fun c i y gs => ∃ k, c = [k] ∧ vals[k]? = some (y.map Prod.fst) ∧ gs = []) ?_ ?_ h
    · intro s c s' hm
      obtain ⟨j, v, rfl, h1, h2⟩ := valsT_mem hm
      obtain ⟨y, k1, k2, k3, k4⟩ := sets_lits h2
      exact ⟨y, [], k1, k2, rfl, ⟨j, by simp, by rw [k3, h1], rfl⟩, k4⟩
    · rintro c i y gs ⟨k, rfl, h1, rfl⟩
      exact ⟨k, rfl, h1, rfl⟩
  | .seq a b, n, s, c, s', h => by
    simp only [trace, List.mem_flatMap, List.mem_map, Prod.exists, Prod.mk.injEq] at h
    obtain ⟨c1, t, h1, c2, t', h2, rfl, rfl⟩ := h
    obtain ⟨y, gs, a1, a2, a3, a4, a5⟩ := trace_sets h1
    obtain ⟨z, hs, b1, b2, b3, b4, b5⟩ := trace_sets h2
    refine ⟨y ++ z, gs ++ hs, by rw [a1, b1]; simp, ?_, by simp [a3, b3, groups], ⟨c1, c2, y, z, gs, hs, rfl, rfl, rfl, a4, a2 ▸ b4⟩, ?_⟩
    · rw [b2, a2]; simp only [bytes_eq, width_append]; omega
    · rw [b5, a5, record_append, a3]
  | .or a b, n, s, c, s', h => by
    simp only [trace, List.mem_append, List.mem_map, Prod.exists, Prod.mk.injEq] at h
    rcases h with ⟨c, t, h, rfl, rfl⟩ | ⟨c, t, h, rfl, rfl⟩
    · obtain ⟨y, gs, a1, a2, a3, a4, a5⟩ := trace_sets h
      exact ⟨y, gs ++ unused b, a1, a2, by simp [a3, unused, groups], .inl ⟨c, gs, rfl, rfl, a4⟩,
        by rw [record_append, unused, record_unused, a5]⟩
    · obtain ⟨y, gs, a1, a2, a3, a4, a5⟩ := trace_sets h
      exact ⟨y, unused a ++ gs, a1, a2, by simp [a3, unused, groups], .inr ⟨c, gs, rfl, rfl, a4⟩,
        by rw [record_append, unused, record_unused, a5, List.length_replicate]⟩
  | .group true a, n, s, c, s', h => by
    have := sets_capture (M' := Marks (.group true a)) (fun s c s' hm => trace_sets (e := a) hm)
      (fun c i y gs hm => ⟨gs, rfl, hm⟩) h
    rwa [Nat.add_comm] at this
  | .group false a, n, s, c, s', h => by
    have := (trace_sets (e := a) h).imp (M' := Marks (.group false a)) fun i y gs hm => ⟨gs, rfl, hm⟩
    simpa [groups] using this
  | .opt g a, n, s, c, s', h => by
    have none_ : Sets n (groups a) (Marks (.opt g a)) s [enough g] s := sets_nothing (.inr ⟨rfl, rfl, rfl⟩)
    have some_ : ∀ {c s'}, (c, s') ∈ trace n a s → Sets n (groups a) (Marks (.opt g a)) s (again g :: c) s' :=
      fun hm => (trace_sets hm).imp fun i y gs hm => .inl ⟨_, rfl, hm⟩
    cases g
    · simp only [trace, Bool.false_eq_true, if_false, List.mem_cons, List.mem_map, Prod.exists, Prod.mk.injEq] at h
      rcases h with ⟨rfl, rfl⟩ | ⟨d, t', hd, rfl, rfl⟩
      · exact none_
      · exact some_ hd
    · simp only [trace, if_true, List.mem_append, List.mem_map, List.mem_singleton, Prod.exists, Prod.mk.injEq] at h
      rcases h with ⟨d, t', hd, rfl, rfl⟩ | ⟨rfl, rfl⟩
      · exact some_ hd
      · exact none_
  | .many g a, n, s, c, s', h => by
    have none_ : Sets n (groups a) (Marks (.many g a)) s [enough g] s := sets_nothing (.inr ⟨rfl, rfl, rfl⟩)
    have some_ : ∀ {c s'}, (c, s') ∈ loopT g (trace n a) s.rest.length s → Sets n (groups a) (Marks (.many g a)) s (again g :: c) s' :=
      fun hm => (sets_loop (fun s c s' hm => trace_sets hm) _ hm).imp fun i y gs hm => .inl ⟨_, rfl, hm⟩
    cases g
    · simp only [trace, Bool.false_eq_true, if_false, List.mem_cons, List.mem_map, Prod.exists, Prod.mk.injEq] at h
      rcases h with ⟨rfl, rfl⟩ | ⟨d, t', hd, rfl, rfl⟩
      · exact none_
      · exact some_ hd
    · simp only [trace, if_true, List.mem_append, List.mem_map, List.mem_singleton, Prod.exists, Prod.mk.injEq] at h
      rcases h with ⟨d, t', hd, rfl, rfl⟩ | ⟨rfl, rfl⟩
      · exact some_ hd
      · exact none_
  | .more g a, n, s, c, s', h => sets_loop (fun s c s' hm => trace_sets hm) _ h

end Verif.Spec.Expr
