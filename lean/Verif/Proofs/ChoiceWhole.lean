import Verif.Proofs.Choice
import Verif.Proofs.ExprWhole
import Verif.Proofs.Scan

/-! The texts that `Find` prefers, for patterns with edges and lookarounds. -/

namespace Verif.Spec.Expr

open Verif.Rx Verif.Spec Verif.Spec.Hre Verif.Hre

theorem Lt.lt {cs ds : List Nat} (h : Lt cs ds) : cs < ds := by
  obtain ⟨p, a, b, x, y, rfl, rfl, h⟩ := h
  induction p with
  | nil => simp only [List.nil_append, List.cons_lt_cons_iff]; exact .inl h
  | cons q p ih => simp only [List.cons_append, List.cons_lt_cons_iff]; exact .inr ⟨trivial, ih⟩

theorem pairwise_cmp {A : List (List Nat × Chars)} (h : A.Pairwise fun p q => Lt p.1 q.1) {p q : List Nat × Chars}
    (hp : p ∈ A) (hq : q ∈ A) : p = q ∨ Lt p.1 q.1 ∨ Lt q.1 p.1 := by
  induction h with
  | nil => simp at hp
  | cons h1 _ ih =>
    rcases List.mem_cons.1 hp with rfl | hp' <;> rcases List.mem_cons.1 hq with rfl | hq'
    · exact .inl rfl
    · exact .inr (.inl (h1 _ hq'))
    · exact .inr (.inr (h1 _ hp'))
    · exact ih hp' hq' 

/-! ## Edges -/

theorem solid_gap : Solid gap := by
  refine ⟨⟨trivial, ?_⟩, trivial, trivial⟩
  rintro ⟨c, h, _⟩
  simp at h

theorem good_if (P : Prop) [Decidable P] :
    Good (fun x => if P then [([], x)] else []) fun cs u _ => cs = [] ∧ P ∧ u = [] := by
  by_cases h : P
  · simp only [h, true_and]
    exact good_nothing
  · simp only [h, false_and, and_false]
    exact ⟨fun x => .nil, fun x cs t => by simp⟩

theorem good_end : Good (fun x => if x = [] then [([], x)] else []) fun cs u a => cs = [] ∧ a = [] ∧ u = [] := by
  refine ⟨fun x => by split <;> simp, fun x cs t => ?_⟩
  split
  · subst_vars
    simp only [List.mem_singleton, Prod.mk.injEq]
    constructor
    · rintro ⟨rfl, rfl⟩; exact ⟨[], rfl, rfl, rfl, rfl⟩
    · rintro ⟨y, h, rfl, _, _⟩; exact ⟨rfl, (List.append_eq_nil_iff.1 h.symm).2⟩
  · rename_i h
    simp only [List.not_mem_nil, false_iff]
    rintro ⟨y, rfl, _, h1, h2⟩
    simp only [List.map_eq_nil_iff] at h1 h2
    simp [h1, h2] at h

def leftA (n : Nat) (b : List Rune) (x : Chars) : List (List Nat × Chars) :=
  match n with
  | 0 => [([], x)]
  | 1 => (if b = [] then [([], x)] else []).map (fun p => (0 :: p.1, p.2)) ++ (outs gap x).map fun p => (1 :: p.1, p.2)
  | _ => if b = [] then [([], x)] else []

def rightA (n : Nat) (x : Chars) : List (List Nat × Chars) :=
  match n with
  | 0 => [([], x)]
  | 1 => (if x = [] then [([], x)] else []).map (fun p => (0 :: p.1, p.2)) ++ (outs gap x).map fun p => (1 :: p.1, p.2)
  | _ => if x = [] then [([], x)] else []

theorem good_left (n : Nat) (b : List Rune) : Good (leftA n b) fun cs u _ => LeftChoice n cs b u := by
  match n with
  | 0 => exact good_nothing
  | 1 =>
    refine (good_or (good_if (b = [])) (good_outs solid_gap) 0 1 (by decide)).congr fun cs u _ => ?_
    simp only [LeftChoice]
    refine or_congr ⟨?_, ?_⟩ Iff.rfl
    · rintro ⟨c, rfl, rfl, h⟩; exact ⟨rfl, h⟩
    · rintro ⟨rfl, h⟩; exact ⟨[], rfl, rfl, h⟩
  | n + 2 => exact good_if (b = [])

theorem good_right (n : Nat) : Good (rightA n) fun cs u a => RightChoice n cs u a := by
  match n with
  | 0 => exact good_nothing
  | 1 =>
    refine (good_or good_end (good_outs solid_gap) 0 1 (by decide)).congr fun cs u a => ?_
    simp only [RightChoice]
    refine or_congr ⟨?_, ?_⟩ Iff.rfl
    · rintro ⟨c, rfl, rfl, h⟩; exact ⟨rfl, h⟩
    · rintro ⟨rfl, h⟩; exact ⟨[], rfl, rfl, h⟩
  | n + 2 => exact good_end

theorem ord_gap : Ord (runAlt Verif.Hre.gap) (rests gap) := by
  intro s
  have h1 : Ord (run (.plus true (.cls false spaceRanges))) (rests (.more true (.oneOf spaceRanges))) := by
    intro s
    rw [run, rests]
    exact ord_plus (f := run (.cls false spaceRanges)) (fun s => by rw [run, rests]; exact ord_one (fun r => by simp) s) s
  have lit : ∀ c, Ord (run (.lit [c])) (oneR (· == c)) := by
    intro c s
    have := ord_one (p := (· == c)) (fun _ => rfl) s
    rw [run, ← this]
    simp [lits]
  have h2 : Ord (run (.cat [.lit [0x7B], .lit [0x7D]])) (rests (.seq (.char 0x7B) (.char 0x7D))) := by
    intro s
    rw [run, rests]
    have := (lit 0x7B).flatMap (lit 0x7D) s
    rw [← show _ = ((rests (.char 0x7B)) s.rest).flatMap (rests (.char 0x7D)) from this]
    simp [runCat]
  simp only [Verif.Hre.gap, runAlt, List.map_append, List.append_nil]
  rw [h1 s, h2 s]
  simp [gap, rests, spaceRanges]

theorem run_left {n : Nat} {r : Re} (h : compile (expandEdges (List.replicate n 0x5E)) = .ok r) {b : List Rune} {s : St}
    (hb : s.prev = b.getLast?) : (run r s).map St.rest = (leftA n b s.rest).map Prod.snd := by
  have hs : (check s.prev.isNone s).map St.rest = (if b = [] then [([], s.rest)] else []).map (Prod.snd (α := List Nat)) := by
    rw [hb]
    unfold check
    cases hx : b with
    | nil => simp
    | cons c t => simp [List.getLast?_cons]
  rw [expandEdges_carets] at h
  match n with
  | 0 =>
    have : compile [] = .ok .empty := rfl
    rw [if_pos rfl, this] at h
    cases h
    simp [run, leftA]
  | 1 =>
    have : compile leftEdgeExpr = .ok (.alt (.beginText :: Verif.Hre.gap)) := by rfl
    rw [if_neg (by decide), if_pos rfl, this] at h
    cases h
    have hg : (runAlt Verif.Hre.gap s).map St.rest = (outs gap s.rest).map Prod.snd := by rw [ord_gap s, outs_snd]
    have hs' : (run .beginText s).map St.rest = _ := hs
    rw [run, runAlt, List.map_append, hs', hg]
    simp [leftA, Function.comp_def]
  | n + 2 =>
    have : compile [0x5E] = .ok .beginText := by rfl
    rw [if_neg (by simp), if_neg (by omega), this] at h
    cases h
    exact hs

theorem run_right {n : Nat} {r : Re} (h : compile (expandEdges (List.replicate n 0x24)) = .ok r) :
    Ord (run r) fun x => (rightA n x).map Prod.snd := by
  intro s
  have hs : (check s.rest.isEmpty s).map St.rest = (if s.rest = [] then [([], s.rest)] else []).map (Prod.snd (α := List Nat)) := by
    unfold check
    cases hx : s.rest with
    | nil => simp [hx]
    | cons c t => simp
  rw [expandEdges_dollars] at h
  match n with
  | 0 =>
    have : compile [] = .ok .empty := rfl
    rw [if_pos rfl, this] at h
    cases h
    simp [run, rightA]
  | 1 =>
    have : compile rightEdgeExpr = .ok (.alt (.endText :: Verif.Hre.gap)) := by rfl
    rw [if_neg (by decide), if_pos rfl, this] at h
    cases h
    have hg : (runAlt Verif.Hre.gap s).map St.rest = (outs gap s.rest).map Prod.snd := by rw [ord_gap s, outs_snd]
    have hs' : (run .endText s).map St.rest = _ := hs
    rw [run, runAlt, List.map_append, hs', hg]
    simp [rightA, Function.comp_def]
  | n + 2 =>
    have : compile [0x24] = .ok .endText := by rfl
    rw [if_neg (by simp), if_neg (by omega), this] at h
    cases h
    exact hs

/-! ## The first of all -/

/-- The first of all comes from the first that can be continued. -/
theorem first {l : List St} {K : St → List St} {K' : Chars → List Chars} (hK : Ord K K') {z : St}
    (hz : (l.flatMap K).head? = some z) : ∀ {A : List (List Nat × Chars)}, A.Pairwise (fun p q => Lt p.1 q.1) →
    l.map St.rest = A.map Prod.snd → ∃ a c, (a ∈ l ∧ (a, c) ∈ l.zip (A.map Prod.fst)) ∧ (c, a.rest) ∈ A ∧
      (K a).head? = some z ∧ ∀ d t, (d, t) ∈ A → K' t ≠ [] → (d = c ∧ t = a.rest) ∨ Lt c d := by
  induction l with
  | nil => simp at hz
  | cons a l ih =>
    intro A hA hl
    cases A with
    | nil => simp at hl
    | cons q A =>
      obtain ⟨c, t⟩ := q
      simp only [List.map_cons, List.cons.injEq] at hl
      obtain ⟨hl1, hl2⟩ := hl
      obtain ⟨hA1, hA2⟩ := List.pairwise_cons.1 hA
      by_cases he : K a = []
      · rw [List.flatMap_cons, he, List.nil_append] at hz
        obtain ⟨a', c', h1, h2, h3, h4⟩ := ih hz hA2 hl2
        refine ⟨a', c', ⟨by simp [h1.1], by simp [h1.2]⟩, by simp [h2], h3, ?_⟩
        intro d t' hd ht
        rcases List.mem_cons.1 hd with hd | hd
        · simp only [Prod.mk.injEq] at hd
          obtain ⟨rfl, rfl⟩ := hd
          rw [← hl1, ← hK a, he] at ht
          exact absurd rfl ht
        · exact h4 d t' hd ht
      · refine ⟨a, c, ⟨by simp, by simp⟩, by simp [hl1], ?_, ?_⟩
        · rw [List.flatMap_cons, List.head?_append] at hz
          cases hk : K a with
          | nil => exact absurd hk he
          | cons x xs => rw [hk] at hz; simpa using hz
        · intro d t' hd ht
          rcases List.mem_cons.1 hd with hd | hd
          · simp only [Prod.mk.injEq] at hd
            exact .inl ⟨hd.1, hd.2.trans hl1.symm⟩
          · exact .inr (hA1 _ hd)

section Chain

variable {p : Pattern} {e1 lb la e2 : Re} {core : List Re} {k : Nat}

theorem run_layout (h : Layout p e1 lb core k la e2) (s : St) : run p.re s =
    (run (.cap 1 e1) s).flatMap fun s => (run (.cap 2 lb) s).flatMap fun s => (runCat core s).flatMap fun s =>
      (run (.cap (k + 3) la) s).flatMap (run (.cap (k + 4) e2)) := by
  rw [h.re, run]
  simp only [List.cons_append, List.nil_append]
  refine congrArg (List.flatMap · _) (funext fun s => congrArg (List.flatMap · _) (funext fun s => ?_))
  rw [Verif.Hre.runCat_append]
  refine congrArg (List.flatMap · _) (funext fun s => ?_)
  simp only [runCat, List.flatMap_singleton']

/-- What a laid out expression records. -/
theorem layout_marks (h : Layout p e1 lb core k la e2) {prev : Option Rune} {pos : Nat} {rest : List (Rune × Nat)}
    {s1 s2 s3 s4 s : St} (h1 : s1 ∈ run (.cap 1 e1) (start p.re prev pos rest)) (h2 : s2 ∈ run (.cap 2 lb) s1)
    (h3 : s3 ∈ runCat core s2) (h4 : s4 ∈ run (.cap (k + 3) la) s3) (h5 : s ∈ run (.cap (k + 4) e2) s4) :
    coreStart pos s = s2.pos ∧ coreStop (numCap p.re) s = s3.pos ∧ s.caps[5]? = some (some s2.pos) ∧
      s.caps[2 * (numCap p.re - 1)]? = some (some s3.pos) := by
  have hs : s ∈ run p.re (start p.re prev pos rest) := by
    rw [run_layout h]
    simp only [List.mem_flatMap]
    exact ⟨s1, h1, s2, h2, s3, h3, s4, h4, h5⟩
  have hl : s.caps.length = 2 * (numCap p.re + 1) := run_start_length hs
  rw [h.num] at hl
  have hnum := h.num
  have l1 := (run_adv h1).1
  have l2 := (run_adv h2).1
  have l3 := (runCat_adv h3).1
  have l4 := (run_adv h4).1
  have l5 := (run_adv h5).1
  have k5 : s.caps[5]? = some (some s2.pos) := by
    have q3 := (runCat_keeps (i := 2) (by
      rw [Bool.eq_false_iff]; intro hc; have := h.core _ hc; omega) h3).2
    have q4 := (run_keeps (r := .cap (k + 3) la) (i := 2) (by simp [HasCap, h.la]) h4).2
    have q5 := (run_keeps (r := .cap (k + 4) e2) (i := 2) (by simp [HasCap, h.e2]) h5).2
    have := (run_cap_mem (h.lb 2) h2).2.1 (by omega)
    exact (q5.trans (q4.trans q3)).trans this
  have kA : s.caps[2 * (numCap p.re - 1)]? = some (some s3.pos) := by
    have e : numCap p.re - 1 = k + 3 := by omega
    rw [e]
    have q5 := (run_keeps (r := .cap (k + 4) e2) (i := k + 3) (by simp [HasCap, h.e2]) h5).1
    exact q5.trans ((run_cap_mem (h.la (k + 3)) h4).1 (by omega))
  exact ⟨by simp [coreStart, k5], by simp [coreStop, kA], k5, kA⟩

/-- Five choices, one after another. -/
def Five (A : List (List Nat × Chars)) (oB oM oA oR : Chars → List (List Nat × Chars)) (d1 d2 d3 d4 d5 : List Nat)
    (t1 t2 t3 t4 t5 : Chars) : Prop :=
  (d1, t1) ∈ A ∧ (d2, t2) ∈ oB t1 ∧ (d3, t3) ∈ oM t2 ∧ (d4, t4) ∈ oA t3 ∧ (d5, t5) ∈ oR t4

variable {A : List (List Nat × Chars)} {oB oM oA oR : Chars → List (List Nat × Chars)}

theorem mem_snd {o : List (List Nat × Chars)} {d : List Nat} {t : Chars} (h : (d, t) ∈ o) : t ∈ o.map Prod.snd :=
  List.mem_map.2 ⟨_, h, rfl⟩

theorem ne_flat {o : List (List Nat × Chars)} {d : List Nat} {t : Chars} (h : (d, t) ∈ o) {f : Chars → List Chars} (hf : f t ≠ []) :
    (o.map Prod.snd).flatMap f ≠ [] := by
  intro he
  obtain ⟨y, hy⟩ := List.exists_mem_of_ne_nil _ hf
  have : y ∈ (o.map Prod.snd).flatMap f := List.mem_flatMap.2 ⟨t, mem_snd h, hy⟩
  rw [he] at this
  simp at this

theorem chain (h : Layout p e1 lb core k la e2) {s0 : St}
    (hA : A.Pairwise fun p q => Lt p.1 q.1) (h1 : (run (.cap 1 e1) s0).map St.rest = A.map Prod.snd)
    (hB : ∀ x, (oB x).Pairwise fun p q => Lt p.1 q.1) (h2 : Ord (run (.cap 2 lb)) fun x => (oB x).map Prod.snd)
    (hM : ∀ x, (oM x).Pairwise fun p q => Lt p.1 q.1) (h3 : Ord (runCat core) fun x => (oM x).map Prod.snd)
    (hC : ∀ x, (oA x).Pairwise fun p q => Lt p.1 q.1) (h4 : Ord (run (.cap (k + 3) la)) fun x => (oA x).map Prod.snd)
    (hR : ∀ x, (oR x).Pairwise fun p q => Lt p.1 q.1) (h5 : Ord (run (.cap (k + 4) e2)) fun x => (oR x).map Prod.snd)
    :
    (run p.re s0 = [] → ∀ d1 d2 d3 d4 d5 t1 t2 t3 t4 t5, ¬ Five A oB oM oA oR d1 d2 d3 d4 d5 t1 t2 t3 t4 t5) ∧
    ∀ s, (run p.re s0).head? = some s → ∃ s1 s2 s3 s4 c1 c2 c3 c4 c5, s1 ∈ run (.cap 1 e1) s0 ∧ s2 ∈ run (.cap 2 lb) s1 ∧
      (s3 ∈ runCat core s2 ∧ (s3, c3) ∈ (runCat core s2).zip ((oM s2.rest).map Prod.fst)) ∧
      s4 ∈ run (.cap (k + 3) la) s3 ∧ s ∈ run (.cap (k + 4) e2) s4 ∧
      Five A oB oM oA oR c1 c2 c3 c4 c5 s1.rest s2.rest s3.rest s4.rest s.rest ∧
      ∀ d1 d2 d3 d4 d5 t1 t2 t3 t4 t5, Five A oB oM oA oR d1 d2 d3 d4 d5 t1 t2 t3 t4 t5 →
        d1 ++ (d2 ++ (d3 ++ (d4 ++ d5))) = c1 ++ (c2 ++ (c3 ++ (c4 ++ c5))) ∨
        Lt (c1 ++ (c2 ++ (c3 ++ (c4 ++ c5)))) (d1 ++ (d2 ++ (d3 ++ (d4 ++ d5)))) := by
  have o4 := h4.flatMap h5
  have o3 := h3.flatMap o4
  have o2 := h2.flatMap o3
  have n5 : ∀ {d5 t4 t5}, (d5, t5) ∈ oR t4 → (oR t4).map Prod.snd ≠ [] := fun h => List.ne_nil_of_mem (mem_snd h)
  constructor
  · rintro he d1 d2 d3 d4 d5 t1 t2 t3 t4 t5 ⟨f1, f2, f3, f4, f5⟩
    have e := congrArg (List.map St.rest) he
    rw [run_layout h, List.map_flatMap, List.map_nil] at e
    have e' : (A.map Prod.snd).flatMap (fun x => ((oB x).map Prod.snd).flatMap fun x => ((oM x).map Prod.snd).flatMap fun x =>
        ((oA x).map Prod.snd).flatMap fun x => (oR x).map Prod.snd) = [] := by
      rw [← h1, List.flatMap_map, ← e]
      exact congrArg (List.flatMap · _) (funext fun s => (o2 s).symm)
    exact ne_flat f1 (ne_flat f2 (ne_flat f3 (ne_flat f4 (n5 f5)))) e'
  · intro s hs
    rw [run_layout h] at hs
    obtain ⟨s1, c1, m1, g1, hs, k1⟩ := first o2 hs hA h1
    obtain ⟨s2, c2, m2, g2, hs, k2⟩ := first o3 hs (hB _) (h2 s1)
    obtain ⟨s3, c3, m3, g3, hs, k3⟩ := first o4 hs (hM _) (h3 s2)
    obtain ⟨s4, c4, m4, g4, hs, k4⟩ := first h5 hs (hC _) (h4 s3)
    have hid : Ord (fun s => [s]) fun x => [x] := fun s => rfl
    obtain ⟨s5, c5, m5, g5, hs, k5⟩ := first hid (l := run (.cap (k + 4) e2) s4) (z := s) (by simpa using hs) (hR _) (h5 s4)
    simp only [List.head?_cons, Option.some.injEq] at hs
    subst hs
    refine ⟨s1, s2, s3, s4, c1, c2, c3, c4, c5, m1.1, m2.1, m3, m4.1, m5.1, ⟨g1, g2, g3, g4, g5⟩, ?_⟩
    rintro d1 d2 d3 d4 d5 t1 t2 t3 t4 t5 ⟨f1, f2, f3, f4, f5⟩
    rcases k1 d1 t1 f1 (ne_flat f2 (ne_flat f3 (ne_flat f4 (n5 f5)))) with ⟨rfl, rfl⟩ | hlt
    · rcases k2 d2 t2 f2 (ne_flat f3 (ne_flat f4 (n5 f5))) with ⟨rfl, rfl⟩ | hlt
      · rcases k3 d3 t3 f3 (ne_flat f4 (n5 f5)) with ⟨rfl, rfl⟩ | hlt
        · rcases k4 d4 t4 f4 (n5 f5) with ⟨rfl, rfl⟩ | hlt
          · rcases k5 d5 t5 f5 (by simp) with ⟨rfl, rfl⟩ | hlt
            · exact .inl rfl
            · exact .inr ((((hlt.left _).left _).left _).left _)
          · exact .inr ((((hlt.right _ _).left _).left _).left _)
        · exact .inr (((hlt.right _ _).left _).left _)
      · exact .inr ((hlt.right _ _).left _)
    · exact .inr (hlt.right _ _)

end Chain

/-! ## Wholes -/

theorem Look.chooses_iff {l : Look} {cs : List Nat} {u : List Rune} : l.Chooses cs u ↔ Expr.Chooses l.want cs u := by
  cases l <;> exact Iff.rfl

theorem Look.solid_want {l : Look} (h : l.Solid) : Expr.Solid l.want := by
  cases l with
  | yes a => exact h
  | nothing | no _ => exact trivial

/-- The choices of a whole, in the order of preference. -/
theorem five_iff {w : Whole} (hw : w.Solid) {b : List Rune} {v : Chars} {d1 d2 d3 d4 d5 : List Nat} {t1 t2 t3 t4 t5 : Chars} :
    Five (leftA w.carets b v) (outs w.behind.want) (outs w.mid) (outs w.ahead.want) (rightA w.dollars) d1 d2 d3 d4 d5 t1 t2 t3 t4 t5 ↔
    ∃ e x y z f, v = e ++ t1 ∧ t1 = x ++ t2 ∧ t2 = y ++ t3 ∧ t3 = z ++ t4 ∧ t4 = f ++ t5 ∧
      LeftChoice w.carets d1 b (e.map Prod.fst) ∧ w.behind.Chooses d2 (x.map Prod.fst) ∧ Expr.Chooses w.mid d3 (y.map Prod.fst) ∧
      w.ahead.Chooses d4 (z.map Prod.fst) ∧ RightChoice w.dollars d5 (f.map Prod.fst) (t5.map Prod.fst) := by
  unfold Five
  simp only [(good_left w.carets b).mem, (good_outs (Look.solid_want hw.1)).mem, (good_outs hw.2.1).mem,
    (good_outs (Look.solid_want hw.2.2)).mem, (good_right w.dollars).mem, Look.chooses_iff]
  constructor
  · rintro ⟨⟨e, e1, g1⟩, ⟨x, e2, g2⟩, ⟨y, e3, g3⟩, ⟨z, e4, g4⟩, f, e5, g5⟩
    exact ⟨e, x, y, z, f, e1, e2, e3, e4, e5, g1, g2, g3, g4, g5⟩
  · rintro ⟨e, x, y, z, f, e1, e2, e3, e4, e5, g1, g2, g3, g4, g5⟩
    exact ⟨⟨e, e1, g1⟩, ⟨x, e2, g2⟩, ⟨y, e3, g3⟩, ⟨z, e4, g4⟩, f, e5, g5⟩

/-- The pattern of a whole, as it is run. -/
structure Runs (w : Whole) (p : Pattern) (e1 lb : Re) (core : List Re) (k : Nat) (la e2 : Re) : Prop where
  layout : Layout p e1 lb core k la e2
  left : ∀ b s, s.prev = b.getLast? → (run e1 s).map St.rest = (leftA w.carets b s.rest).map Prod.snd
  behind : Ord (run lb) (rests w.behind.want)
  mid : Ord (runCat core) (rests w.mid)
  ahead : Ord (run la) (rests w.ahead.want)
  right : Ord (run e2) fun x => (rightA w.dollars x).map Prod.snd

section Step

variable {w : Whole} {p : Pattern} {e1 lb la e2 : Re} {core : List Re} {k : Nat}

theorem Runs.chain (r : Runs w p e1 lb core k la e2) (hw : w.Solid) (u v : Chars) :
    let s0 := start p.re (prevAfter none u) (Rx.width u) v
    let F := Five (leftA w.carets (u.map Prod.fst) v) (outs w.behind.want) (outs w.mid) (outs w.ahead.want) (rightA w.dollars)
    (run p.re s0 = [] → ∀ d1 d2 d3 d4 d5 t1 t2 t3 t4 t5, ¬ F d1 d2 d3 d4 d5 t1 t2 t3 t4 t5) ∧
    ∀ s, (run p.re s0).head? = some s → ∃ s1 s2 s3 s4 c1 c2 c3 c4 c5, s1 ∈ run (.cap 1 e1) s0 ∧ s2 ∈ run (.cap 2 lb) s1 ∧
      (s3 ∈ runCat core s2 ∧ (s3, c3) ∈ (runCat core s2).zip ((outs w.mid s2.rest).map Prod.fst)) ∧
      s4 ∈ run (.cap (k + 3) la) s3 ∧ s ∈ run (.cap (k + 4) e2) s4 ∧
      F c1 c2 c3 c4 c5 s1.rest s2.rest s3.rest s4.rest s.rest ∧
      ∀ d1 d2 d3 d4 d5 t1 t2 t3 t4 t5, F d1 d2 d3 d4 d5 t1 t2 t3 t4 t5 →
        d1 ++ (d2 ++ (d3 ++ (d4 ++ d5))) = c1 ++ (c2 ++ (c3 ++ (c4 ++ c5))) ∨
        Lt (c1 ++ (c2 ++ (c3 ++ (c4 ++ c5)))) (d1 ++ (d2 ++ (d3 ++ (d4 ++ d5)))) := by
  refine Expr.chain r.layout ((good_left _ _).sorted _) ?_ (good_outs (Look.solid_want hw.1)).sorted ?_ (good_outs hw.2.1).sorted ?_
    (good_outs (Look.solid_want hw.2.2)).sorted ?_ (good_right _).sorted (ord_cap r.right)
  · rw [run, List.map_map]
    refine r.left _ (setCap 2 (start p.re (prevAfter none u) (Rx.width u) v)) ?_
    have := prevAfter_getLast (b := []) u
    exact this
  · intro s; rw [ord_cap r.behind s]; exact (outs_snd _ _).symm
  · intro s; rw [r.mid s]; exact (outs_snd _ _).symm
  · intro s; rw [ord_cap r.ahead s]; exact (outs_snd _ _).symm

theorem adv_split {s s' : St} (h : Adv s s') {y : Chars} (hy : s.rest = y ++ s'.rest) : s'.pos = s.pos + Rx.width y := by
  obtain ⟨_, l, h1, h2, _⟩ := h
  rw [hy] at h1
  rw [h2, List.append_cancel_right h1]

theorem Runs.step (r : Runs w p e1 lb core k la e2) (hw : w.Solid) {word : Bytes} {o o' : Nat}
    (hb : Boundary word o) {x : Option (List Int)} (hs : findStep p word o = .ok (some (o', x))) :
    ∃ i j k, w.PicksFrom word o i j k ∧ o ≤ i ∧ j < k ∧ Nothing (w.PicksFrom word o) o i ∧ o' = k ∧
      Boundary word k ∧
      ((x = none ∧ vetoes p word j k) ∨ (¬ vetoes p word j k ∧ ∃ g, x = some ((j : Int) :: (k : Int) :: g))) := by
  obtain ⟨pos, s, h1, h2, h3, h4⟩ := findStep_search hs
  obtain ⟨u, v, k1, k2, k3, k4⟩ := searchFrom_first h1
  simp only [Nat.zero_add] at k2
  subst k2
  obtain ⟨s1, s2, s3, s4, c1, c2, c3, c4, c5, a1, a2, ⟨a3, -⟩, a4, a5, f, least⟩ := (r.chain hw u v).2 s k3
  obtain ⟨b1, b2, b3, b4⟩ := layout_marks r.layout a1 a2 a3 a4 a5
  obtain ⟨d, hd, ho⟩ := boundary_split hb
  obtain ⟨le, lx, ly, lz, lf, ee, ex, ey, ez, ef, g1, g2, g3, g4, g5⟩ := (five_iff hw).1 f
  have we : s1.pos = Rx.width u + Rx.width le := adv_split (run_adv a1) ee
  have wx := adv_split (run_adv a2) ex
  have wy := adv_split (runCat_adv a3) ey
  have hv : v = le ++ (lx ++ (ly ++ (lz ++ (lf ++ s.rest)))) := by
    rw [ee, ex, ey, ez, ef]
  have hdrop : decode (word.drop o) = u ++ (le ++ (lx ++ (ly ++ (lz ++ (lf ++ s.rest))))) := by rw [k1, hv]
  have hlt : s2.pos < s3.pos := by
    rw [b1, b2] at h3
    omega
  refine ⟨o + Rx.width u, s2.pos + o, s3.pos + o, ?_, by omega, by omega, ?_, ?_, ?_, ?_⟩
  · refine ⟨u, le, lx, ly, lz, lf, s.rest, _, hdrop, rfl, ?_, ?_, ⟨c1, c2, c3, c4, c5, rfl, g1, g2, g3, g4, g5⟩, ?_⟩
    · rw [bytes_eq, bytes_eq, wx, we]; omega
    · rw [bytes_eq, wy]; omega
    · rintro ds e' x' y' z' f' t' he ⟨d1, d2, d3, d4, d5, rfl, q1, q2, q3, q4, q5⟩
      rcases least d1 d2 d3 d4 d5 _ _ _ _ t' ((five_iff hw).2
        ⟨e', x', y', z', f', hv.trans he, rfl, rfl, rfl, rfl, q1, q2, q3, q4, q5⟩) with h | h
      · rw [h]; exact List.lt_irrefl _
      · exact h.not_lt
  · rintro i j k hi hi' ⟨w0, e0, x0, y0, z0, f0, t0, cs, q1, q2, q3, q4, ⟨d1, d2, d3, d4, d5, rfl, r1, r2, r3, r4, r5⟩, -⟩
    have q10 : w0.length < u.length := by
      rw [bytes_eq] at q2
      obtain ⟨e', h5, h6⟩ := prefix_of_width q1 k1 (by omega)
      rw [h5]
      have := List.length_pos_iff.2 h6
      simp; omega
    refine (r.chain hw w0 (e0 ++ (x0 ++ (y0 ++ (z0 ++ (f0 ++ t0)))))).1 ?_ d1 d2 d3 d4 d5 _ _ _ _ t0
      ((five_iff hw).2 ⟨e0, x0, y0, z0, f0, rfl, rfl, rfl, rfl, rfl, r1, r2, r3, r4, r5⟩)
    have := k4 w0 _ q1 q10
    rwa [Nat.zero_add] at this
  · rw [h2, b2]
  · refine ⟨d ++ u ++ le ++ lx ++ ly, lz ++ (lf ++ s.rest), by rw [hd, hdrop]; simp, ?_⟩
    have : Rx.width (d ++ u ++ le ++ lx ++ ly) = s3.pos + o := by
      simp only [width_append]; rw [wy, wx, we, ← ho]; omega
    exact this.symm
  · have f1 : shift o (toInt ((s.caps[2 * (numCap p.re - 1)]?).getD none)) = ((s3.pos + o : Nat) : Int) := by
      rw [b4, shift_toInt]; rfl
    have f2 : shift o (toInt ((s.caps[5]?).getD none)) = ((s2.pos + o : Nat) : Int) := by
      rw [b3, shift_toInt]; rfl
    rw [f1, f2, b1, b2] at h4
    unfold vetoes
    rcases h4 with ⟨h5, h6⟩ | ⟨h5, h6⟩
    · exact .inl ⟨h5, h6⟩
    · exact .inr ⟨by rw [h5]; simp, _, h6⟩

theorem Runs.none (r : Runs w p e1 lb core k la e2) (hw : w.Solid) {word : Bytes} {o : Nat}
    (hs : findStep p word o = .ok none) {hi : Nat} : Nothing (w.PicksFrom word o) o hi := by
  have h1 := searchFrom_none.1 (findStep_none hs)
  rintro i j k hi hi' ⟨w0, e0, x0, y0, z0, f0, t0, cs, q1, q2, q3, q4, ⟨d1, d2, d3, d4, d5, rfl, r1, r2, r3, r4, r5⟩, -⟩
  refine (r.chain hw w0 (e0 ++ (x0 ++ (y0 ++ (z0 ++ (f0 ++ t0)))))).1 ?_ d1 d2 d3 d4 d5 _ _ _ _ t0
    ((five_iff hw).2 ⟨e0, x0, y0, z0, f0, rfl, rfl, rfl, rfl, rfl, r1, r2, r3, r4, r5⟩)
  have := h1 w0 _ q1
  rwa [Nat.zero_add] at this

theorem Runs.scan (r : Runs w p e1 lb core k la e2) (hw : w.Solid) {word : Bytes} :
    ∀ {fuel o count : Nat} {ms : List (List Int)}, Boundary word o →
    findLoop p word (-1) fuel o count = .ok ms →
    Scan (w.PicksFrom word) (vetoes p word) word.length o ms := by
  intro fuel
  induction fuel with
  | zero => intro o count ms _ hf; simp [findLoop] at hf
  | succ fuel ih =>
    intro o count ms hb hf
    unfold findLoop at hf
    split at hf
    · rw [Go.bind_eq_ok] at hf
      obtain ⟨x, hx, hf⟩ := hf
      split at hf
      · simp at hf; subst hf; exact .done (r.none hw hx)
      · obtain ⟨i, j, k, h1, h2, h3, h4, rfl, h6, h7⟩ := r.step hw hb hx
        rcases h7 with ⟨_, h7⟩ | ⟨_, g, h7⟩
        · exact .vetoed h1 h2 h3 h4 h7 (ih h6 hf)
        · simp at h7
      · rename_i o' m
        rw [Go.bind_eq_ok] at hf
        obtain ⟨ms', hf, hms⟩ := hf
        simp at hms
        subst hms
        obtain ⟨i, j, k, h1, h2, h3, h4, rfl, h6, h7⟩ := r.step hw hb hx
        rcases h7 with ⟨h7, _⟩ | ⟨h7, g, h8⟩
        · simp at h7
        · simp at h8
          subst h8
          exact .found h1 h2 h3 h4 h7 (ih h6 hf)
    · rename_i hlt
      simp at hf
      subst hf
      refine .done ?_
      intro i j k hi hi'
      exact absurd ⟨by omega, .inl (by omega)⟩ hlt

end Step

/-! ## There is one such scan -/

/-- Ways with the least choices are the same up to the end of the expression. -/
theorem parts_unique {w : Whole} (hw : w.Solid) {b : List Rune} {e x y z f t e' x' y' z' f' t' : Chars}
    {c1 c2 c3 c4 c5 d1 d2 d3 d4 d5 : List Nat}
    (hr : e ++ (x ++ (y ++ (z ++ (f ++ t)))) = e' ++ (x' ++ (y' ++ (z' ++ (f' ++ t')))))
    (a5 : LeftChoice w.carets c1 b (e.map Prod.fst) ∧ w.behind.Chooses c2 (x.map Prod.fst) ∧
      Expr.Chooses w.mid c3 (y.map Prod.fst) ∧ w.ahead.Chooses c4 (z.map Prod.fst) ∧
      RightChoice w.dollars c5 (f.map Prod.fst) (t.map Prod.fst))
    (b5 : LeftChoice w.carets d1 b (e'.map Prod.fst) ∧ w.behind.Chooses d2 (x'.map Prod.fst) ∧
      Expr.Chooses w.mid d3 (y'.map Prod.fst) ∧ w.ahead.Chooses d4 (z'.map Prod.fst) ∧
      RightChoice w.dollars d5 (f'.map Prod.fst) (t'.map Prod.fst))
    (na : ¬ d1 ++ (d2 ++ (d3 ++ (d4 ++ d5))) < c1 ++ (c2 ++ (c3 ++ (c4 ++ c5))))
    (nb : ¬ c1 ++ (c2 ++ (c3 ++ (c4 ++ c5))) < d1 ++ (d2 ++ (d3 ++ (d4 ++ d5)))) :
    e = e' ∧ x = x' ∧ c3 = d3 ∧ y = y' := by
  have g := (five_iff hw (b := b) (v := e ++ (x ++ (y ++ (z ++ (f ++ t)))))).2
    ⟨e, x, y, z, f, rfl, rfl, rfl, rfl, rfl, a5⟩
  have g' := (five_iff hw (b := b) (v := e ++ (x ++ (y ++ (z ++ (f ++ t)))))).2
    ⟨e', x', y', z', f', hr, rfl, rfl, rfl, rfl, b5⟩
  obtain ⟨p1, p2, p3, p4, p5⟩ := g
  obtain ⟨q1, q2, q3, q4, q5⟩ := g'
  have s1 := pairwise_cmp ((good_left _ _).sorted _) p1 q1
  simp only [Prod.mk.injEq] at s1
  rcases s1 with ⟨rfl, s1⟩ | s1 | s1
  · rw [← s1] at q2
    have s2 := pairwise_cmp ((good_outs (Look.solid_want hw.1)).sorted _) p2 q2
    simp only [Prod.mk.injEq] at s2
    rcases s2 with ⟨rfl, s2⟩ | s2 | s2
    · rw [← s2] at q3
      have s3 := pairwise_cmp ((good_outs hw.2.1).sorted _) p3 q3
      simp only [Prod.mk.injEq] at s3
      rcases s3 with ⟨rfl, s3⟩ | s3 | s3
      · rw [← s1] at hr
        rw [← s2] at s1
        rw [← s3] at s2
        exact ⟨List.append_cancel_right hr, List.append_cancel_right s1, rfl, List.append_cancel_right s2⟩
      · exact absurd (((s3.right _ _).left _).left _).lt nb
      · exact absurd (((s3.right _ _).left _).left _).lt na
    · exact absurd ((s2.right _ _).left _).lt nb
    · exact absurd ((s2.right _ _).left _).lt na
  · exact absurd (s1.right _ _).lt nb
  · exact absurd (s1.right _ _).lt na

/-- The characters up to a place. -/
theorem until_unique {l v v' r r' : Chars} (h : l = v ++ r) (h' : l = v' ++ r') (hw : Rx.width v = Rx.width v')
    (hl : ∀ {v v' r r' : Chars}, l = v ++ r → l = v' ++ r' → Rx.width v ≤ Rx.width v' → ∃ q, v' = v ++ q) : v = v' := by
  obtain ⟨q, hq⟩ := hl h h' (by omega)
  obtain ⟨q', hq'⟩ := hl h' h (by omega)
  rw [hq', List.append_assoc] at hq
  have : q' ++ q = [] := by simpa using hq
  rw [hq', (List.append_eq_nil_iff.1 this).1, List.append_nil]

theorem picks_unique {w : Whole} (hw : w.Solid) {word : Bytes} {o i j k j' k' : Nat} (h1 : w.PicksFrom word o i j k)
    (h2 : w.PicksFrom word o i j' k') : j = j' ∧ k = k' := by
  obtain ⟨v, e, x, y, z, f, t, cs, a1, a2, a3, a4, ⟨c1, c2, c3, c4, c5, rfl, a5⟩, a6⟩ := h1
  obtain ⟨v', e', x', y', z', f', t', ds, b1, b2, b3, b4, ⟨d1, d2, d3, d4, d5, rfl, b5⟩, b6⟩ := h2
  have hv : v = v' := by
    rw [bytes_eq] at a2 b2
    exact until_unique a1 b1 (by omega) prefix_of_width_le
  subst hv
  rw [a1] at b1
  have hr := List.append_cancel_left b1
  obtain ⟨rfl, rfl, -, rfl⟩ := parts_unique hw hr a5 b5 (a6 _ e' x' y' z' f' t' hr ⟨_, _, _, _, _, rfl, b5⟩)
    (b6 _ e x y z f t hr.symm ⟨_, _, _, _, _, rfl, a5⟩)
  exact ⟨by omega, by omega⟩

theorem picks_bound {w : Whole} {word : Bytes} {o i j k : Nat} (h : w.PicksFrom word o i j k) (hj : j < k) :
    i < word.length := by
  obtain ⟨v, e, x, y, z, f, t, cs, a1, a2, a3, a4, -⟩ := h
  have := congrArg Rx.width a1
  rw [decode_width, List.length_drop] at this
  simp only [width_append] at this
  rw [bytes_eq] at a2 a3 a4
  rw [bytes_eq] at a3
  omega

theorem exists_least : ∀ {L : List (List Nat)}, L ≠ [] → ∃ m ∈ L, ∀ x ∈ L, ¬ x < m
  | [], h => absurd rfl h
  | [a], _ => ⟨a, by simp, by simp⟩
  | a :: b :: L, _ => by
    obtain ⟨m, h1, h2⟩ := exists_least (L := b :: L) (by simp)
    by_cases h : a < m
    · refine ⟨a, by simp, fun x hx => ?_⟩
      rcases List.mem_cons.1 hx with rfl | hx
      · exact List.lt_irrefl _
      · exact fun hlt => h2 x hx (List.lt_trans hlt h)
    · refine ⟨m, by simp [List.mem_cons.1 h1], fun x hx => ?_⟩
      rcases List.mem_cons.1 hx with rfl | hx
      · exact h
      · exact h2 x hx

/-- Where the parts stand one after another, one way is preferred. -/
theorem picks_exists {w : Whole} (hw : w.Solid) {word : Bytes} {o i : Nat} {v e x y z f t : Chars} {cs : List Nat}
    (h1 : decode (word.drop o) = v ++ (e ++ (x ++ (y ++ (z ++ (f ++ t)))))) (h2 : i = o + bytes v)
    (h3 : w.Chooses cs (v.map Prod.fst) (e.map Prod.fst) (x.map Prod.fst) (y.map Prod.fst) (z.map Prod.fst) (f.map Prod.fst)
      (t.map Prod.fst)) : ∃ j k, w.PicksFrom word o i j k := by
  let r := e ++ (x ++ (y ++ (z ++ (f ++ t))))
  let L : List (List Nat) := (leftA w.carets (v.map Prod.fst) r).flatMap fun p1 => (outs w.behind.want p1.2).flatMap fun p2 =>
    (outs w.mid p2.2).flatMap fun p3 => (outs w.ahead.want p3.2).flatMap fun p4 => (rightA w.dollars p4.2).map fun p5 =>
      p1.1 ++ (p2.1 ++ (p3.1 ++ (p4.1 ++ p5.1)))
  have hL : ∀ ds, ds ∈ L ↔ ∃ d1 d2 d3 d4 d5 t1 t2 t3 t4 t5, Five (leftA w.carets (v.map Prod.fst) r) (outs w.behind.want) (outs w.mid)
      (outs w.ahead.want) (rightA w.dollars) d1 d2 d3 d4 d5 t1 t2 t3 t4 t5 ∧ ds = d1 ++ (d2 ++ (d3 ++ (d4 ++ d5))) := by
    intro ds
    simp only [L, List.mem_flatMap, List.mem_map, Prod.exists, Five]
    constructor
    · rintro ⟨d1, t1, m1, d2, t2, m2, d3, t3, m3, d4, t4, m4, d5, t5, m5, rfl⟩
      exact ⟨d1, d2, d3, d4, d5, t1, t2, t3, t4, t5, ⟨m1, m2, m3, m4, m5⟩, rfl⟩
    · rintro ⟨d1, d2, d3, d4, d5, t1, t2, t3, t4, t5, ⟨m1, m2, m3, m4, m5⟩, rfl⟩
      exact ⟨d1, t1, m1, d2, t2, m2, d3, t3, m3, d4, t4, m4, d5, t5, m5, rfl⟩
  have hmem : ∀ ds (e x y z f t : Chars), r = e ++ (x ++ (y ++ (z ++ (f ++ t)))) →
      w.Chooses ds (v.map Prod.fst) (e.map Prod.fst) (x.map Prod.fst) (y.map Prod.fst) (z.map Prod.fst) (f.map Prod.fst)
        (t.map Prod.fst) → ds ∈ L := by
    rintro ds e x y z f t hr ⟨d1, d2, d3, d4, d5, rfl, q⟩
    exact (hL _).2 ⟨d1, d2, d3, d4, d5, _, _, _, _, t, (five_iff hw).2 ⟨e, x, y, z, f, hr, rfl, rfl, rfl, rfl, q⟩, rfl⟩
  obtain ⟨m, m1, m2⟩ := exists_least (List.ne_nil_of_mem (hmem cs e x y z f t rfl h3))
  obtain ⟨d1, d2, d3, d4, d5, t1, t2, t3, t4, t5, hF, rfl⟩ := (hL m).1 m1
  obtain ⟨e', x', y', z', f', k1, k2, k3, k4, k5, q⟩ := (five_iff hw).1 hF
  subst k2 k3 k4 k5
  refine ⟨_, _, v, e', x', y', z', f', _, _, h1.trans (congrArg (v ++ ·) k1), h2, rfl, rfl, ⟨d1, d2, d3, d4, d5, rfl, q⟩, ?_⟩
  intro ds e2 x2 y2 z2 f2 t2 he hc
  exact m2 ds (hmem ds e2 x2 y2 z2 f2 t2 (k1.trans he) hc)

theorem chooses_iff {e : Expr} {u : List Rune} : (∃ cs, Chooses e cs u) ↔ Means e u :=
  ⟨fun ⟨_, h⟩ => means_of_chooses h, chooses_of_means⟩

theorem means_gap {u : List Rune} : Means gap u ↔ (u ≠ [] ∧ ∀ c ∈ u, Blank c) ∨ u = [0x7B, 0x7D] := by
  have one : ∀ c, (∃ p ∈ [(0x09, 0x0A), (0x0C, 0x0D), (0x20, 0x20)], p.1 ≤ c ∧ c ≤ p.2) ↔ Blank c := fun c => blank_iff
  unfold gap
  refine or_congr ?_ ?_
  · constructor
    · rintro ⟨us, h0, rfl, h⟩
      constructor
      · intro he
        cases us with
        | nil => exact h0 rfl
        | cons v us =>
          obtain ⟨c, rfl, _⟩ := h v (by simp)
          simp at he
      · intro c hc
        obtain ⟨v, hv, hc⟩ := List.mem_flatten.1 hc
        obtain ⟨d, rfl, hd⟩ := h v hv
        simp only [List.mem_singleton] at hc
        subst hc
        exact (one c).1 hd
    · rintro ⟨h0, h⟩
      refine ⟨u.map fun c => [c], by simpa using h0, (flatten_map_single u).symm, ?_⟩
      intro v hv
      obtain ⟨c, hc, rfl⟩ := List.mem_map.1 hv
      exact ⟨c, rfl, (one c).2 (h c hc)⟩
  · constructor
    · rintro ⟨v, w, rfl, hv, hw⟩
      rw [show v = [0x7B] from hv, show w = [0x7D] from hw]
      rfl
    · rintro rfl
      exact ⟨[0x7B], [0x7D], rfl, rfl, rfl⟩

theorem left_choice {n : Nat} {b u : List Rune} : (∃ cs, LeftChoice n cs b u) ↔ LeftEdge n b u := by
  match n with
  | 0 => simp [LeftChoice, LeftEdge]
  | 1 =>
    simp only [LeftChoice, LeftEdge, ← means_gap, ← chooses_iff]
    constructor
    · rintro ⟨cs, ⟨_, h1, h2⟩ | ⟨c, _, h⟩⟩
      · exact .inr (.inl ⟨Nat.le_refl _, h1, h2⟩)
      · exact .inr (.inr ⟨trivial, c, h⟩)
    · rintro (⟨h, _⟩ | ⟨_, h1, h2⟩ | ⟨_, c, h⟩)
      · omega
      · exact ⟨[0], .inl ⟨rfl, h1, h2⟩⟩
      · exact ⟨1 :: c, .inr ⟨c, rfl, h⟩⟩
  | n + 2 => simp [LeftChoice, LeftEdge]

theorem right_choice {n : Nat} {u a : List Rune} : (∃ cs, RightChoice n cs u a) ↔ RightEdge n u a := by
  match n with
  | 0 => simp [RightChoice, RightEdge]
  | 1 =>
    simp only [RightChoice, RightEdge, ← means_gap, ← chooses_iff]
    constructor
    · rintro ⟨cs, ⟨_, h1, h2⟩ | ⟨c, _, h⟩⟩
      · exact .inr (.inl ⟨Nat.le_refl _, h1, h2⟩)
      · exact .inr (.inr ⟨trivial, c, h⟩)
    · rintro (⟨h, _⟩ | ⟨_, h1, h2⟩ | ⟨_, c, h⟩)
      · omega
      · exact ⟨[0], .inl ⟨rfl, h1, h2⟩⟩
      · exact ⟨1 :: c, .inr ⟨c, rfl, h⟩⟩
  | n + 2 => simp [RightChoice, RightEdge]

theorem Look.asks_iff {l : Look} {u : List Rune} : (∃ cs, l.Chooses cs u) ↔ l.Asks u := by
  simp only [Look.chooses_iff, Expr.chooses_iff]
  cases l <;> exact Iff.rfl

theorem picks_occurs {w : Whole} {word : Bytes} {o i j k : Nat} (h : w.PicksFrom word o i j k) : w.OccursFrom word o i j k := by
  obtain ⟨v, e, x, y, z, f, t, cs, a1, a2, a3, a4, ⟨c1, c2, c3, c4, c5, -, g1, g2, g3, g4, g5⟩, -⟩ := h
  exact ⟨v, e, x, y, z, f, t, a1, a2, a3, a4, left_choice.1 ⟨_, g1⟩, Look.asks_iff.1 ⟨_, g2⟩, means_of_chooses g3,
    Look.asks_iff.1 ⟨_, g4⟩, right_choice.1 ⟨_, g5⟩⟩

theorem occurs_picks {w : Whole} (hw : w.Solid) {word : Bytes} {o i j k : Nat} (h : w.OccursFrom word o i j k) :
    ∃ j k, w.PicksFrom word o i j k := by
  obtain ⟨v, e, x, y, z, f, t, a1, a2, -, -, g1, g2, g3, g4, g5⟩ := h
  obtain ⟨c1, g1⟩ := left_choice.2 g1
  obtain ⟨c2, g2⟩ := Look.asks_iff.2 g2
  obtain ⟨c3, g3⟩ := chooses_of_means g3
  obtain ⟨c4, g4⟩ := Look.asks_iff.2 g4
  obtain ⟨c5, g5⟩ := right_choice.2 g5
  exact picks_exists hw a1 a2 ⟨c1, c2, c3, c4, c5, rfl, g1, g2, g3, g4, g5⟩

/-- The pattern of a whole runs as laid out. -/
theorem whole_runs {vars : List (Bytes × List Bytes)} {w : Whole} (h : w.Fit vars) {x : Bytes} {p : Pattern} (sh : Shape x p) {rc : Re}
    (h1 : sh.nb = w.carets) (h2 : sh.na = w.dollars) (h3 : sh.lookB = w.behind.bytes) (h4 : sh.lookA = w.ahead.bytes)
    (hno : NoBar (expandEdges sh.core)) (hc : compile (expandEdges sh.core) = .ok rc) (hs : Same w.mid rc) :
    ∃ e1 lb core k la e2, Runs w p e1 lb core k la e2 ∧ ∃ l, rc = mkCat l ∧ core = (l.map (shiftCap 2)).reverse := by
  obtain ⟨rb, b1, _, _, _, b5, b6, _⟩ := Look.pos h.behind
  obtain ⟨ra, a1, _, _, _, a5, a6, _⟩ := Look.pos h.ahead
  obtain ⟨rb', b1', ob⟩ := Look.pos_ord h.behind
  obtain ⟨ra', a1', oa⟩ := Look.pos_ord h.ahead
  rw [b1] at b1'
  rw [a1] at a1'
  cases b1'
  cases a1'
  obtain ⟨r1, r2, core, k, k1, k2, hL, hm⟩ := sh.layout (by rw [h3, expandEdges_plain b5 b6, b1]) hno
    (by rw [h4, expandEdges_plain a5 a6, a1])
  obtain ⟨l, rfl, rfl⟩ := hm rc hc
  rw [h1] at k1
  rw [h2] at k2
  refine ⟨r1, rb, _, k, ra, r2, ⟨hL, fun b s hb => run_left k1 hb, ?_, ?_, ?_, run_right k2⟩, l, rfl, rfl⟩
  · have := ob 0
    rwa [shiftCap_id _ hL.lb] at this
  · intro s
    have := hs.ord 2 s
    rwa [shiftCap_mkCat, run_mkCat] at this
  · have := oa 0
    rwa [shiftCap_id _ hL.la] at this

/-- What is reported is determined. -/
theorem scan_unique {occ : Nat → Nat → Nat → Nat → Prop} {veto : Nat → Nat → Prop} {len : Nat}
    (hu : ∀ {o i j k j' k'}, occ o i j k → occ o i j' k' → j = j' ∧ k = k')
    (hl : ∀ {o i j k}, occ o i j k → j < k → i < len) {lo : Nat} {ms ms' : List (List Int)}
    (h : Scan occ veto len lo ms) (h' : Scan occ veto len lo ms') : ms.map (·.take 2) = ms'.map (·.take 2) := by
  have same : ∀ {o i j k i' j' k'}, occ o i j k → occ o i' j' k' → o ≤ i → o ≤ i' → Nothing (occ o) o i → Nothing (occ o) o i' →
      j = j' ∧ k = k' := by
    intro o i j k i' j' k' a b c d e f
    have : i = i' := by
      rcases Nat.lt_trichotomy i i' with h | h | h
      · exact absurd a (f _ _ _ c h)
      · exact h
      · exact absurd b (e _ _ _ d h)
    subst this
    exact hu a b
  induction h generalizing ms' with
  | done h =>
    cases h' with
    | done => rfl
    | found h1 h2 h3 => exact absurd h1 (h _ _ _ h2 (hl h1 h3))
    | vetoed h1 h2 h3 => exact absurd h1 (h _ _ _ h2 (hl h1 h3))
  | found h1 h2 h3 h4 h5 _ ih =>
    cases h' with
    | done h => exact absurd h1 (h _ _ _ h2 (hl h1 h3))
    | found g1 g2 g3 g4 g5 g6 =>
      obtain ⟨rfl, rfl⟩ := same h1 g1 h2 g2 h4 g4
      simp [ih g6]
    | vetoed g1 g2 g3 g4 g5 g6 =>
      obtain ⟨rfl, rfl⟩ := same h1 g1 h2 g2 h4 g4
      exact absurd g5 h5
  | vetoed h1 h2 h3 h4 h5 _ ih =>
    cases h' with
    | done h => exact absurd h1 (h _ _ _ h2 (hl h1 h3))
    | found g1 g2 g3 g4 g5 g6 =>
      obtain ⟨rfl, rfl⟩ := same h1 g1 h2 g2 h4 g4
      exact absurd h5 g5
    | vetoed g1 g2 g3 g4 g5 g6 =>
      obtain ⟨rfl, rfl⟩ := same h1 g1 h2 g2 h4 g4
      exact ih g6

end Verif.Spec.Expr
