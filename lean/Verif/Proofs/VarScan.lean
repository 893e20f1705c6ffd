import Verif.Spec.Vars
import Verif.Proofs.Shape
import Verif.Proofs.NoRep

/-! `reVar` finds the vars written in a pattern. -/

namespace Verif.Hre

open Verif.Rx Verif.Spec.Hre Verif.Spec.Vars

/-- The matches of `reVar`. -/
def spots : Nat → List Item → List (List Int)
  | _, [] => []
  | i, .text t :: is => spots (i + t.length) is
  | i, .var n _ :: is =>
    [(i : Int), ((i + n.length + 2 : Nat) : Int), ((i + 1 : Nat) : Int), ((i + 1 + n.length : Nat) : Int)] ::
      spots (i + n.length + 2) is

theorem run_reVar_nil {s : St} (h : ∀ x, s.rest.head? = some x → x.1 ≠ 0x3C) : run reVar s = [] := by
  have : one (· == 0x3C) s = [] := one_eq_nil fun x hx => by simpa using h x hx
  simp [run, runCat, reVar, lits_single, this]

theorem run_reVar_less {s s' : St} (h : s' ∈ run reVar s) : s'.rest.length < s.rest.length := by
  simp only [run, runCat, reVar, lits_single, List.mem_flatMap, List.mem_map, List.mem_singleton] at h
  obtain ⟨s1, h1, s2, ⟨s3, h3, rfl⟩, s4, h4, rfl⟩ := h
  obtain ⟨a, _, e1, _⟩ := one_after h1
  obtain ⟨b, _, e2, _⟩ := one_after h4
  obtain ⟨u, _, e3, _⟩ := plusLoop_one_mem h3
  rw [e1]
  simp [setCap] at e2 e3
  rw [e3, e2]
  simp; omega

/-- The lazy loop of `reVar` ends at the first `>`. -/
theorem lazy_head {f : St → St} (hf : ∀ s, (f s).rest = s.rest ∧ (f s).pos = s.pos ∧ (f s).prev = s.prev)
    {u v : List (Rune × Nat)} {n : Nat} (hu : u ≠ []) (hn : ∀ x ∈ u, x.1 ≠ 0x3E ∧ x.1 ≠ 0x0A) :
    ∀ {fuel : Nat} {s : St}, s.rest = u ++ (0x3E, n) :: v → u.length < fuel + 1 →
      ∃ t, (plusLoop false (one (· != 0x0A)) fuel s).flatMap (fun s' => one (· == 0x3E) (f s')) =
        one (· == 0x3E) (f (s.after u ((0x3E, n) :: v))) ++ t := by
  induction u with
  | nil => exact absurd rfl hu
  | cons a u ih =>
    intro fuel s hs hl
    obtain ⟨c, m⟩ := a
    have hc : c ≠ 0x3E ∧ c ≠ 0x0A := hn (c, m) (by simp)
    have h1 : one (· != 0x0A) s = [s.after [(c, m)] (u ++ (0x3E, n) :: v)] := by
      simp [one, hs, hc.2, St.after, prevAfter, width]
    obtain ⟨g, rfl⟩ | hz : (∃ g, fuel = g + 1) ∨ fuel = 0 := by
      cases fuel with
      | zero => exact .inr rfl
      | succ g => exact .inl ⟨g, rfl⟩
    · have hlt : (s.after [(c, m)] (u ++ (0x3E, n) :: v)).rest.length < s.rest.length := by
        rw [hs]; simp [St.after]
      simp only [plusLoop, h1, List.flatMap_cons, List.flatMap_nil, List.append_nil, hlt, if_true]
      rw [if_neg (by simp), List.flatMap_cons]
      by_cases he : u = []
      · subst he
        exact ⟨_, rfl⟩
      · have e0 : one (· == 0x3E) (f (s.after [(c, m)] (u ++ (0x3E, n) :: v))) = [] := by
          refine one_eq_nil ?_
          rw [(hf _).1]
          intro x hx
          cases u with
          | nil => exact absurd rfl he
          | cons b u =>
            simp [St.after] at hx
            subst hx
            simpa using (hn b (by simp)).1
        rw [e0, List.nil_append]
        obtain ⟨t, ht⟩ := ih he (fun x hx => hn x (by simp [hx])) (fuel := g)
          (s := s.after [(c, m)] (u ++ (0x3E, n) :: v)) rfl (by simp at hl; omega)
        refine ⟨t, ht.trans ?_⟩
        congr 3
        simp [St.after, prevAfter, width, Nat.add_assoc]
    · subst hz
      simp at hl

/-- `reVar` at a var. -/
theorem run_reVar_head {name : Bytes} {v : List (Rune × Nat)} {prev : Option Rune} {pos : Nat} (h0 : name ≠ [])
    (h1 : 0x3E ∉ name) (h2 : 0x0A ∉ name) :
    ∃ s t, run reVar (start reVar prev pos ((0x3C, 1) :: (decode name ++ (0x3E, 1) :: v))) = s :: t ∧
      s.pos = pos + name.length + 2 ∧ s.rest = v ∧
      s.caps = [none, none, some (pos + 1), some (pos + 1 + name.length)] := by
  have hd : decode name ≠ [] := fun h => h0 ((decode_eq_nil_iff name).1 h)
  have hn : ∀ x ∈ decode name, x.1 ≠ 0x3E ∧ x.1 ≠ 0x0A := by
    intro x hx
    constructor <;> intro he
    · exact h1 (mem_of_runes_ascii (c := 0x3E) (by decide) (List.mem_map.2 ⟨x, hx, he⟩))
    · exact h2 (mem_of_runes_ascii (c := 0x0A) (by decide) (List.mem_map.2 ⟨x, hx, he⟩))
  let s1 : St := ⟨some 0x3C, pos + 1, decode name ++ (0x3E, 1) :: v, [none, none, some (pos + 1), none]⟩
  have hf : ∀ s : St, (setCap 3 s).rest = s.rest ∧ (setCap 3 s).pos = s.pos ∧ (setCap 3 s).prev = s.prev :=
    fun _ => ⟨rfl, rfl, rfl⟩
  obtain ⟨t, ht⟩ := lazy_head hf hd hn (fuel := s1.rest.length) (s := s1) rfl (by simp [s1]; omega)
  have hw : width (decode name) = name.length := decode_width name
  refine ⟨⟨some 0x3E, pos + name.length + 2, v, [none, none, some (pos + 1), some (pos + 1 + name.length)]⟩,
    t, ?_, rfl, rfl, rfl⟩
  have e : run reVar (start reVar prev pos ((0x3C, 1) :: (decode name ++ (0x3E, 1) :: v))) =
      (plusLoop false (one (· != 0x0A)) s1.rest.length s1).flatMap (fun s' => one (· == 0x3E) (setCap 3 s')) := by
    have r0 : one (· == 0x3C) (start reVar prev pos ((0x3C, 1) :: (decode name ++ (0x3E, 1) :: v))) =
        [⟨some 0x3C, pos + 1, decode name ++ (0x3E, 1) :: v, [none, none, none, none]⟩] := rfl
    show run (.cat [.lit [0x3C], .cap 1 (.plus false .anyNotNL), .lit [0x3E]]) _ = _
    simp only [run, runCat, lits_single]
    rw [r0]
    simp only [List.flatMap_cons, List.flatMap_nil, List.append_nil]
    simp only [List.flatMap_map, List.flatMap_singleton']
    rfl
  rw [e, ht]
  simp [one, setCap, St.after, s1, hw]
  omega

theorem findAll_skip {l rest : List (Rune × Nat)} (h : ∀ x ∈ l, x.1 ≠ 0x3C) {fuel : Nat} {prev : Option Rune}
    {pos : Nat} : findAllFrom reVar (fuel + 1) prev pos (l ++ rest) =
      findAllFrom reVar (fuel + 1) (prevAfter prev l) (pos + width l) rest := by
  induction l generalizing prev pos with
  | nil => simp [prevAfter, width]
  | cons a l ih =>
    obtain ⟨c, n⟩ := a
    rw [List.cons_append, findAllFrom_skip (run_reVar_nil (by
        intro x hx; simp [start] at hx; subst hx; exact h (c, n) (by simp)))
      (fun p s hs => searchFrom_rest (fun _ _ => run_reVar_less) _ _ _ _ _ hs),
      ih fun x hx => h x (by simp [hx])]
    simp [width, prevAfter, Nat.add_assoc]

theorem findAll_vars {vars : List (Bytes × List Bytes)} : ∀ {items : List Item}, (∀ it ∈ items, it.Defined vars) →
    ∀ {fuel : Nat} {prev : Option Rune} {pos : Nat}, (decode (written items)).length < fuel →
      findAllFrom reVar fuel prev pos (decode (written items)) = spots pos items := by
  intro items
  induction items with
  | nil =>
    intro _ fuel prev pos hf
    obtain ⟨fuel, rfl⟩ : ∃ g, fuel = g + 1 := ⟨fuel - 1, by omega⟩
    have : run reVar (start reVar prev pos []) = [] := run_reVar_nil (by simp [start])
    simp [written, decode_nil, findAllFrom, searchFrom, this, spots]
  | cons it items ih =>
    intro h fuel prev pos hf
    have hi := h it (by simp)
    have ht := fun x hx => h x (List.mem_cons_of_mem _ hx)
    obtain ⟨fuel, rfl⟩ : ∃ g, fuel = g + 1 := ⟨fuel - 1, by omega⟩
    cases it with
    | text t =>
      obtain ⟨hv, hl⟩ := hi
      rw [written, decode_append hv, List.length_append] at hf
      have hw : width (decode t) = t.length := decode_width t
      rw [written, decode_append hv, findAll_skip, ih ht (by omega), hw, spots]
      intro x hx he
      exact hl (mem_of_runes_ascii (c := 0x3C) (by decide) (List.mem_map.2 ⟨x, hx, he⟩))
    | var n vals =>
      obtain ⟨hv, hn, _, h1, h2, _⟩ := hi
      have hd : decode (written (.var n vals :: items)) =
          (0x3C, 1) :: (decode n ++ (0x3E, 1) :: decode (written items)) := by
        rw [written, decode_cons_ascii (by decide), decode_append hv, decode_cons_ascii (by decide)]
        rfl
      rw [hd] at hf ⊢
      obtain ⟨s, t, e1, e2, e3, e4⟩ := run_reVar_head (v := decode (written items)) (prev := prev) (pos := pos) hn h1 h2
      simp only [findAllFrom, searchFrom, e1, e2, e3, subs, e4]
      rw [if_pos (by simp; omega), ih ht (by simp at hf; omega)]
      simp [spots, toInt]

/-- The pattern with its vars expanded. -/
def expanded : List Item → Bytes
  | [] => []
  | .text t :: is => t ++ expanded is
  | .var _ vals :: is => varGroup vals ++ expanded is

/-- The values of the vars. -/
def valsOf : List Item → List (List Bytes)
  | [] => []
  | .text _ :: is => valsOf is
  | .var _ vals :: is => vals :: valsOf is

theorem dropWhile_not {α : Type} {p : α → Bool} {l : List α} (h : ∀ x ∈ l, p x = false) : l.dropWhile p = l := by
  cases l with
  | nil => rfl
  | cons a l => rw [List.dropWhile_cons, if_neg (by simp [h a])]

theorem getVar_written {vars : List (Bytes × List Bytes)} {n : Bytes} {vals : List Bytes}
    (h1 : 0x3C ∉ n) (h2 : 0x3E ∉ n) (h3 : n ≠ []) (h : vars.lookup n = some vals) :
    getVar (0x3C :: (n ++ [0x3E])) vars = vals := by
  have hc : ∀ x ∈ n, (x == 0x3C || x == 0x3E) = false := by
    intro x hx
    simp only [Bool.or_eq_false_iff, beq_eq_false_iff_ne]
    exact ⟨fun he => h1 (he ▸ hx), fun he => h2 (he ▸ hx)⟩
  have ht : trim (fun c => c == 0x3C || c == 0x3E) (0x3C :: (n ++ [0x3E])) = n := by
    unfold trim
    rw [List.dropWhile_cons, if_pos (by decide)]
    have e1 : (n ++ [(0x3E : UInt8)]).dropWhile (fun c => c == 0x3C || c == 0x3E) = n ++ [0x3E] := by
      cases n with
      | nil => exact absurd rfl h3
      | cons a n => rw [List.cons_append, List.dropWhile_cons, if_neg (by simpa using hc a (by simp))]
    rw [e1, List.reverse_append, List.reverse_singleton, List.singleton_append, List.dropWhile_cons, if_pos (by decide),
      dropWhile_not (by intro x hx; exact hc x (List.mem_reverse.1 hx)), List.reverse_reverse]
  rw [getVar, ht, h]
  rfl

theorem splice_vars {vars : List (Bytes × List Bytes)} : ∀ {items : List Item}, (∀ it ∈ items, it.Defined vars) →
    ∀ (pre mid : Bytes), spliceMatches (fun v => varGroup (getVar v vars)) (pre ++ (mid ++ written items)) pre.length
      (spots (pre.length + mid.length) items) = mid ++ expanded items := by
  intro items
  induction items with
  | nil => intro _ pre mid; simp [spots, spliceMatches, written, expanded]
  | cons it items ih =>
    intro h pre mid
    have hi := h it (by simp)
    have ht := fun x hx => h x (List.mem_cons_of_mem _ hx)
    cases it with
    | text t =>
      have := ih ht pre (mid ++ t)
      simpa [written, spots, expanded, Nat.add_assoc] using this
    | var n vals =>
      obtain ⟨hv, hn, h0, h1, h2, hl, _⟩ := hi
      have := ih ht (pre ++ (mid ++ 0x3C :: (n ++ [0x3E]))) []
      simp only [spots, spliceMatches, List.headD_cons, List.getD_cons_succ, List.getD_cons_zero, Int.toNat_natCast,
        written, expanded]
      have e1 : ((pre ++ (mid ++ 0x3C :: (n ++ 0x3E :: written items))).drop pre.length).take
          (pre.length + mid.length - pre.length) = mid := by
        rw [List.drop_left, Nat.add_sub_cancel_left, List.take_left]
      have e2 : ((pre ++ (mid ++ 0x3C :: (n ++ 0x3E :: written items))).drop (pre.length + mid.length)).take
          (pre.length + mid.length + n.length + 2 - (pre.length + mid.length)) = 0x3C :: (n ++ [0x3E]) := by
        rw [show pre ++ (mid ++ 0x3C :: (n ++ 0x3E :: written items)) =
            (pre ++ mid) ++ (0x3C :: (n ++ [0x3E]) ++ written items) by simp,
          ← List.length_append, List.drop_left,
          show (pre ++ mid).length + n.length + 2 - (pre ++ mid).length = (0x3C :: (n ++ [0x3E])).length by simp; omega,
          List.take_left]
      rw [e1, e2, getVar_written h0 h1 hn hl, List.append_assoc]
      congr 2
      simp only [List.length_append, List.length_cons, List.length_nil, List.append_assoc,
        List.cons_append, List.nil_append, Nat.add_zero, Nat.zero_add] at this
      rw [show pre.length + (mid.length + (n.length + 1 + 1)) = pre.length + mid.length + n.length + 2 by omega] at this
      exact this

theorem used_vars {vars : List (Bytes × List Bytes)} : ∀ {items : List Item}, (∀ it ∈ items, it.Defined vars) →
    ∀ (pre : Bytes), (spots pre.length items).map (fun m => getVar (matchText (pre ++ written items) m) vars) =
      valsOf items := by
  intro items
  induction items with
  | nil => intro _ pre; rfl
  | cons it items ih =>
    intro h pre
    have hi := h it (by simp)
    have ht := fun x hx => h x (List.mem_cons_of_mem _ hx)
    cases it with
    | text t =>
      have := ih ht (pre ++ t)
      simpa [written, spots, valsOf] using this
    | var n vals =>
      obtain ⟨hv, hn, h0, h1, h2, hl, _⟩ := hi
      have := ih ht (pre ++ 0x3C :: (n ++ [0x3E]))
      simp only [spots, List.map_cons, valsOf]
      have e1 : matchText (pre ++ written (.var n vals :: items)) [(pre.length : Int),
          ((pre.length + n.length + 2 : Nat) : Int), ((pre.length + 1 : Nat) : Int),
          ((pre.length + 1 + n.length : Nat) : Int)] = 0x3C :: (n ++ [0x3E]) := by
        have := substr_span pre (0x3C :: (n ++ [0x3E])) (written items)
        simp only [matchText, List.headD_cons, List.getD_cons_succ, List.getD_cons_zero, written]
        rw [← this]
        simp [Nat.add_assoc]
      rw [e1, getVar_written h0 h1 hn hl]
      congr 1
      rw [← this]
      simp [written, Nat.add_assoc]

theorem length_le_width {l : List (Rune × Nat)} (h : ∀ x ∈ l, 1 ≤ x.2) : l.length ≤ width l := by
  induction l with
  | nil => simp
  | cons a l ih =>
    have h1 := h a (by simp)
    have h2 := ih fun x hx => h x (by simp [hx])
    simp only [width, List.map_cons, List.sum_cons, List.length_cons] at h2 ⊢
    omega

theorem decode_length_le (w : Bytes) : (decode w).length ≤ w.length := by
  have h1 := length_le_width (decode_width_pos w)
  rwa [decode_width] at h1

theorem findAll_written {vars : List (Bytes × List Bytes)} {items : List Item} (h : ∀ it ∈ items, it.Defined vars) :
    findAll reVar (written items) = spots 0 items :=
  findAll_vars h (by have := decode_length_le (written items); omega)

theorem expandVars_written {vars : List (Bytes × List Bytes)} {items : List Item} (h : ∀ it ∈ items, it.Defined vars) :
    expandVars (written items) vars = (expanded items, valsOf items) := by
  unfold expandVars replaceAllFunc
  rw [findAll_written h]
  have h1 := splice_vars h [] []
  have h2 := used_vars h []
  simp only [List.nil_append, List.length_nil, Nat.add_zero] at h1 h2
  rw [h1, h2]

/-- The parts of a replacement after some text. -/
def partsOf : Bytes → List Item → List RPart
  | acc, [] => plainPart acc
  | acc, .text t :: is => partsOf (acc ++ t) is
  | acc, .var _ vals :: is => plainPart acc ++ .toVar vals :: partsOf [] is

theorem rParts_written {vars : List (Bytes × List Bytes)} : ∀ {items : List Item}, (∀ it ∈ items, it.Defined vars) →
    ∀ (pre acc : Bytes), rParts (pre ++ (acc ++ written items)) vars pre.length
      (spots (pre.length + acc.length) items) = partsOf acc items := by
  intro items
  induction items with
  | nil => intro _ pre acc; simp [spots, rParts, written, partsOf]
  | cons it items ih =>
    intro h pre acc
    have hi := h it (by simp)
    have ht := fun x hx => h x (List.mem_cons_of_mem _ hx)
    cases it with
    | text t =>
      have := ih ht pre (acc ++ t)
      simpa [written, spots, partsOf, Nat.add_assoc] using this
    | var n vals =>
      obtain ⟨hv, hn, h0, h1, h2, hl, _⟩ := hi
      have := ih ht (pre ++ (acc ++ 0x3C :: (n ++ [0x3E]))) []
      have e1 : ((pre ++ (acc ++ written (.var n vals :: items))).drop pre.length).take
          (pre.length + acc.length - pre.length) = acc := by
        rw [List.drop_left, Nat.add_sub_cancel_left, List.take_left]
      have e2 : matchText (pre ++ (acc ++ written (.var n vals :: items))) [((pre.length + acc.length : Nat) : Int),
          ((pre.length + acc.length + n.length + 2 : Nat) : Int), ((pre.length + acc.length + 1 : Nat) : Int),
          ((pre.length + acc.length + 1 + n.length : Nat) : Int)] = 0x3C :: (n ++ [0x3E]) := by
        have := substr_span (pre ++ acc) (0x3C :: (n ++ [0x3E])) (written items)
        simp only [matchText, List.headD_cons, List.getD_cons_succ, List.getD_cons_zero, written]
        rw [← this]
        simp [Nat.add_assoc]
      simp only [spots, rParts, List.headD_cons, List.getD_cons_succ, List.getD_cons_zero, Int.toNat_natCast,
        partsOf]
      rw [e1, e2, getVar_written h0 h1 hn hl]
      congr 2
      simp only [List.length_append, List.length_cons, List.length_nil, List.append_assoc,
        List.cons_append, List.nil_append, Nat.add_zero, Nat.zero_add] at this
      rw [show pre.length + (acc.length + (n.length + 1 + 1)) = pre.length + acc.length + n.length + 2 by omega] at this
      exact this

theorem expandMacros_nil (e : Bytes) : expandMacros e [] = e := by
  unfold expandMacros replacePairs
  induction e with
  | nil => rfl
  | cons c e ih => simpa [replaceFrom, lookupKey] using ih

theorem newRPattern_parts {vars : List (Bytes × List Bytes)} {items : List Item} (h : ∀ it ∈ items, it.Defined vars) :
    (newRPattern (written items) [] vars).parts = partsOf [] items := by
  have := rParts_written h [] []
  simp only [newRPattern, expandMacros_nil, findAll_written h]
  simpa using this

end Verif.Hre
