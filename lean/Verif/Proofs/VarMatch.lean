import Verif.Proofs.VarFind
import Verif.Proofs.Leftmost
import Verif.Proofs.Replace

/-! The matches of a pattern of plain text and vars. -/

namespace Verif.Hre

open Verif.Rx Verif.Spec.Hre Verif.Spec.Vars

variable {vars : List (Bytes × List Bytes)} {items : List Item}

theorem matches_skip (items : List Item) : ∀ (k i : Nat) (w : Bytes),
    matches_ items i k w = matches_ items (i + k) 0 (w.drop k)
  | 0, i, w => by simp
  | k + 1, i, [] => by simp [matches_]
  | k + 1, i, c :: w => by
    rw [matches_, matches_skip items k (i + 1) w, List.drop_succ_cons]
    congr 1
    omega

theorem rewritten_skip (items tos : List Item) : ∀ (k : Nat) (w : Bytes),
    rewritten items tos k w = rewritten items tos 0 (w.drop k)
  | 0, w => by simp
  | k + 1, [] => by simp [rewritten]
  | k + 1, c :: w => by rw [rewritten, rewritten_skip items tos k w, List.drop_succ_cons]

theorem matches_cons_none {i : Nat} {c : UInt8} {w : Bytes} (h : ways items (c :: w) = []) :
    matches_ items i 0 (c :: w) = matches_ items (i + 1) 0 w := by
  rw [matches_, h]

theorem matches_some {i : Nat} {w : Bytes} {vs : List Bytes} {vss : List (List Bytes)} (h : ways items w = vs :: vss)
    (hr : reading items vs ≠ []) (hw : w ≠ []) :
    matches_ items i 0 w = report items i vs ::
      matches_ items (i + (reading items vs).length) 0 (w.drop (reading items vs).length) := by
  have hl : 0 < (reading items vs).length := List.length_pos_iff.2 hr
  cases w with
  | nil => exact absurd rfl hw
  | cons c w =>
    rw [matches_, h]
    simp only
    rw [matches_skip]
    obtain ⟨n, hn⟩ : ∃ n, (reading items vs).length = n + 1 := ⟨_, (Nat.succ_pred_eq_of_pos hl).symm⟩
    rw [hn, List.drop_succ_cons, Nat.add_sub_cancel, show i + 1 + n = i + (n + 1) by omega]

theorem matches_conts (h : ∀ it ∈ items, it.Simple vars) (hs : ∃ it ∈ items, it.Solid) :
    ∀ (cs : Bytes), (∀ c ∈ cs, isCont c = true) → ∀ (i : Nat) (w : Bytes),
      matches_ items i 0 (cs ++ w) = matches_ items (i + cs.length) 0 w
  | [], _, i, w => by simp
  | c :: cs, hc, i, w => by
    rw [List.cons_append, matches_cons_none (no_ways_cont h hs (hc c (by simp)) _),
      matches_conts h hs cs (fun c h => hc c (by simp [h])), List.length_cons]
    congr 1
    omega

/-- The first match. -/
theorem search_items (h : ∀ it ∈ items, it.Simple vars) (hs : ∃ it ∈ items, it.Solid) :
    ∀ (rs : List Rune), (∀ r ∈ rs, validRune r = true) → ∀ (prev : Option Rune) (pos : Nat),
      (searchFrom (reOf items) (decode (encode rs)) prev pos = none ∧ ∀ o, matches_ items o 0 (encode rs) = []) ∨
      ∃ u v vs vss s, encode rs = u ++ v ∧ ValidUtf8 u ∧ ValidUtf8 v ∧ ways items v = vs :: vss ∧
        searchFrom (reOf items) (decode (encode rs)) prev pos = some (pos + u.length, s) ∧
        s.pos = pos + u.length + (reading items vs).length ∧
        s.caps.map toInt = [-1, -1, ((pos + u.length : Nat) : Int), ((pos + u.length : Nat) : Int),
            ((pos + u.length : Nat) : Int), ((pos + u.length : Nat) : Int)] ++ places (pos + u.length) items vs ++
          List.replicate 4 ((pos + u.length + (reading items vs).length : Nat) : Int) ∧
        ∀ o, matches_ items o 0 (encode rs) = matches_ items (o + u.length) 0 v := by
  intro rs
  induction rs with
  | nil =>
    intro _ prev pos
    left
    have := (run_reOf h ValidUtf8.nil prev pos).1 (no_ways_nil h hs)
    rw [decode_nil] at this
    exact ⟨by rw [encode_nil, decode_nil, searchFrom, this]; rfl, fun o => rfl⟩
  | cons r rs ih =>
    intro hv prev pos
    have hr := hv r (by simp)
    have hrs := fun x hx => hv x (List.mem_cons_of_mem _ hx)
    have hw : ValidUtf8 (encode (r :: rs)) := encode_valid hv
    have hd : decode (encode (r :: rs)) = (r, (encodeRune r).length) :: decode (encode rs) := by
      rw [encode_cons, decode_encodeRune_append hr]
    cases hways : ways items (encode (r :: rs)) with
    | cons vs vss =>
      right
      obtain ⟨s, ss, h1, h2, h3⟩ := (run_reOf h hw prev pos).2 vs vss hways
      refine ⟨[], _, vs, vss, s, rfl, ValidUtf8.nil, hw, hways, ?_, h2, h3, fun o => rfl⟩
      rw [hd] at h1 ⊢
      rw [searchFrom, h1]
      rfl
    | nil =>
      have h1 := (run_reOf h hw prev pos).1 hways
      rw [hd] at h1
      have hm : ∀ o, matches_ items o 0 (encode (r :: rs)) =
          matches_ items (o + (encodeRune r).length) 0 (encode rs) := by
        intro o
        rw [encode_cons] at hways ⊢
        cases he : encodeRune r with
        | nil => exact absurd he (encodeRune_ne_nil r)
        | cons c cs =>
          rw [he] at hways
          have hc : ∀ c ∈ cs, isCont c = true := by
            have := encodeRune_tail_cont r
            rw [he] at this
            exact this
          rw [List.cons_append] at hways ⊢
          rw [matches_cons_none hways, matches_conts h hs cs hc, List.length_cons]
          congr 1
          omega
      have hsf : searchFrom (reOf items) (decode (encode (r :: rs))) prev pos =
          searchFrom (reOf items) (decode (encode rs)) (some r) (pos + (encodeRune r).length) := by
        rw [hd, searchFrom, h1]
      rcases ih hrs (some r) (pos + (encodeRune r).length) with ⟨g1, g2⟩ | ⟨u, v, vs, vss, s, g1, g2, g3, g4, g5, g6, g7, g8⟩
      · left
        exact ⟨hsf.trans g1, fun o => (hm o).trans (g2 _)⟩
      · right
        have e : pos + (encodeRune r ++ u).length = pos + (encodeRune r).length + u.length := by
          rw [List.length_append]; omega
        refine ⟨encodeRune r ++ u, v, vs, vss, s, by rw [encode_cons, g1, List.append_assoc],
          (encodeRune_validUtf8 r).append g2, g3, g4, ?_, ?_, ?_, ?_⟩
        · rw [hsf, g5, e]
        · rw [g6, e]
        · rw [g7, e]
        · intro o
          rw [hm, g8, List.length_append]
          congr 1
          omega

theorem shift_nat (k n : Nat) : shift k (n : Int) = ((n + k : Nat) : Int) := shift_toInt k (some n)

theorem shift_places (k : Nat) : ∀ (items : List Item) (i : Nat) (vs : List Bytes),
    (places i items vs).map (shift k) = places (i + k) items vs
  | [], _, _ => rfl
  | .text t :: is, i, vs => by
    rw [places, places, shift_places k is]
    congr 1
    omega
  | .var _ _ :: is, i, [] => rfl
  | .var _ _ :: is, i, v :: vs => by
    rw [places, places, List.map_cons, List.map_cons, shift_places k is, shift_nat, shift_nat,
      show i + v.length + k = i + k + v.length by omega]

/-- The patterns made by `newPattern_simple`. -/
def patOf (items : List Item) (letters : List Rune) : Pattern :=
  ⟨written items, reOf items, none, none, 0, 0, letters, valsOf items⟩

theorem findStep_of_none {p : Pattern} {word : Bytes} {o : Nat} (h : findSubmatch p.re (word.drop o) = none) :
    findStep p word o = .ok none := by
  unfold findStep
  rw [h]

theorem findStep_of_some {p : Pattern} {word : Bytes} {o : Nat} {m P : List Int} {a b : Nat}
    (h : findSubmatch p.re (word.drop o) = some m)
    (hm : m.map (fun i : Int => if i ≠ -1 then i + (o : Int) else i) =
      [(a : Int), (b : Int), (a : Int), (a : Int), (a : Int), (a : Int)] ++ P ++ List.replicate 4 (b : Int))
    (hab : a ≠ b) (h1 : p.negA = none) (h2 : p.negB = none) :
    findStep p word o = .ok (some (b, some ((a : Int) :: (b : Int) :: P))) := by
  unfold findStep
  rw [h]
  simp only
  rw [hm]
  have hl : ([(a : Int), (b : Int), (a : Int), (a : Int), (a : Int), (a : Int)] ++ P ++ List.replicate 4 (b : Int)).length
    = P.length + 10 := by simp
  have e4 : index ([(a : Int), (b : Int), (a : Int), (a : Int), (a : Int), (a : Int)] ++ P ++ List.replicate 4 (b : Int))
      (P.length + 10 - 4) = .ok (b : Int) := by
    refine index_ok ?_
    rw [List.getElem?_append_right (by simp)]
    have : P.length + 10 - 4 - ([(a : Int), (b : Int), (a : Int), (a : Int), (a : Int), (a : Int)] ++ P).length = 0 := by
      simp
    rw [this]
    rfl
  have e5 : index ([(a : Int), (b : Int), (a : Int), (a : Int), (a : Int), (a : Int)] ++ P ++ List.replicate 4 (b : Int))
      5 = .ok (a : Int) := rfl
  have e0 : index ([(a : Int), (b : Int), (a : Int), (a : Int), (a : Int), (a : Int)] ++ P ++ List.replicate 4 (b : Int))
      0 = .ok (a : Int) := rfl
  have e1 : index ([(a : Int), (b : Int), (a : Int), (a : Int), (a : Int), (a : Int)] ++ P ++ List.replicate 4 (b : Int))
      1 = .ok (b : Int) := rfl
  have ed : (([(a : Int), (b : Int), (a : Int), (a : Int), (a : Int), (a : Int)] ++ P ++ List.replicate 4 (b : Int)).drop
      6).take (P.length + 10 - 4 - 6) = P := by
    have : ([(a : Int), (b : Int), (a : Int), (a : Int), (a : Int), (a : Int)] ++ P ++ List.replicate 4 (b : Int)).drop 6 =
      P ++ List.replicate 4 (b : Int) := rfl
    rw [this, show P.length + 10 - 4 - 6 = P.length by omega, List.take_left]
  rw [if_neg (by rw [hl]; omega)]
  unfold pickStartStop
  rw [hl, e4, e5, e0, e1]
  simp only [Go.bind_ok, Go.pure_eq]
  rw [ed]
  have ha : (a : Int) ≠ -1 := by omega
  have hb : (b : Int) ≠ -1 := by omega
  simp only [ha, hb, if_false]
  rw [if_neg (by omega)]
  simp [hitsAhead, hitsBehind, h1, h2]

/-- One round of `Find`. -/
theorem findStep_items (h : ∀ it ∈ items, it.Simple vars) (hs : ∃ it ∈ items, it.Solid) (letters : List Rune)
    {word : Bytes} {o : Nat} (hw : ValidUtf8 (word.drop o)) :
    (findStep (patOf items letters) word o = .ok none ∧ matches_ items o 0 (word.drop o) = []) ∨
    ∃ u v vs vss, word.drop o = u ++ v ∧ ValidUtf8 u ∧ ValidUtf8 v ∧ ways items v = vs :: vss ∧
      findStep (patOf items letters) word o =
        .ok (some (o + u.length + (reading items vs).length, some (report items (o + u.length) vs))) ∧
      matches_ items o 0 (word.drop o) = matches_ items (o + u.length) 0 v := by
  obtain ⟨rs, hrs, he⟩ := hw
  rcases search_items h hs rs hrs none 0 with ⟨g1, g2⟩ | ⟨u, v, vs, vss, s, g1, g2, g3, g4, g5, g6, g7, g8⟩
  · left
    rw [he]
    refine ⟨?_, g2 o⟩
    refine findStep_of_none ?_
    rw [findSubmatch, he]
    show Option.map _ (searchFrom (reOf items) (decode (encode rs)) none 0) = _
    rw [g1]
    rfl
  · right
    refine ⟨u, v, vs, vss, he.trans g1, g2, g3, g4, ?_, by rw [he]; exact g8 o⟩
    have hm : vs ∈ ways items v := by rw [g4]; simp
    have hne := way_solid hs hm
    have hpl := places_length (i := o + u.length) hm
    have hl : 0 < (reading items vs).length := List.length_pos_iff.2 hne
    have hsubs : (subs (0 + u.length) s).map (fun i : Int => if i ≠ -1 then i + (o : Int) else i) =
        [((o + u.length : Nat) : Int), ((o + u.length + (reading items vs).length : Nat) : Int),
          ((o + u.length : Nat) : Int), ((o + u.length : Nat) : Int), ((o + u.length : Nat) : Int),
          ((o + u.length : Nat) : Int)] ++ places (o + u.length) items vs ++
        List.replicate 4 ((o + u.length + (reading items vs).length : Nat) : Int) := by
      show (subs (0 + u.length) s).map (shift o) = _
      rw [subs, List.map_drop, g7, g6]
      simp only [List.cons_append, List.nil_append, List.drop_succ_cons, List.drop_zero, List.map_cons,
        List.map_append, shift_places, shift_nat, List.map_replicate]
      rw [show 0 + u.length + o = o + u.length by omega,
        show 0 + u.length + (reading items vs).length + o = o + u.length + (reading items vs).length by omega]
    have hfs : findSubmatch (patOf items letters).re (word.drop o) = some (subs (0 + u.length) s) := by
      rw [findSubmatch, he]
      show Option.map _ (searchFrom (reOf items) (decode (encode rs)) none 0) = _
      rw [g5]
      rfl
    exact findStep_of_some hfs hsubs (by omega) rfl rfl

theorem boundary_add {word : Bytes} {o : Nat} (hb : Boundary word o) {u v : Bytes} (he : word.drop o = u ++ v)
    (hu : ValidUtf8 u) : Boundary word (o + u.length) := by
  obtain ⟨d, h1, h2⟩ := boundary_split hb
  refine ⟨d ++ decode u, decode v, ?_, ?_⟩
  · rw [h1, he, decode_append hu, List.append_assoc]
  · show o + u.length = width (d ++ decode u)
    rw [width_append, decode_width, h2]

theorem drop_add {word : Bytes} {o : Nat} {u v : Bytes} (he : word.drop o = u ++ v) : word.drop (o + u.length) = v := by
  rw [← List.drop_drop, he, List.drop_left]

/-- The loop of `Find`. -/
theorem findLoop_items (h : ∀ it ∈ items, it.Simple vars) (hs : ∃ it ∈ items, it.Solid) (letters : List Rune)
    (word : Bytes) : ∀ (fuel o count : Nat), word.length < fuel + o → Boundary word o → ValidUtf8 (word.drop o) →
      findLoop (patOf items letters) word (-1) fuel o count = .ok (matches_ items o 0 (word.drop o)) ∧
      ProperMatches word o (matches_ items o 0 (word.drop o)) := by
  intro fuel
  induction fuel with
  | zero => intro o count hf hb _; have := boundary_le hb; omega
  | succ fuel ih =>
    intro o count hf hb hv
    rw [findLoop]
    by_cases ho : o < word.length
    · rw [if_pos ⟨ho, by omega⟩]
      rcases findStep_items h hs letters hv with ⟨g1, g2⟩ | ⟨u, v, vs, vss, g1, g2', g2, g3, g4, g5⟩
      · rw [g1, g2]
        exact ⟨rfl, trivial⟩
      · have hm : vs ∈ ways items v := by rw [g3]; simp
        have hne := way_solid hs hm
        have hl : 0 < (reading items vs).length := List.length_pos_iff.2 hne
        obtain ⟨hpre, hrv⟩ := way_reading h hm
        have hv0 : v ≠ [] := by rintro rfl; exact hne (List.prefix_nil.1 hpre)
        obtain ⟨v', hv'⟩ := hpre
        have hb1 := boundary_add hb g1 g2'
        have hd1 : word.drop (o + u.length) = reading items vs ++ v' := by rw [drop_add g1, hv']
        have hb2 := boundary_add hb1 hd1 hrv
        have hd2 := drop_add hd1
        have hvv : ValidUtf8 v' := by rw [← hv'] at g2; exact valid_tail g2 hrv
        obtain ⟨i1, i2⟩ := ih (o + u.length + (reading items vs).length) (count + 1) (by omega) hb2 (by rw [hd2]; exact hvv)
        have hms : matches_ items o 0 (word.drop o) = report items (o + u.length) vs ::
            matches_ items (o + u.length + (reading items vs).length) 0 (word.drop (o + u.length + (reading items vs).length)) := by
          rw [g5, matches_some g3 hne hv0, hd2, ← hv', List.drop_left]
        rw [g4, hms]
        simp only [Go.bind_ok]
        rw [i1]
        refine ⟨rfl, _, _, _, rfl, by omega, by omega, boundary_le hb2, hb1, hb2, i2⟩
    · rw [if_neg (by simp [ho])]
      have : word.drop o = [] := List.drop_eq_nil_of_le (by omega)
      rw [this]
      exact ⟨rfl, trivial⟩

/-- All matches. -/
theorem find_items (h : ∀ it ∈ items, it.Simple vars) (hs : ∃ it ∈ items, it.Solid) (letters : List Rune)
    {word : Bytes} (hw : ValidUtf8 word) :
    find (patOf items letters) word (-1) = .ok (matches_ items 0 0 word) ∧
      ProperMatches word 0 (matches_ items 0 0 word) := by
  have := findLoop_items h hs letters word ((word.length + 1) * ((-1 : Int).toNat + 1) + 1) 0 0 (by simp)
    (boundary_zero word) hw
  exact this

/-! ## Interpolation -/

theorem matches_mem (h : ∀ it ∈ items, it.Simple vars) (hs : ∃ it ∈ items, it.Solid) {m : List Int} :
    ∀ (w : Bytes) (i k : Nat), m ∈ matches_ items i k w →
      ∃ a vs vss, m = report items (i + a) vs ∧ ways items (w.drop a) = vs :: vss
  | [], i, k, hm => by simp [matches_] at hm
  | c :: w, i, k + 1, hm => by
    rw [matches_] at hm
    obtain ⟨a, vs, vss, rfl, h2⟩ := matches_mem h hs w _ _ hm
    exact ⟨a + 1, vs, vss, by rw [show i + 1 + a = i + (a + 1) by omega], by simpa using h2⟩
  | c :: w, i, 0, hm => by
    rw [matches_] at hm
    cases hw : ways items (c :: w) with
    | nil =>
      rw [hw] at hm
      obtain ⟨a, vs, vss, rfl, h2⟩ := matches_mem h hs w _ _ hm
      exact ⟨a + 1, vs, vss, by rw [show i + 1 + a = i + (a + 1) by omega], by simpa using h2⟩
    | cons vs vss =>
      rw [hw] at hm
      rcases List.mem_cons.1 hm with rfl | hm
      · exact ⟨0, vs, vss, rfl, hw⟩
      · obtain ⟨a, vs, vss, rfl, h2⟩ := matches_mem h hs w _ _ hm
        exact ⟨a + 1, vs, vss, by rw [show i + 1 + a = i + (a + 1) by omega], by simpa using h2⟩

theorem chosen_fst : ∀ {items : List Item} {w : Bytes} {vs : List Bytes}, vs ∈ ways items w →
    (chosen items vs).map (·.1) = valsOf items ∧ ∀ x ∈ chosen items vs, x.2 ∈ x.1 := by
  intro items
  induction items with
  | nil => intro w vs _; exact ⟨rfl, by simp [chosen]⟩
  | cons it items ih =>
    intro w vs hvs
    cases it with
    | text t =>
      obtain ⟨_, h2⟩ := way_text hvs
      exact ih h2
    | var n vals =>
      obtain ⟨v, vs', rfl, hv, h1, h2⟩ := way_var hvs
      obtain ⟨i1, i2⟩ := ih h2
      exact ⟨by rw [chosen, valsOf, List.map_cons, i1], by
        intro x hx
        rcases List.mem_cons.1 hx with rfl | hx
        · exact hv
        · exact i2 x hx⟩

/-- What the groups have captured. -/
theorem places_get : ∀ {items : List Item} {w pre : Bytes} {vs : List Bytes} {k : Nat} {vals : List Bytes} {v : Bytes},
    vs ∈ ways items w → (chosen items vs)[k]? = some (vals, v) →
      ∃ a b, (places pre.length items vs)[2 * k]? = some a ∧ (places pre.length items vs)[2 * k + 1]? = some b ∧
        substr (pre ++ w) a b = v := by
  intro items
  induction items with
  | nil => intro w pre vs k vals v _ h; simp [chosen] at h
  | cons it items ih =>
    intro w pre vs k vals v hvs hc
    cases it with
    | text t =>
      obtain ⟨⟨w', rfl⟩, h2⟩ := way_text hvs
      rw [List.drop_left] at h2
      have := ih (pre := pre ++ t) h2 hc
      rw [List.length_append, List.append_assoc] at this
      exact this
    | var n vals' =>
      obtain ⟨v', vs', rfl, hv, ⟨w', rfl⟩, h2⟩ := way_var hvs
      rw [List.drop_left] at h2
      rw [places]
      cases k with
      | zero =>
        rw [chosen, List.getElem?_cons_zero, Option.some.injEq, Prod.mk.injEq] at hc
        obtain ⟨rfl, rfl⟩ := hc
        refine ⟨_, _, rfl, rfl, ?_⟩
        rw [substr_nat, Nat.add_sub_cancel_left, List.drop_left, List.take_left]
      | succ k =>
        rw [chosen, List.getElem?_cons_succ] at hc
        have := ih (pre := pre ++ v') h2 hc
        rw [List.length_append, List.append_assoc] at this
        exact this

theorem indexOf_mem {v : Bytes} : ∀ {vals : List Bytes}, v ∈ vals → indexOf v vals = (vals.idxOf v : Int) ∧ vals.idxOf v < vals.length
  | [], h => by simp at h
  | x :: xs, h => by
    rw [indexOf, List.idxOf_cons]
    by_cases hx : x = v
    · subst hx; simp
    · have hm : v ∈ xs := by
        rcases List.mem_cons.1 h with rfl | h
        · exact absurd rfl hx
        · exact h
      obtain ⟨i1, i2⟩ := indexOf_mem hm
      have hb : (x == v) = false := by simpa using hx
      rw [if_neg hx, hb]
      simp only [i1, cond_false, List.length_cons]
      rw [if_neg (by omega)]
      exact ⟨by omega, by omega⟩

/-- Interpolation when every var of the pattern has captured one of its values. -/
theorem interpolate_chosen {tos : List Item} (ht : ∀ it ∈ tos, it.Defined vars) {p : Pattern} {word : Bytes}
    {m : List Int} {fs : List (List Bytes × Bytes)} (h1 : fs.map (·.1) = p.usedVars) (h2 : ∀ x ∈ fs, x.2 ∈ x.1)
    (h3 : ∀ k x, fs[k]? = some x → captured word m (k + 1) = .ok x.2) :
    ∀ (k : Nat) (acc : Bytes), interpolateParts p word m k (partsOf acc tos) =
        match mapped tos (fs.drop k) with
        | some t => .ok (acc ++ t)
        | none => .err .interpolate := by
  have plain : ∀ (acc : Bytes) k ps, interpolateParts p word m k (plainPart acc ++ ps) =
      (interpolateParts p word m k ps).bind fun t => .ok (acc ++ t) := by
    intro acc k ps
    unfold plainPart
    split
    · rename_i h
      have : acc = [] := by simpa using h
      subst this
      rw [List.nil_append]
      cases interpolateParts p word m k ps <;> rfl
    · rfl
  induction tos with
  | nil =>
    intro k acc
    have := plain acc k []
    rw [List.append_nil] at this
    rw [partsOf, this]
    rfl
  | cons it tos ih =>
    intro k acc
    have hi := ht it (by simp)
    have ih := ih (fun x hx => ht x (List.mem_cons_of_mem _ hx))
    cases it with
    | text t =>
      rw [partsOf, ih, mapped]
      cases mapped tos (fs.drop k) with
      | none => rfl
      | some u => simp
    | var n to =>
      rw [partsOf, plain, interpolateParts]
      have hlen : p.usedVars.length = fs.length := by rw [← h1, List.length_map]
      by_cases hk : k < fs.length
      · obtain ⟨⟨vals, v⟩, hc⟩ : ∃ x, fs[k]? = some x := ⟨_, List.getElem?_eq_getElem hk⟩
        have hv : v ∈ vals := h2 _ (List.mem_of_getElem? hc)
        have hvals : index p.usedVars k = .ok vals := by
          refine index_ok ?_
          rw [← h1, List.getElem?_map, hc]
          rfl
        have hcap := h3 k _ hc
        have hto : to ≠ [] := hi.2.2.2.2.2.2
        have htl : 0 < to.length := List.length_pos_iff.2 hto
        obtain ⟨x1, x2⟩ := indexOf_mem hv
        have hmod : (Int.tmod (vals.idxOf v : Int) (to.length : Int)) = ((vals.idxOf v % to.length : Nat) : Int) :=
          Int.ofNat_tmod _ _
        have hlt := Nat.mod_lt (vals.idxOf v) htl
        have hget : to[vals.idxOf v % to.length]? = some (to.getD (vals.idxOf v % to.length) []) := by
          rw [List.getD_eq_getElem?_getD, List.getElem?_eq_getElem hlt]
          rfl
        have hidx : index to (vals.idxOf v % to.length) = .ok (to.getD (vals.idxOf v % to.length) []) := index_ok hget
        rw [if_neg (by omega), hvals]
        simp only [Go.bind_ok]
        rw [hcap]
        simp only [Go.bind_ok, x1, hmod, Int.toNat_natCast]
        rw [if_neg (by omega), if_neg (by omega), hidx, ih (k + 1) []]
        have hd : fs.drop k = (vals, v) :: fs.drop (k + 1) := by
          rw [List.drop_eq_getElem_cons hk]
          rw [List.getElem?_eq_getElem hk, Option.some.injEq] at hc
          rw [hc]
        rw [hd, mapped]
        cases mapped tos (fs.drop (k + 1)) with
        | none => rfl
        | some u => rfl
      · have hd : fs.drop k = [] := List.drop_eq_nil_of_le (by omega)
        rw [if_pos (by omega), hd, mapped]
        rfl

theorem interpolate_items {tos : List Item} (ht : ∀ it ∈ tos, it.Defined vars) {letters : List Rune}
    {w pre : Bytes} {vs : List Bytes} (hvs : vs ∈ ways items w) :
    interpolateParts (patOf items letters) (pre ++ w) (report items pre.length vs) 0 (partsOf [] tos) =
      match mapped tos (chosen items vs) with
      | some t => .ok t
      | none => .err .interpolate := by
  obtain ⟨c1, c2⟩ := chosen_fst hvs
  have := interpolate_chosen ht (p := patOf items letters) (word := pre ++ w) (m := report items pre.length vs) c1 c2
    ?_ 0 []
  · exact this
  · rintro k ⟨vals, v⟩ hc
    obtain ⟨a, b, p1, p2, p3⟩ := places_get (pre := pre) hvs hc
    unfold captured report
    rw [show (k + 1) * 2 = 2 * k + 1 + 1 by omega, index_ok (a := a) (by simpa using p1),
      index_ok (a := b) (by simpa using p2)]
    simp only [Go.bind_ok, Go.pure_eq, p3]

theorem splice_items {tos : List Item} (h : ∀ it ∈ items, it.Simple vars) (hs : ∃ it ∈ items, it.Solid)
    (word : Bytes) (f : List Int → Option Bytes)
    (hf : ∀ a vs vss, ways items (word.drop a) = vs :: vss → f (report items a vs) = mapped tos (chosen items vs)) :
    ∀ (n i cur : Nat), word.length ≤ n + i → cur ≤ i → i ≤ word.length →
      splice word f cur (matches_ items i 0 (word.drop i)) = between word cur i ++ rewritten items tos 0 (word.drop i) := by
  have nil : ∀ i cur, word.drop i = [] → cur ≤ i → i ≤ word.length →
      splice word f cur (matches_ items i 0 (word.drop i)) = between word cur i ++ rewritten items tos 0 (word.drop i) := by
    intro i cur h1 h2 h3
    have h4 := List.drop_eq_nil_iff.1 h1
    rw [h1]
    simp only [matches_, splice, rewritten, between, List.append_nil]
    rw [List.take_of_length_le (by simp; omega)]
  intro n
  induction n with
  | zero =>
    intro i cur h1 h2 h3
    exact nil i cur (List.drop_eq_nil_of_le (by omega)) h2 h3
  | succ n ih =>
    intro i cur h1 h2 h3
    cases hw : word.drop i with
    | nil => rw [← hw]; exact nil i cur hw h2 h3
    | cons c w =>
      have hi : i < word.length := by
        apply Nat.lt_of_not_le
        intro hle
        rw [List.drop_eq_nil_of_le hle] at hw
        simp at hw
      have hd : word.drop (i + 1) = w := by
        rw [← List.drop_drop, hw]; rfl
      cases hways : ways items (c :: w) with
      | nil =>
        have := ih (i + 1) cur (by omega) (by omega) hi
        rw [hd] at this
        rw [matches_cons_none hways, this, rewritten, hways]
        simp only
        have hb : between word cur (i + 1) = between word cur i ++ [c] := by
          unfold between
          rw [show i + 1 - cur = (i - cur) + 1 by omega, List.take_add, List.drop_drop,
            show cur + (i - cur) = i by omega, hw]
          rfl
        rw [hb]
        simp
      | cons vs vss =>
        have hm : vs ∈ ways items (c :: w) := by rw [hways]; simp
        have hne := way_solid hs hm
        have hl : 0 < (reading items vs).length := List.length_pos_iff.2 hne
        obtain ⟨⟨v', hv'⟩, _⟩ := way_reading h hm
        have hd1 : word.drop i = reading items vs ++ v' := by rw [hw, hv']
        have hd2 := drop_add hd1
        have hle : i + (reading items vs).length ≤ word.length := by
          have := congrArg List.length hd1
          simp at this
          omega
        have e := ih (i + (reading items vs).length) (i + (reading items vs).length) (by omega) (Nat.le_refl _) hle
        rw [matches_some hways hne (by simp), splice]
        have hdr : (c :: w).drop (reading items vs).length = word.drop (i + (reading items vs).length) := by
          rw [hd2, ← hv', List.drop_left]
        rw [hdr, hf i vs vss (by rw [hw]; exact hways)]
        simp only [report, List.headD_cons, List.getD_cons_zero, List.getD_cons_succ, Int.toNat_natCast]
        rw [e, rewritten, hways]
        simp only
        have hb : between word i (i + (reading items vs).length) = reading items vs := by
          unfold between
          rw [hd1, Nat.add_sub_cancel_left, List.take_left]
        have hb' : between word (i + (reading items vs).length) (i + (reading items vs).length) = [] := by
          simp [between]
        have hr : rewritten items tos ((reading items vs).length - 1) w =
            rewritten items tos 0 (word.drop (i + (reading items vs).length)) := by
          rw [rewritten_skip, ← hdr]
          obtain ⟨k, hk⟩ : ∃ k, (reading items vs).length = k + 1 := ⟨_, (Nat.succ_pred_eq_of_pos hl).symm⟩
          rw [hk, List.drop_succ_cons, Nat.add_sub_cancel]
        rw [hb, hb', hr]
        simp

/-- Rewriting end to end. -/
theorem replace_items {tos : List Item} (h : ∀ it ∈ items, it.Simple vars) (hs : ∃ it ∈ items, it.Solid)
    (ht : ∀ it ∈ tos, it.Defined vars) {r : Rule} {letters : List Rune} (hr : r.pat = patOf items letters)
    (hto : r.to.parts = partsOf [] tos) {word : Bytes} (hw : ValidUtf8 word) :
    r.replace word = .ok (rewritten items tos 0 word) := by
  obtain ⟨f1, f2⟩ := find_items h hs letters hw
  have hint : ∀ a vs vss, ways items (word.drop a) = vs :: vss →
      interpolate r.to r.pat word (report items a vs) =
        match mapped tos (chosen items vs) with
        | some t => .ok t
        | none => .err .interpolate := by
    intro a vs vss hways
    have hm : vs ∈ ways items (word.drop a) := by rw [hways]; simp
    have ha : a ≤ word.length := by
      apply Nat.le_of_not_lt
      intro hlt
      rw [List.drop_eq_nil_of_le (by omega)] at hm
      rw [no_ways_nil h hs] at hm
      simp at hm
    have := interpolate_items (tos := tos) ht (letters := letters) (pre := word.take a) hm
    rw [List.take_append_drop, List.length_take, Nat.min_eq_left ha] at this
    rw [interpolate, hr, hto, this]
  have := Rule.replace_splice (r := r) (word := word) (ms := matches_ items 0 0 word) (by rw [hr]; exact f1) f2 ?_
  · rw [this]
    have := splice_items (tos := tos) h hs word (outcome r.to r.pat word) ?_ word.length 0 0 (by omega) (Nat.le_refl _)
      (Nat.zero_le _)
    · rw [List.drop_zero] at this
      rw [this]
      simp [between]
    · intro a vs vss hways
      rw [outcome, hint a vs vss hways]
      cases mapped tos (chosen items vs) <;> rfl
  · intro m hm
    obtain ⟨a, vs, vss, rfl, h2⟩ := matches_mem h hs _ _ _ hm
    rw [Nat.zero_add, hint a vs vss h2]
    cases mapped tos (chosen items vs) <;> simp

end Verif.Hre
