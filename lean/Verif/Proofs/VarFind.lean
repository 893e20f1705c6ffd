import Verif.Proofs.VarParse

/-! What a pattern of plain text and vars finds. -/

namespace Verif.Hre

open Verif.Rx Verif.Spec.Hre Verif.Spec.Vars

/-! ## UTF-8 -/

theorem valid_tail {a b : Bytes} (h : ValidUtf8 (a ++ b)) (ha : ValidUtf8 a) : ValidUtf8 b := by
  have h1 := encode_runes h
  rw [runes_append ha, encode_append, encode_runes ha] at h1
  exact (validUtf8_iff b).2 (List.append_cancel_left h1)

theorem valid_drop {a w : Bytes} (hw : ValidUtf8 w) (ha : ValidUtf8 a) (h : a <+: w) : ValidUtf8 (w.drop a.length) := by
  obtain ⟨b, rfl⟩ := h
  rw [List.drop_left]
  exact valid_tail hw ha

theorem encodeRune_tail_cont (r : Rune) : ∀ c ∈ (encodeRune r).tail, isCont c = true := by
  have key : ∀ r, ∀ c ∈ (encodeValid r).tail, isCont c = true := by
    intro r c hc
    have e : ∀ n : Nat, isCont (UInt8.ofNat (0x80 + n % 0x40)) = true := by
      intro n
      have : (UInt8.ofNat (0x80 + n % 0x40)).toNat = 0x80 + n % 0x40 := by simp; omega
      simp only [isCont, this, Bool.and_eq_true, decide_eq_true_eq]
      omega
    unfold encodeValid at hc
    split at hc
    · simp at hc
    · split at hc
      · simp only [List.tail_cons, List.mem_singleton] at hc; subst hc; exact e _
      · split at hc
        · simp only [List.tail_cons, List.mem_cons, List.not_mem_nil, or_false] at hc
          rcases hc with rfl | rfl <;> exact e _
        · simp only [List.tail_cons, List.mem_cons, List.not_mem_nil, or_false] at hc
          rcases hc with rfl | rfl | rfl <;> exact e _
  unfold encodeRune
  split <;> exact key _

theorem valid_head {c : UInt8} {t : Bytes} (h : ValidUtf8 (c :: t)) : isCont c = false := by
  cases hc : isCont c with
  | false => rfl
  | true =>
    exfalso
    have hn : 0x80 ≤ c.toNat ∧ c.toNat ≤ 0xBF := by simpa [isCont] using hc
    have hd : decodeRune c t = (runeError, 1) := by
      unfold decodeRune
      simp only
      rw [if_neg (by omega), if_pos (by omega)]
    have he := encode_runes h
    rw [runes_cons, hd, encode_cons] at he
    have e3 : encodeRune runeError = [0xEF, 0xBF, 0xBD] := by decide
    rw [e3] at he
    simp at he
    rw [← he.1] at hn
    exact absurd hn.2 (by decide)

/-! ## Matching -/

theorem lits_bytes {rs : List Rune} (h : ∀ r ∈ rs, validRune r = true) : ∀ {w : Bytes}, ValidUtf8 w → ∀ {s : St},
    s.rest = decode w → lits rs s =
      if encode rs <+: w then [s.after (decode (encode rs)) (decode (w.drop (encode rs).length))] else [] := by
  induction rs with
  | nil =>
    intro w _ s hs
    simp [encode, lits, St.after, prevAfter, decode_nil, width, ← hs]
  | cons r rs ih =>
    intro w hw s hs
    have hr := h r (by simp)
    obtain ⟨ws, hws, rfl⟩ := hw
    rw [lits]
    cases ws with
    | nil =>
      have h0 : s.rest = [] := by simpa [encode, decode_nil] using hs
      rw [if_neg]
      · simp [one, h0]
      · intro hp
        have := List.prefix_nil.1 (show encode (r :: rs) <+: [] from hp)
        rw [encode_cons] at this
        exact encodeRune_ne_nil r (List.append_eq_nil_iff.1 this).1
    | cons a ws =>
      have ha := hws a (by simp)
      have hs' : s.rest = (a, (encodeRune a).length) :: decode (encode ws) := by
        rw [hs, encode_cons, decode_encodeRune_append ha]
      by_cases hra : r = a
      · subst hra
        have h1 : one (· == r) s = [s.after [(r, (encodeRune r).length)] (decode (encode ws))] := by
          simp [one, hs', St.after, prevAfter, width]
        rw [h1]
        simp only [List.flatMap_cons, List.flatMap_nil, List.append_nil]
        rw [ih (fun x hx => h x (by simp [hx])) (encode_valid fun x hx => hws x (by simp [hx]))
          (s := s.after [(r, (encodeRune r).length)] (decode (encode ws))) rfl]
        simp only [encode_cons, List.prefix_append_right_inj]
        congr 1
        rw [decode_encodeRune_append hr, List.length_append, List.drop_length_add_append]
        simp [St.after, prevAfter, width, Nat.add_assoc]
      · rw [if_neg]
        · simp [one, hs', Ne.symm hra]
        · intro hp
          obtain ⟨t, ht⟩ := hp
          rw [encode_cons, encode_cons, List.append_assoc] at ht
          have := congrArg decode ht
          rw [decode_encodeRune_append hr, decode_encodeRune_append ha] at this
          simp at this
          exact hra this.1.1

theorem lits_text {t w : Bytes} (ht : ValidUtf8 t) (hw : ValidUtf8 w) {s : St} (hs : s.rest = decode w) :
    lits (runes t) s = if t <+: w then [s.after (decode t) (decode (w.drop t.length))] else [] := by
  have := lits_bytes (runes_valid t) hw hs
  rwa [encode_runes ht] at this

theorem runCat_lits (rs : List Rune) (s : St) : runCat (rs.map fun r => .lit [r]) s = lits rs s := by
  induction rs generalizing s with
  | nil => rfl
  | cons r rs ih =>
    simp only [List.map_cons, runCat, run, lits, List.flatMap_singleton']
    congr 1
    funext x
    exact ih x

theorem run_mkCat (l : List Re) (s : St) : run (mkCat l) s = runCat l.reverse s := by
  match l with
  | [] => rfl
  | [r] => simp [mkCat, runCat]
  | a :: b :: l => rw [show mkCat (a :: b :: l) = .cat (a :: b :: l).reverse from rfl, run]

theorem run_mkAlt (l : List Re) (s : St) : run (mkAlt l) s = runAlt l.reverse s := by
  match l with
  | [] => rfl
  | [r] => simp [mkAlt, runAlt]
  | a :: b :: l => rw [show mkAlt (a :: b :: l) = .alt (a :: b :: l).reverse from rfl, run]

theorem run_altOf (vals : List Bytes) (s : St) : run (altOf vals) s = vals.flatMap fun v => lits (runes v) s := by
  rw [altOf, run_mkAlt, List.reverse_reverse]
  induction vals with
  | nil => rfl
  | cons v vals ih =>
    rw [List.map_cons, runAlt, List.flatMap_cons, ih, run_mkCat, List.reverse_reverse, litsOf, runCat_lits]

theorem flatMap_congr' {α β : Type} {l : List α} {f g : α → List β} (h : ∀ a ∈ l, f a = g a) : l.flatMap f = l.flatMap g := by
  induction l with
  | nil => rfl
  | cons a l ih => rw [List.flatMap_cons, List.flatMap_cons, h a (by simp), ih fun b hb => h b (by simp [hb])]

/-- The state after the items were read in one of the ways. -/
def endOf : Nat → List Item → List Bytes → Bytes → St → St
  | j, .text t :: is, vs, w, s => endOf j is vs (w.drop t.length) (s.after (decode t) (decode (w.drop t.length)))
  | j, .var _ _ :: is, v :: vs, w, s =>
    endOf (j + 1) is vs (w.drop v.length)
      (setCap (2 * j + 1) ((setCap (2 * j) s).after (decode v) (decode (w.drop v.length))))
  | _, _, _, _, s => s

theorem run_core {vars : List (Bytes × List Bytes)} : ∀ {items : List Item}, (∀ it ∈ items, it.Simple vars) →
    ∀ {j : Nat} {w : Bytes} {s : St}, ValidUtf8 w → s.rest = decode w →
      runCat (coreOf j items) s = (ways items w).map fun vs => endOf j items vs w s := by
  intro items
  induction items with
  | nil => intro _ j w s _ _; simp [coreOf, runCat, ways, endOf]
  | cons it items ih =>
    intro h j w s hw hs
    have hi := h it (by simp)
    have ht := fun x hx => h x (List.mem_cons_of_mem _ hx)
    cases it with
    | text t =>
      have hv : ValidUtf8 t := hi.1.1
      rw [coreOf, litsOf, runCat_append, runCat_lits, lits_text hv hw hs, ways]
      split
      · rename_i hp
        simp only [List.flatMap_cons, List.flatMap_nil, List.append_nil]
        rw [ih ht (valid_drop hw hv hp) rfl]
        rfl
      · rfl
    | var n vals =>
      have hv : ∀ v ∈ vals, ValidUtf8 v := fun v hv => (hi.2 v hv).1
      rw [coreOf, runCat, run, run_altOf, ways, List.map_flatMap, List.flatMap_assoc, List.map_flatMap]
      refine flatMap_congr' fun v hm => ?_
      rw [lits_text (hv v hm) hw (s := setCap (2 * j) s) hs]
      split
      · rename_i hp
        simp only [List.map_cons, List.map_nil, List.flatMap_cons, List.flatMap_nil, List.append_nil]
        rw [ih ht (valid_drop hw (hv v hm) hp) rfl, List.map_map]
        rfl
      · rfl

/-! ## Ways -/

theorem way_text {t : Bytes} {is : List Item} {w : Bytes} {vs : List Bytes} (h : vs ∈ ways (.text t :: is) w) :
    t <+: w ∧ vs ∈ ways is (w.drop t.length) := by
  rw [ways] at h
  split at h
  · rename_i hp; exact ⟨hp, h⟩
  · simp at h

theorem way_var {n : Bytes} {vals : List Bytes} {is : List Item} {w : Bytes} {vs : List Bytes}
    (h : vs ∈ ways (.var n vals :: is) w) :
    ∃ v vs', vs = v :: vs' ∧ v ∈ vals ∧ v <+: w ∧ vs' ∈ ways is (w.drop v.length) := by
  rw [ways, List.mem_flatMap] at h
  obtain ⟨v, hv, h⟩ := h
  split at h
  · rename_i hp
    obtain ⟨vs', h1, rfl⟩ := List.mem_map.1 h
    exact ⟨v, vs', rfl, hv, hp, h1⟩
  · simp at h

theorem way_reading {vars : List (Bytes × List Bytes)} : ∀ {items : List Item}, (∀ it ∈ items, it.Simple vars) →
    ∀ {w : Bytes} {vs : List Bytes}, vs ∈ ways items w → reading items vs <+: w ∧ ValidUtf8 (reading items vs) := by
  have key : ∀ {t u w : Bytes}, t <+: w → u <+: w.drop t.length → t ++ u <+: w := by
    rintro t u w ⟨x, rfl⟩ h
    rw [List.drop_left] at h
    exact (List.prefix_append_right_inj t).2 h
  intro items
  induction items with
  | nil => intro _ w vs _; exact ⟨by simp [reading], by simpa [reading] using ValidUtf8.nil⟩
  | cons it items ih =>
    intro h w vs hvs
    have hi := h it (by simp)
    have ht := fun x hx => h x (List.mem_cons_of_mem _ hx)
    cases it with
    | text t =>
      obtain ⟨h1, h2⟩ := way_text hvs
      obtain ⟨h3, h4⟩ := ih ht h2
      exact ⟨key h1 h3, hi.1.1.append h4⟩
    | var n vals =>
      obtain ⟨v, vs', rfl, hv, h1, h2⟩ := way_var hvs
      obtain ⟨h3, h4⟩ := ih ht h2
      exact ⟨key h1 h3, (hi.2 v hv).1.append h4⟩

theorem way_solid {items : List Item} (hs : ∃ it ∈ items, it.Solid) : ∀ {w : Bytes} {vs : List Bytes},
    vs ∈ ways items w → reading items vs ≠ [] := by
  induction items with
  | nil => obtain ⟨it, h, _⟩ := hs; simp at h
  | cons it items ih =>
    intro w vs hvs
    obtain ⟨x, hx, hx'⟩ := hs
    rcases List.mem_cons.1 hx with rfl | hx
    · cases x with
      | text t => exact fun he => hx' (List.append_eq_nil_iff.1 he).1
      | var n vals =>
        obtain ⟨v, vs', rfl, hv, h1, h2⟩ := way_var hvs
        intro he
        have := (List.append_eq_nil_iff.1 (show v ++ reading items vs' = [] from he)).1
        subst this
        exact hx' hv
    · have hne := fun {w : Bytes} {vs : List Bytes} => @ih ⟨x, hx, hx'⟩ w vs
      cases it with
      | text t =>
        obtain ⟨_, h2⟩ := way_text hvs
        exact fun he => hne h2 (List.append_eq_nil_iff.1 he).2
      | var n vals =>
        obtain ⟨v, vs', rfl, hv, h1, h2⟩ := way_var hvs
        exact fun he => hne h2 (List.append_eq_nil_iff.1 (show v ++ reading items vs' = [] from he)).2

theorem no_ways_nil {vars : List (Bytes × List Bytes)} {items : List Item} (h : ∀ it ∈ items, it.Simple vars)
    (hs : ∃ it ∈ items, it.Solid) : ways items [] = [] := by
  rw [List.eq_nil_iff_forall_not_mem]
  intro vs hvs
  exact way_solid hs hvs (List.prefix_nil.1 (way_reading h hvs).1)

theorem no_ways_cont {vars : List (Bytes × List Bytes)} {items : List Item} (h : ∀ it ∈ items, it.Simple vars)
    (hs : ∃ it ∈ items, it.Solid) {c : UInt8} (hc : isCont c = true) (w : Bytes) : ways items (c :: w) = [] := by
  rw [List.eq_nil_iff_forall_not_mem]
  intro vs hvs
  obtain ⟨h1, h2⟩ := way_reading h hvs
  have h3 := way_solid hs hvs
  obtain ⟨t, ht⟩ := h1
  cases hr : reading items vs with
  | nil => exact h3 hr
  | cons a r =>
    rw [hr] at ht h2
    simp at ht
    have := valid_head h2
    rw [ht.1, hc] at this
    simp at this

theorem endOf_pos : ∀ {items : List Item} {j : Nat} {w : Bytes} {vs : List Bytes} {s : St},
    vs ∈ ways items w → (endOf j items vs w s).pos = s.pos + (reading items vs).length := by
  intro items
  induction items with
  | nil => intro j w vs s _; simp [endOf, reading]
  | cons it items ih =>
    intro j w vs s hvs
    cases it with
    | text t =>
      obtain ⟨_, h2⟩ := way_text hvs
      rw [endOf, ih h2, reading, List.length_append]
      simp [St.after, decode_width, Nat.add_assoc]
    | var n vals =>
      obtain ⟨v, vs', rfl, hv, h1, h2⟩ := way_var hvs
      rw [endOf, ih h2, reading, List.length_append]
      simp [St.after, setCap, decode_width, Nat.add_assoc]

theorem places_length : ∀ {items : List Item} {i : Nat} {w : Bytes} {vs : List Bytes}, vs ∈ ways items w →
    (places i items vs).length = 2 * (valsOf items).length := by
  intro items
  induction items with
  | nil => intro i w vs _; rfl
  | cons it items ih =>
    intro i w vs hvs
    cases it with
    | text t =>
      obtain ⟨_, h2⟩ := way_text hvs
      rw [places, ih h2, valsOf]
    | var n vals =>
      obtain ⟨v, vs', rfl, hv, h1, h2⟩ := way_var hvs
      simp only [places, List.length_cons, ih h2, valsOf]
      omega

theorem set_at {pre post : List Int} {i : Nat} (h : pre.length = i) (a b : Int) :
    (pre ++ a :: post).set i b = pre ++ b :: post := by
  subst h
  simp

theorem setCap_toInt (i : Nat) (s : St) : (setCap i s).caps.map toInt = (s.caps.map toInt).set i (s.pos : Int) := by
  simp [setCap, List.map_set, toInt]

theorem endOf_caps : ∀ {items : List Item} {j r : Nat} {w : Bytes} {vs : List Bytes} {s : St} {pre : List Int},
    vs ∈ ways items w → s.caps.map toInt = pre ++ List.replicate (2 * (valsOf items).length + r) (-1) →
      pre.length = 2 * j →
      (endOf j items vs w s).caps.map toInt = pre ++ places s.pos items vs ++ List.replicate r (-1) := by
  intro items
  induction items with
  | nil => intro j r w vs s pre _ hc _; simpa [endOf, places, valsOf] using hc
  | cons it items ih =>
    intro j r w vs s pre hvs hc hp
    cases it with
    | text t =>
      obtain ⟨_, h2⟩ := way_text hvs
      have hc' : (s.after (decode t) (decode (w.drop t.length))).caps.map toInt = _ := hc
      rw [endOf, ih h2 (r := r) (pre := pre) hc' hp, places]
      simp [St.after, decode_width]
    | var n vals =>
      obtain ⟨v, vs', rfl, hv, h1, h2⟩ := way_var hvs
      rw [endOf]
      rw [ih h2 (r := r) (pre := pre ++ [(s.pos : Int), ((s.pos + v.length : Nat) : Int)]) ?_ (by simp; omega), places]
      · simp [St.after, setCap, decode_width]
      · rw [setCap_toInt]
        have e : ((setCap (2 * j) s).after (decode v) (decode (w.drop v.length))).caps.map toInt =
            (s.caps.map toInt).set (2 * j) (s.pos : Int) := setCap_toInt _ _
        have e' : ((setCap (2 * j) s).after (decode v) (decode (w.drop v.length))).pos = s.pos + v.length := by
          simp [St.after, setCap, decode_width]
        rw [e, e', hc, valsOf, List.length_cons,
          show 2 * ((valsOf items).length + 1) + r = (2 * (valsOf items).length + r) + 1 + 1 by omega,
          List.replicate_succ, List.replicate_succ, set_at hp]
        rw [show pre ++ (s.pos : Int) :: (-1) :: List.replicate (2 * (valsOf items).length + r) (-1) =
          (pre ++ [(s.pos : Int)]) ++ (-1) :: List.replicate (2 * (valsOf items).length + r) (-1) by simp,
          set_at (by simp; omega)]
        simp

theorem run_cap_empty (i : Nat) (s : St) : run (.cap i .empty) s = [setCap (2 * i + 1) (setCap (2 * i) s)] := rfl

/-- The pattern at one position. -/
theorem run_reOf {vars : List (Bytes × List Bytes)} {items : List Item} (h : ∀ it ∈ items, it.Simple vars)
    {w : Bytes} (hw : ValidUtf8 w) (prev : Option Rune) (pos : Nat) :
    (ways items w = [] → run (reOf items) (start (reOf items) prev pos (decode w)) = []) ∧
    ∀ vs vss, ways items w = vs :: vss →
      ∃ s ss, run (reOf items) (start (reOf items) prev pos (decode w)) = s :: ss ∧
        s.pos = pos + (reading items vs).length ∧
        s.caps.map toInt = [-1, -1, (pos : Int), (pos : Int), (pos : Int), (pos : Int)] ++ places pos items vs ++
          List.replicate 4 ((pos + (reading items vs).length : Nat) : Int) := by
  have hnum := (compile_expanded h).2
  let k := (valsOf items).length
  let s0 := start (reOf items) prev pos (decode w)
  let s1 := setCap 5 (setCap 4 (setCap 3 (setCap 2 s0)))
  have hc0 : s0.caps.map toInt = [-1, -1, -1, -1, -1, -1] ++ List.replicate (2 * k + 4) (-1) := by
    show (List.replicate (2 * (numCap (reOf items) + 1)) none).map toInt = _
    rw [hnum, show 2 * ((valsOf items).length + 4 + 1) = 2 * k + 4 + 6 by omega]
    simp [List.replicate_succ, toInt]
  have hc1 : s1.caps.map toInt = [-1, -1, (pos : Int), (pos : Int), (pos : Int), (pos : Int)] ++
      List.replicate (2 * k + 4) (-1) := by
    simp only [s1, setCap_toInt, hc0]
    rfl
  have hrun : run (reOf items) s0 = (ways items w).map fun vs =>
      setCap (2 * (k + 4) + 1) (setCap (2 * (k + 4)) (setCap (2 * (k + 3) + 1) (setCap (2 * (k + 3)) (endOf 3 items vs w s1)))) := by
    rw [reOf, run, List.append_assoc, runCat_append]
    have e : runCat [.cap 1 .empty, .cap 2 .empty] s0 = [s1] := rfl
    rw [e]
    simp only [List.flatMap_cons, List.flatMap_nil, List.append_nil]
    rw [runCat_append, run_core h hw rfl, List.flatMap_map]
    show (ways items w).flatMap (fun vs => [_]) = _
    exact List.map_eq_flatMap.symm
  refine ⟨fun he => by rw [hrun, he]; rfl, fun vs vss he => ?_⟩
  have hm : vs ∈ ways items w := by rw [he]; simp
  refine ⟨_, _, by rw [hrun, he]; rfl, ?_, ?_⟩
  · exact endOf_pos hm
  · have hp : (endOf 3 items vs w s1).pos = pos + (reading items vs).length := endOf_pos hm
    have hpl : (places pos items vs).length = 2 * k := places_length hm
    have := endOf_caps (j := 3) (r := 4) (s := s1) hm hc1 rfl
    have hs1 : s1.pos = pos := rfl
    rw [hs1] at this
    have hl : ([-1, -1, (pos : Int), (pos : Int), (pos : Int), (pos : Int)] ++ places pos items vs).length =
        2 * (k + 3) := by
      rw [List.length_append, hpl]; simp; omega
    have hpos : ∀ i s, (setCap i s).pos = s.pos := fun _ _ => rfl
    generalize hP : [-1, -1, (pos : Int), (pos : Int), (pos : Int), (pos : Int)] ++ places pos items vs = P at *
    simp only [setCap_toInt, this, hpos, hp, List.replicate_succ, List.replicate_zero]
    rw [set_at hl]
    rw [show ∀ a b c d : Int, P ++ [a, b, c, d] = (P ++ [a]) ++ [b, c, d] by simp, set_at (by simp; omega)]
    rw [show ∀ a b c d : Int, (P ++ [a]) ++ [b, c, d] = (P ++ [a, b]) ++ [c, d] by simp, set_at (by simp; omega)]
    rw [show ∀ a b c d : Int, (P ++ [a, b]) ++ [c, d] = (P ++ [a, b, c]) ++ [d] by simp, set_at (by simp; omega)]
    simp

end Verif.Hre
