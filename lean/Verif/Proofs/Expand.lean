import Verif.Proofs.Utf8Ascii
import Verif.Proofs.Hre
import Verif.Proofs.RegexpParse

/-! The expansion of a pattern into the regular expression `(edge)(look)core(look)(edge)`. -/

namespace Verif.Hre

open Verif.Rx Verif.Spec.Hre

/-! ## Bytes and characters -/

theorem decode_take {w : Bytes} {u v : List (Rune × Nat)} (h : decode w = u ++ v) :
    decode (w.take (width u)) = u := by
  induction u generalizing w with
  | nil => simp [decode_nil]
  | cons a u ih =>
    cases w with
    | nil => simp [decode_nil] at h
    | cons b t =>
      rw [decode_cons, List.cons_append, List.cons.injEq] at h
      obtain ⟨h1, h2⟩ := h
      have hp := decodeRune_width_pos b t
      have hw : width (a :: u) = ((decodeRune b t).2 - 1 + width u) + 1 := by
        rw [width_cons, ← h1]; omega
      rw [hw, List.take_succ_cons, decode_cons, decodeRune_take b t (by omega), h1]
      congr 1
      rw [List.drop_take]
      have : (a.2 - 1 + width u) - (a.2 - 1) = width u := by omega
      rw [← h1] at this ⊢
      rw [this]
      exact ih h2

/-- A stretch of a string between two boundaries. -/
theorem decode_mid {w : Bytes} {u m v : List (Rune × Nat)} (h : decode w = u ++ m ++ v) :
    decode ((w.drop (width u)).take (width m)) = m := by
  rw [List.append_assoc] at h
  exact decode_take (decode_drop h)

theorem ascii_not_mem {w : Bytes} {c : UInt8} (hc : c.toNat < 0x80) (h : ∀ p ∈ decode w, p.1 ≠ c.toNat) :
    c ∉ w := fun hm => h _ (decode_ascii_mem hc hm) rfl

/-- A string all of whose characters are one ASCII character. -/
theorem eq_replicate_of_decode {w : Bytes} {c : UInt8} (hc : c.toNat < 0x80)
    (h : ∀ p ∈ decode w, p.1 = c.toNat) : w = List.replicate w.length c := by
  suffices ∀ n (w : Bytes), w.length ≤ n → (∀ p ∈ decode w, p.1 = c.toNat) →
      w = List.replicate w.length c from this _ w (Nat.le_refl _) h
  intro n
  induction n with
  | zero =>
    intro w hw _
    have : w = [] := List.eq_nil_of_length_eq_zero (by omega)
    simp [this]
  | succ n ih =>
    intro w hw h
    cases w with
    | nil => rfl
    | cons b t =>
      have h0 := h (decodeRune b t) (by simp [decode_cons])
      have h1 := decodeRune_lt (b := b) (t := t) (by omega)
      rw [h1.1] at h0
      have hb : b = c := UInt8.toNat_inj.1 h0
      subst hb
      rw [List.length_cons, List.replicate_succ]
      congr 1
      refine ih t (by simp at hw; omega) (fun p hp => h p ?_)
      rw [decode_cons_ascii hc]; simp [hp]

theorem decode_replicate {c : UInt8} (hc : c.toNat < 0x80) (n : Nat) (y : Bytes) :
    decode (List.replicate n c ++ y) = List.replicate n (c.toNat, 1) ++ decode y := by
  induction n with
  | zero => simp
  | succ n ih => simp [List.replicate_succ, decode_cons_ascii hc, ih]

theorem decode_single_ascii {w : Bytes} {c : UInt8} (hc : c.toNat < 0x80) {n : Nat}
    (h : decode w = [(c.toNat, n)]) : w = [c] := by
  have := eq_replicate_of_decode (w := w) hc (by rw [h]; simp)
  have hn := decode_lt_width (w := w) (r := c.toNat) (n := n) (by rw [h]; simp) hc
  have hl := decode_width_sum w
  rw [h] at hl
  simp at hl
  rw [this, ← hl, hn]; rfl

/-! ## Runs of one character -/

theorem lits_single (k : Rune) (s : St) : lits [k] s = one (· == k) s := by
  simp [lits]

theorem run_lit_single (k : Rune) : run (.lit [k]) = one (· == k) := by
  funext s; rw [run, lits_single]

/-- The state after consuming the first runes. -/
def _root_.Verif.Rx.St.after (s : St) (u v : List (Rune × Nat)) : St :=
  ⟨prevAfter s.prev u, s.pos + width u, v, s.caps⟩

theorem plusLoop_one_mem {g : Bool} {p : Rune → Bool} {fuel : Nat} {s s' : St}
    (h : s' ∈ plusLoop g (one p) fuel s) :
    ∃ u, u ≠ [] ∧ s.rest = u ++ s'.rest ∧ (∀ x ∈ u, p x.1 = true) ∧ s' = s.after u s'.rest := by
  have base : ∀ {s s' : St}, s' ∈ one p s →
      ∃ u, u ≠ [] ∧ s.rest = u ++ s'.rest ∧ (∀ x ∈ u, p x.1 = true) ∧ s' = s.after u s'.rest := by
    intro s s' h
    obtain ⟨r, n, t, h1, h2, rfl⟩ := one_mem h
    exact ⟨[(r, n)], by simp, by simpa using h1, by simpa using h2, by simp [St.after, prevAfter]⟩
  induction fuel generalizing s with
  | zero => exact base h
  | succ n ih =>
    simp only [plusLoop, List.mem_flatMap] at h
    obtain ⟨t, ht, h⟩ := h
    obtain ⟨u, hu1, hu2, hu3, hu4⟩ := base ht
    have key : s' ∈ plusLoop g (one p) n t ∨ s' = t := by
      split at h
      · split at h
        · simpa [or_comm] using h
        · simpa [or_comm] using h
      · exact .inr (by simpa using h)
    rcases key with h | rfl
    · obtain ⟨v, hv1, hv2, hv3, hv4⟩ := ih h
      refine ⟨u ++ v, by simp [hu1], ?_, ?_, ?_⟩
      · rw [hu2, hv2]; simp
      · intro x hx
        rcases List.mem_append.1 hx with hx | hx
        · exact hu3 x hx
        · exact hv3 x hx
      · rw [hv4, hu4]; simp [St.after, prevAfter_append, Nat.add_assoc]
    · exact ⟨u, hu1, hu2, hu3, hu4⟩

theorem starLoop_one_mem {g : Bool} {p : Rune → Bool} {s s' : St} (h : s' ∈ starLoop g (one p) s) :
    ∃ u, s.rest = u ++ s'.rest ∧ (∀ x ∈ u, p x.1 = true) ∧ s' = s.after u s'.rest := by
  rcases starLoop_mem h with rfl | h
  · exact ⟨[], by simp, by simp, by simp [St.after, prevAfter]⟩
  · obtain ⟨u, _, h1, h2, h3⟩ := plusLoop_one_mem h
    exact ⟨u, h1, h2, h3⟩

theorem one_eq_nil {p : Rune → Bool} {s : St} (h : ∀ x, s.rest.head? = some x → p x.1 = false) :
    one p s = [] := by
  unfold one
  split
  · rename_i r n t hs
    rw [hs] at h
    simp [h (r, n) rfl]
  · rfl

theorem plusLoop_one_nil {g : Bool} {p : Rune → Bool} {fuel : Nat} {s : St}
    (h : ∀ x, s.rest.head? = some x → p x.1 = false) : plusLoop g (one p) fuel s = [] := by
  cases fuel <;> simp [plusLoop, one_eq_nil h]

/-- A greedy loop prefers the longest run. -/
theorem plusLoop_one_head {p : Rune → Bool} {u v : List (Rune × Nat)} (hu : u ≠ [])
    (hp : ∀ x ∈ u, p x.1 = true) (hv : ∀ x, v.head? = some x → p x.1 = false) :
    ∀ {fuel : Nat} {s : St}, s.rest = u ++ v → u.length ≤ fuel + 1 →
      (plusLoop true (one p) fuel s).head? = some (s.after u v) := by
  induction u with
  | nil => exact absurd rfl hu
  | cons a u ih =>
    intro fuel s hs hf
    obtain ⟨r, n⟩ := a
    have h1 : one p s = [s.after [(r, n)] (u ++ v)] := by
      unfold one
      rw [hs]
      simp [hp (r, n) (by simp), St.after, prevAfter]
    cases fuel with
    | zero =>
      have : u = [] := List.eq_nil_of_length_eq_zero (by rw [List.length_cons] at hf; omega)
      subst this
      simp [plusLoop, h1]
    | succ fuel =>
      simp only [plusLoop, h1, List.flatMap_cons, List.flatMap_nil, List.append_nil]
      rw [if_pos (by rw [hs]; simp [St.after]), if_pos trivial]
      by_cases hu' : u = []
      · subst hu'
        rw [plusLoop_one_nil]
        · simp
        · simpa [St.after] using hv
      · rw [List.head?_append]
        rw [ih hu' (fun x hx => hp x (by simp [hx])) (s := s.after [(r, n)] (u ++ v)) rfl
          (by simp at hf; omega)]
        simp [St.after, prevAfter, Nat.add_assoc]

/-! ## `expandEdges` -/

/-- Every maximal run of `k` replaced by a function of its length; the first argument is the length of
the run so far. -/
def mapRuns (k : UInt8) (f : Nat → Bytes) : Nat → Bytes → Bytes
  | n, [] => if n = 0 then [] else f n
  | n, c :: t =>
    if c = k then mapRuns k f (n + 1) t
    else (if n = 0 then [] else f n) ++ c :: mapRuns k f 0 t

theorem mapRuns_split {k c : UInt8} (hc : c ≠ k) (f : Nat → Bytes) (x y : Bytes) (n : Nat) :
    mapRuns k f n (x ++ c :: y) = mapRuns k f n x ++ c :: mapRuns k f 0 y := by
  induction x generalizing n with
  | nil => simp [mapRuns, hc]
  | cons a x ih =>
    simp only [List.cons_append, mapRuns]
    split
    · exact ih _
    · simp [ih]

theorem mapRuns_none {k : UInt8} (f : Nat → Bytes) {x : Bytes} (hx : k ∉ x) (y : Bytes) :
    mapRuns k f 0 (x ++ y) = x ++ mapRuns k f 0 y := by
  induction x with
  | nil => rfl
  | cons a x ih =>
    simp only [List.mem_cons, not_or] at hx
    simp [mapRuns, Ne.symm hx.1, ih hx.2]

theorem mapRuns_replicate (k : UInt8) (f : Nat → Bytes) (n m : Nat) {y : Bytes} (hy : y.head? ≠ some k) :
    mapRuns k f m (List.replicate n k ++ y) = (if m + n = 0 then [] else f (m + n)) ++ mapRuns k f 0 y := by
  induction n generalizing m with
  | zero =>
    cases y with
    | nil => simp [mapRuns]
    | cons c y =>
      simp at hy
      simp [mapRuns, hy]
  | succ n ih =>
    simp only [List.replicate_succ, List.cons_append, mapRuns, if_true]
    rw [ih]
    have : m + 1 + n = m + (n + 1) := by omega
    rw [this]

theorem subs_head (p : Nat) (s : St) : (subs p s).headD 0 = (p : Int) ∧ (subs p s).getD 1 0 = (s.pos : Int) :=
  ⟨rfl, rfl⟩

/-- Positions where an expression does not match are skipped. -/
theorem findAllFrom_skip {r : Re} {fuel : Nat} {prev : Option Rune} {pos c n : Nat} {t : List (Rune × Nat)}
    (h : run r (start r prev pos ((c, n) :: t)) = [])
    (hpos : ∀ p s, searchFrom r t (some c) (pos + n) = some (p, s) → s.rest.length < t.length) :
    findAllFrom r (fuel + 1) prev pos ((c, n) :: t) = findAllFrom r (fuel + 1) (some c) (pos + n) t := by
  simp only [findAllFrom, searchFrom, h]
  cases hs : searchFrom r t (some c) (pos + n) with
  | none => rfl
  | some x =>
    obtain ⟨p, s⟩ := x
    have := hpos p s hs
    simp only [List.length_cons]
    rw [if_pos this, if_pos (by omega)]

theorem searchFrom_rest {r : Re} (hr : ∀ s s', s' ∈ run r s → s'.rest.length < s.rest.length) :
    ∀ (rest : List (Rune × Nat)) (prev : Option Rune) (pos p : Nat) (s : St),
      searchFrom r rest prev pos = some (p, s) → s.rest.length < rest.length := by
  intro rest
  induction rest with
  | nil =>
    intro prev pos p s h
    simp only [searchFrom, Option.map_eq_some_iff] at h
    obtain ⟨a, h1, h2⟩ := h
    have := hr _ _ (List.mem_of_mem_head? h1)
    simp [start] at this
  | cons a rest ih =>
    obtain ⟨c, n⟩ := a
    intro prev pos p s h
    simp only [searchFrom] at h
    split at h
    · rename_i s1 _ hs
      simp at h
      have := hr _ s1 (by rw [hs]; simp)
      simp [start] at this
      rw [← h.2]; simpa using this
    · have := ih _ _ _ _ h
      simp; omega

theorem replaceAllFunc_runs {k : UInt8} (hk : k.toNat < 0x80) (f : Bytes → Bytes) (w : Bytes) :
    replaceAllFunc (.plus true (.lit [k.toNat])) w f = mapRuns k (fun n => f (List.replicate n k)) 0 w := by
  suffices H : ∀ N (v : Bytes), v.length ≤ N → ∀ (pre mid : Bytes) (fuel : Nat) (prev : Option Rune),
      v.length < fuel →
      spliceMatches f (pre ++ (mid ++ v)) pre.length
        (findAllFrom (.plus true (.lit [k.toNat])) fuel prev (pre.length + mid.length) (decode v)) =
        mid ++ mapRuns k (fun n => f (List.replicate n k)) 0 v by
    have := H _ w (Nat.le_refl _) [] [] (w.length + 1) none (by omega)
    simpa [replaceAllFunc, findAll] using this
  intro N
  induction N with
  | zero =>
    intro v hv pre mid fuel prev hf
    have : v = [] := List.eq_nil_of_length_eq_zero (by omega)
    subst this
    obtain ⟨fuel, rfl⟩ : ∃ g, fuel = g + 1 := ⟨fuel - 1, by simp at hf; omega⟩
    have hn : searchFrom (.plus true (.lit [k.toNat])) [] prev (pre.length + mid.length) = none := by
      simp only [searchFrom, run]
      rw [show lits [k.toNat] = one (· == k.toNat) from funext (lits_single _), plusLoop_one_nil (by simp [start])]
      rfl
    simp [decode_nil, findAllFrom, hn, spliceMatches, mapRuns]
  | succ N ih =>
    intro v hv pre mid fuel prev hf
    obtain ⟨fuel, rfl⟩ : ∃ g, fuel = g + 1 := ⟨fuel - 1, by omega⟩
    have hrun : ∀ s, run (.plus true (.lit [k.toNat])) s = plusLoop true (one (· == k.toNat)) s.rest.length s := by
      intro s
      rw [run, run_lit_single]
    have hless : ∀ s s', s' ∈ run (.plus true (.lit [k.toNat])) s → s'.rest.length < s.rest.length := by
      intro s s' h
      rw [hrun] at h
      obtain ⟨u, h1, h2, _⟩ := plusLoop_one_mem h
      rw [h2]
      cases u with
      | nil => exact absurd rfl h1
      | cons a u => simp; omega
    cases v with
    | nil => exact ih [] (by simp) pre mid _ prev (by simp)
    | cons b t =>
      by_cases hb : b = k
      · -- a run starts here
        obtain ⟨n, rest, hv1, hr1⟩ : ∃ n rest, b :: t = List.replicate (n + 1) k ++ rest ∧ rest.head? ≠ some k := by
          subst hb
          refine ⟨(t.takeWhile (· == b)).length, t.dropWhile (· == b), ?_, ?_⟩
          · have : List.replicate (t.takeWhile (· == b)).length b = t.takeWhile (· == b) := by
              symm
              apply List.eq_replicate_of_mem
              intro x hx
              have := List.all_eq_true.1 (List.all_takeWhile (p := (· == b)) (l := t)) x hx
              simpa using this
            rw [List.replicate_succ, this]
            simp
          · intro hx
            have := List.head?_dropWhile_not (p := (· == b)) t
            rw [hx] at this
            simp at this
        rw [hv1] at hv hf ⊢
        rw [decode_replicate hk]
        have hhd : ∀ x, (decode rest).head? = some x → (x.1 == k.toNat) = false := by
          intro x hx
          cases rest with
          | nil => simp [decode_nil] at hx
          | cons c rest =>
            rw [decode_cons] at hx
            simp at hx
            subst hx
            simp only [beq_eq_false_iff_ne, ne_eq]
            intro he
            have h1 := decodeRune_lt (b := c) (t := rest) (by omega)
            rw [h1.1] at he
            exact hr1 (by simp [UInt8.toNat_inj.1 he])
        have hw : width (List.replicate (n + 1) (k.toNat, 1)) = n + 1 := by simp [width]
        have hs : searchFrom (.plus true (.lit [k.toNat]))
            (List.replicate (n + 1) (k.toNat, 1) ++ decode rest) prev (pre.length + mid.length) =
            some (pre.length + mid.length,
              (start (.plus true (.lit [k.toNat])) prev (pre.length + mid.length)
                (List.replicate (n + 1) (k.toNat, 1) ++ decode rest)).after
                (List.replicate (n + 1) (k.toNat, 1)) (decode rest)) := by
          have := plusLoop_one_head (p := (· == k.toNat)) (u := List.replicate (n + 1) (k.toNat, 1))
            (v := decode rest) (by simp [List.replicate_succ]) (by intro x hx; simp [List.eq_of_mem_replicate hx]) hhd
            (fuel := (List.replicate (n + 1) (k.toNat, 1) ++ decode rest).length)
            (s := start (.plus true (.lit [k.toNat])) prev (pre.length + mid.length)
                (List.replicate (n + 1) (k.toNat, 1) ++ decode rest)) rfl (by simp; omega)
          rw [List.replicate_succ, List.cons_append] at this ⊢
          rw [searchFrom]
          have h2 := hrun (start (.plus true (.lit [k.toNat])) prev (pre.length + mid.length)
            ((k.toNat, 1) :: (List.replicate n (k.toNat, 1) ++ decode rest)))
          simp only [start] at h2 this ⊢
          rw [h2]
          cases hl : plusLoop true (one (· == k.toNat)) _ _ with
          | nil => simp only [hl] at this; simp at this
          | cons a l =>
            simp only [hl] at this
            simp at this
            simp [this]
        have hlen : (decode rest).length < (List.replicate (n + 1) (k.toNat, 1) ++ decode rest).length := by
          simp
        rw [findAllFrom, hs]
        simp only [St.after, hlen, ↓reduceIte]
        simp only [spliceMatches, subs_head, Int.toNat_natCast]
        have h3 := ih rest (by simp at hv; omega) (pre ++ (mid ++ List.replicate (n + 1) k)) [] fuel
          (prevAfter prev (List.replicate (n + 1) (k.toNat, 1))) (by simp at hf; omega)
        rw [mapRuns_replicate k _ _ _ hr1]
        simp only [start, List.length_append, List.length_replicate, List.length_nil, Nat.add_zero, List.nil_append,
          List.append_assoc, hw] at h3 ⊢
        rw [← Nat.add_assoc] at h3
        rw [h3]
        have e1 : List.take (pre.length + mid.length - pre.length)
            (List.drop pre.length (pre ++ (mid ++ (List.replicate (n + 1) k ++ rest)))) = mid := by
          simp
        have e2 : List.take (pre.length + mid.length + (n + 1) - (pre.length + mid.length))
            (List.drop (pre.length + mid.length) (pre ++ (mid ++ (List.replicate (n + 1) k ++ rest)))) =
            List.replicate (n + 1) k := by
          rw [← List.append_assoc, ← List.length_append, List.drop_left, Nat.add_sub_cancel_left]
          simp
        rw [e1, e2]
        simp
      · -- another character
        have hr : (decodeRune b t).1 ≠ k.toNat := by
          intro he
          have h1 := decodeRune_lt (b := b) (t := t) (by omega)
          rw [h1.1] at he
          exact hb (UInt8.toNat_inj.1 he)
        have hwp := decodeRune_width_pos b t
        have hwl := decodeRune_width_le b t
        have htail := decodeRune_tail b t
        rw [decode_cons]
        generalize decodeRune b t = d at hr hwp hwl htail ⊢
        obtain ⟨r, n⟩ := d
        simp only at hr hwp hwl htail ⊢
        rw [findAllFrom_skip]
        · have hsplit : b :: t = (b :: t.take (n - 1)) ++ t.drop (n - 1) := by simp
          have hmem : k ∉ b :: t.take (n - 1) := by
            simp only [List.mem_cons, not_or]
            refine ⟨Ne.symm hb, fun hm => ?_⟩
            have := htail k hm
            omega
          have := ih (t.drop (n - 1)) (by simp at hv ⊢; omega) pre (mid ++ (b :: t.take (n - 1))) (fuel + 1) (some r)
            (by simp at hf ⊢; omega)
          rw [hsplit, mapRuns_none _ hmem]
          have hl : pre.length + (mid ++ (b :: t.take (n - 1))).length = pre.length + mid.length + n := by
            simp; omega
          rw [hl] at this
          simpa using this
        · rw [hrun]
          exact plusLoop_one_nil (by simp [start, hr])
        · intro p s hs
          exact searchFrom_rest hless _ _ _ _ _ hs

theorem expandEdges_eq (x : Bytes) :
    expandEdges x =
      mapRuns 0x24 (fun n => if n = 1 then rightEdgeExpr else [0x24]) 0
        (mapRuns 0x5E (fun n => if n = 1 then leftEdgeExpr else [0x5E]) 0 x) := by
  have h : ∀ (k : UInt8) (n : Nat), (List.replicate n k = [k]) = (n = 1) := by
    intro k n
    apply propext
    constructor
    · intro h; simpa using congrArg List.length h
    · rintro rfl; rfl
  have e1 := replaceAllFunc_runs (k := 0x5E) (by decide)
    (fun e => if e = [0x5E] then leftEdgeExpr else [0x5E]) x
  have e2 := replaceAllFunc_runs (k := 0x24) (by decide)
    (fun e => if e = [0x24] then rightEdgeExpr else [0x24])
    (mapRuns 0x5E (fun n => if n = 1 then leftEdgeExpr else [0x5E]) 0 x)
  simp only [h] at e1 e2
  rw [← e2, ← e1]
  rfl

theorem expandEdges_split {c : UInt8} (h1 : c ≠ 0x5E) (h2 : c ≠ 0x24) (x y : Bytes) :
    expandEdges (x ++ c :: y) = expandEdges x ++ c :: expandEdges y := by
  simp only [expandEdges_eq, mapRuns_split h1, mapRuns_split h2]

theorem expandEdges_nil : expandEdges [] = [] := by rw [expandEdges_eq]; rfl

/-! ## `expandLookahead` and `expandLookbehind` -/

theorem one_after {p : Rune → Bool} {s s' : St} (h : s' ∈ one p s) :
    ∃ a, p a.1 = true ∧ s.rest = a :: s'.rest ∧ s' = s.after [a] s'.rest := by
  obtain ⟨r, n, t, h1, h2, rfl⟩ := one_mem h
  exact ⟨(r, n), h2, h1, by simp [St.after, prevAfter]⟩

/-- A brace expression `{...}` recorded as group `i`. -/
theorem run_braces {i : Nat} {s s' : St}
    (h : s' ∈ run (.cat [.lit [0x7B], .cap i notBraces, .lit [0x7D]]) s) :
    ∃ (n1 n2 : Nat) (u : List (Rune × Nat)), u ≠ [] ∧ (∀ x ∈ u, x.1 ≠ 0x7D) ∧
      s.rest = (0x7B, n1) :: (u ++ (0x7D, n2) :: s'.rest) ∧
      s'.pos = s.pos + n1 + width u + n2 ∧
      s'.caps = (s.caps.set (2 * i) (some (s.pos + n1))).set (2 * i + 1) (some (s.pos + n1 + width u)) := by
  simp only [run, runCat, List.mem_flatMap, lits_single, List.mem_map, List.mem_singleton, notBraces] at h
  obtain ⟨s1, h1, s2, ⟨s3, h3, h4⟩, s5, h5, rfl⟩ := h
  obtain ⟨⟨a1, n1⟩, ha1, ha2, ha3⟩ := one_after h1
  obtain ⟨u, hu1, hu2, hu3, hu4⟩ := plusLoop_one_mem h3
  obtain ⟨⟨b1, n2⟩, hb1, hb2, hb3⟩ := one_after h5
  simp at ha1 hb1
  subst ha1 hb1 h4
  have e1 : s1.rest = u ++ s3.rest := hu2
  have e3 : s3.rest = (0x7D, n2) :: s'.rest := hb2
  refine ⟨n1, n2, u, hu1, ?_, ?_, ?_, ?_⟩
  · intro x hx
    have := hu3 x hx
    simp [inRanges] at this
    omega
  · rw [ha2, e1, e3]
  · rw [hb3, hu4, ha3]; simp [St.after, setCap]
  · rw [hb3, hu4, ha3]; simp [St.after, setCap]

theorem getElem?_set_pair {l : List (Option Nat)} {i j : Nat} {a : Option Nat} (h : i < l.length) :
    (l.set i a)[j]? = if i = j then some a else l[j]? := by
  rw [List.getElem?_set]
  split
  · subst_vars; simp
  · rfl

theorem substr_span (x y z : Bytes) :
    substr (x ++ (y ++ z)) (x.length : Int) ((x.length + y.length : Nat) : Int) = y := by
  have hl : (x ++ (y ++ z)).length = x.length + y.length + z.length := by simp; omega
  have e : (if ((x.length + y.length : Nat) : Int) > ((x ++ (y ++ z)).length : Int) then
      ((x ++ (y ++ z)).length : Int) else ((x.length + y.length : Nat) : Int)) =
      ((x.length + y.length : Nat) : Int) := if_neg (by omega)
  unfold substr
  rw [if_neg (by omega)]
  simp only [e, Int.toNat_natCast]
  by_cases h : y = []
  · subst h
    split
    · rfl
    · rw [if_neg (by simp)]
  · have h0 : 0 < y.length := List.length_pos_iff.2 h
    rw [if_neg (by omega), if_pos (by omega), List.drop_left, Nat.add_sub_cancel_left, List.take_left]

theorem substr_neg (s : Bytes) {a b : Int} (h : a < 0) : substr s a b = [] := by
  unfold substr; rw [if_pos (.inl h)]

/-- The braces around an expression, if there is any. -/
def braced (look : Bytes) : Bytes := if look = [] then [] else [0x7B] ++ look ++ [0x7D]

theorem lookahead_matches (expr : Bytes) : ∃ m, findSubmatch reLookahead expr = some m := by
  unfold findSubmatch
  cases h : searchFrom reLookahead (decode expr) none 0 with
  | some x => exact ⟨_, rfl⟩
  | none =>
    exfalso
    suffices ∀ (l : List (Rune × Nat)) prev pos, searchFrom reLookahead l prev pos ≠ none from this _ _ _ h
    intro l
    induction l with
    | nil =>
      intro prev pos
      simp [searchFrom, run, runCat, reLookahead, start, starLoop, check, setCap]
    | cons a l ih =>
      intro prev pos
      obtain ⟨c, n⟩ := a
      simp only [searchFrom]
      split
      · simp
      · exact ih _ _

theorem lookbehind_matches (expr : Bytes) : ∃ m, findSubmatch reLookbehind expr = some m := by
  unfold findSubmatch
  cases hd : decode expr with
  | nil => exact ⟨_, by simp [searchFrom, run, runCat, reLookbehind, start, starLoop, check, setCap]; rfl⟩
  | cons a l =>
    obtain ⟨c, n⟩ := a
    simp only [searchFrom]
    split
    · exact ⟨_, rfl⟩
    · rename_i h
      exfalso
      simp [run, runCat, reLookbehind, start, starLoop, check, setCap] at h

/-- A string split at two boundaries. -/
theorem split_bytes {w : Bytes} {u m v : List (Rune × Nat)} (h : decode w = u ++ (m ++ v)) :
    ∃ x y z : Bytes, w = x ++ (y ++ z) ∧ x.length = width u ∧ y.length = width m ∧
      decode x = u ∧ decode y = m ∧ decode z = v := by
  have hw := decode_width w
  rw [h, width_append, width_append] at hw
  refine ⟨w.take (width u), (w.drop (width u)).take (width m), (w.drop (width u)).drop (width m), ?_, ?_, ?_,
    decode_take h, decode_take (decode_drop h), decode_drop (decode_drop h)⟩
  · rw [List.take_append_drop, List.take_append_drop]
  · rw [List.length_take]; omega
  · rw [List.length_take, List.length_drop]; omega

theorem braced_of_decode {w : Bytes} {n1 n2 : Nat} {u : List (Rune × Nat)} (hu : u ≠ [])
    (h : decode w = (0x7B, n1) :: (u ++ [(0x7D, n2)])) (hb : ∀ x ∈ u, x.1 ≠ 0x7D) :
    ∃ look, w = braced look ∧ decode look = u ∧ look ≠ [] ∧ 0x7D ∉ look ∧ n1 = 1 ∧ n2 = 1 := by
  obtain ⟨x, y, z, rfl, h1, h2, h3, h4, h5⟩ := split_bytes (u := [(0x7B, n1)]) (m := u) (v := [(0x7D, n2)]) h
  have hx := decode_single_ascii (c := 0x7B) (by decide) h3
  have hz := decode_single_ascii (c := 0x7D) (by decide) h5
  have hy : y ≠ [] := by rintro rfl; exact hu (by rw [← h4, decode_nil])
  refine ⟨y, ?_, h4, hy, ascii_not_mem (by decide) (by rw [h4]; exact hb), ?_, ?_⟩
  · rw [hx, hz, braced, if_neg hy]; simp
  · exact decode_lt_width (r := 0x7B) (w := x) (by rw [h3]; simp) (by decide)
  · exact decode_lt_width (r := 0x7D) (w := z) (by rw [h5]; simp) (by decide)

theorem captured_some {s : Bytes} {m : List Int} {n : Nat} {a b : Int} (h1 : m[n * 2]? = some a)
    (h2 : m[n * 2 + 1]? = some b) : captured s m n = .ok (substr s a b) := by
  simp [captured, index_ok h1, index_ok h2]

theorem lookahead_split {expr : Bytes} {m : List Int} (h : findSubmatch reLookahead expr = some m) :
    ∃ (other look : Bytes) (n : Nat), 0x7D ∉ look ∧
      expr = other ++ (braced look ++ List.replicate n 0x24) ∧
      index m 0 = .ok (other.length : Int) ∧ captured expr m 1 = .ok look ∧
      captured expr m 2 = .ok (List.replicate n 0x24) := by
  obtain ⟨u, v, s, h1, h2, rfl⟩ := findSubmatch_some h
  obtain ⟨s0, hs0, hc0, hp0, hr0⟩ : ∃ s0, s0 = start reLookahead (prevAfter none u) (width u) v ∧
      s0.caps = [none, none, none, none, none, none] ∧ s0.pos = width u ∧ s0.rest = v := ⟨_, rfl, rfl, rfl, rfl⟩
  rw [← hs0] at h2
  clear hs0
  rw [show reLookahead = .cat [.quest true (.cat [.lit [0x7B], .cap 1 notBraces, .lit [0x7D]]),
    .cap 2 (.star true (.lit [0x24])), .endText] from rfl] at h2
  rw [run] at h2
  simp only [runCat, List.mem_flatMap, List.mem_singleton] at h2
  obtain ⟨s1, hq, s2, hs2, s3, hs3, rfl⟩ := h2
  rw [run] at hq
  rw [run, run, run_lit_single] at hs2
  obtain ⟨s4, hs4, rfl⟩ := List.mem_map.1 hs2
  obtain ⟨e, he1, he2, he3⟩ := starLoop_one_mem hs4
  rw [run] at hs3
  obtain ⟨rfl, hend⟩ := check_mem hs3
  have hr4 : s4.rest = [] := by simpa [setCap] using hend
  have he1' : s1.rest = e := by simpa [setCap, hr4] using he1
  have hcaps : s4.caps = s1.caps.set 4 (some s1.pos) := by rw [he3]; simp [St.after, setCap]
  have hpos : s4.pos = s1.pos + width e := by rw [he3]; simp [St.after, setCap]
  have hedge : ∀ {z : Bytes}, decode z = e → z = List.replicate z.length 0x24 ∧ z.length = width e := by
    intro z hz
    refine ⟨eq_replicate_of_decode (by decide) ?_, by rw [← decode_width z, hz]⟩
    rw [hz]; intro p hp; simpa using he2 p hp
  clear hs2 hs3 hs4 he1 he3
  rcases quest_mem hq with rfl | hq
  · -- no braces
    have hv : e = v := by rw [← he1', hr0]
    obtain ⟨x, y, z, rfl, k1, k2, k3, k4, k5⟩ := split_bytes (u := u) (m := []) (v := v) (by simpa using h1)
    have : y = [] := (decode_eq_nil_iff y).1 k4
    subst this
    obtain ⟨hz, hzl⟩ := hedge (k5.trans hv.symm)
    refine ⟨x, [], z.length, by simp, ?_, ?_, ?_, ?_⟩
    · rw [← hz]; rfl
    · rw [k1]; rfl
    · refine (captured_some (n := 1) (a := -1) (b := -1) ?_ ?_).trans ?_
      · simp [subs, setCap, hcaps, hc0, toInt]
      · simp [subs, setCap, hcaps, hc0, toInt]
      · rw [substr_neg _ (by omega)]
    · refine (captured_some (n := 2) (a := x.length) (b := ((x.length + z.length : Nat) : Int)) ?_ ?_).trans ?_
      · simp [subs, setCap, hcaps, hc0, toInt, hp0, k1]
      · simp [subs, setCap, hcaps, hc0, toInt, hpos, hp0, k1, hzl]
      · have := substr_span x z []
        rw [List.append_nil] at this
        rw [← hz, List.nil_append, this]
  · -- braces
    obtain ⟨n1, n2, b, hb1, hb2, hb3, hb4, hb5⟩ := run_braces hq
    rw [he1', hr0] at hb3
    obtain ⟨x, y, z, rfl, k1, k2, k3, k4, k5⟩ := split_bytes (u := u) (m := (0x7B, n1) :: (b ++ [(0x7D, n2)])) (v := e)
      (by rw [h1, hb3]; simp)
    obtain ⟨look, rfl, hl1, hl2, hl3, rfl, rfl⟩ := braced_of_decode hb1 k4 hb2
    obtain ⟨hz, hzl⟩ := hedge k5
    have hll : look.length = width b := by rw [← decode_width look, hl1]
    refine ⟨x, look, z.length, hl3, ?_, ?_, ?_, ?_⟩
    · rw [← hz]
    · rw [k1]; rfl
    · refine (captured_some (n := 1) (a := ((x.length + 1 : Nat) : Int)) (b := ((x.length + 1 + look.length : Nat) : Int)) ?_ ?_).trans ?_
      · simp [subs, setCap, hcaps, hb5, hc0, toInt, hp0, k1]
      · simp [subs, setCap, hcaps, hb5, hc0, toInt, hp0, k1, hll]
      · have := substr_span (x ++ [0x7B]) look ([0x7D] ++ z)
        simp only [List.length_append, List.length_singleton] at this
        rw [show x ++ (braced look ++ z) = x ++ [0x7B] ++ (look ++ ([0x7D] ++ z)) by simp [braced, hl2], this]
    · refine (captured_some (n := 2) (a := ((x ++ braced look).length : Int)) (b := (((x ++ braced look).length + z.length : Nat) : Int)) ?_ ?_).trans ?_
      · simp [subs, setCap, hcaps, hb5, hc0, toInt, hp0, hb4, k1, braced, hl2, hll]; omega
      · simp [subs, setCap, hcaps, hb5, hc0, toInt, hp0, hpos, hb4, k1, braced, hl2, hll, hzl]; omega
      · have := substr_span (x ++ braced look) z []
        rw [List.append_nil, List.append_assoc] at this
        rw [← hz, this]

theorem lookbehind_split {expr : Bytes} {m : List Int} (h : findSubmatch reLookbehind expr = some m) :
    ∃ (other look : Bytes) (n : Nat), 0x7D ∉ look ∧
      expr = List.replicate n 0x5E ++ (braced look ++ other) ∧
      index m 1 = .ok ((List.replicate n (0x5E : UInt8) ++ braced look).length : Int) ∧
      captured expr m 1 = .ok (List.replicate n 0x5E) ∧ captured expr m 2 = .ok look := by
  obtain ⟨u, v, s, h1, h2, rfl⟩ := findSubmatch_some h
  obtain ⟨s0, hs0, hc0, hp0, hr0, hv0⟩ : ∃ s0, s0 = start reLookbehind (prevAfter none u) (width u) v ∧
      s0.caps = [none, none, none, none, none, none] ∧ s0.pos = width u ∧ s0.rest = v ∧
      s0.prev = prevAfter none u := ⟨_, rfl, rfl, rfl, rfl, rfl⟩
  rw [← hs0] at h2
  clear hs0
  rw [show reLookbehind = .cat [.beginText, .cap 1 (.star true (.lit [0x5E])),
    .quest true (.cat [.lit [0x7B], .cap 2 notBraces, .lit [0x7D]])] from rfl] at h2
  rw [run] at h2
  simp only [runCat, List.mem_flatMap, List.mem_singleton] at h2
  obtain ⟨s1, hs1, s2, hs2, s3, hq, rfl⟩ := h2
  rw [run] at hs1
  obtain ⟨rfl, hbeg⟩ := check_mem hs1
  have hu : u = [] := by
    rw [hv0] at hbeg
    have key : ∀ (u : List (Rune × Nat)) (p : Option Rune), p.isSome → (prevAfter p u).isSome := by
      intro u
      induction u with
      | nil => intro p h; exact h
      | cons a u ih => intro p _; obtain ⟨r, n⟩ := a; exact ih _ rfl
    cases u with
    | nil => rfl
    | cons a u =>
      obtain ⟨r, n⟩ := a
      have := key u (some r) rfl
      simp only [prevAfter] at hbeg
      cases h : prevAfter (some r) u <;> simp [h] at hbeg this
  subst hu
  rw [width_nil] at hp0
  rw [List.nil_append] at h1
  rw [run] at hq
  rw [run, run, run_lit_single] at hs2
  obtain ⟨s4, hs4, rfl⟩ := List.mem_map.1 hs2
  obtain ⟨e, he1, he2, he3⟩ := starLoop_one_mem hs4
  have he1' : v = e ++ s4.rest := by rw [← hr0]; simpa [setCap] using he1
  have hcaps : s4.caps = s1.caps.set 2 (some 0) := by rw [he3]; simp [St.after, setCap, hp0]
  have hpos : s4.pos = width e := by rw [he3]; simp [St.after, setCap, hp0]
  have hedge : ∀ {z : Bytes}, decode z = e → z = List.replicate z.length 0x5E ∧ z.length = width e := by
    intro z hz
    refine ⟨eq_replicate_of_decode (by decide) ?_, by rw [← decode_width z, hz]⟩
    rw [hz]; intro p hp; simpa using he2 p hp
  clear hs1 hs2 hs4 he1 he3
  rcases quest_mem hq with rfl | hq
  · -- no braces
    obtain ⟨z, y, x, rfl, k1, k2, k3, k4, k5⟩ := split_bytes (u := e) (m := []) (v := s4.rest)
      (by rw [h1, he1']; simp)
    have : y = [] := (decode_eq_nil_iff y).1 k4
    subst this
    obtain ⟨hz, hzl⟩ := hedge k3
    refine ⟨x, [], z.length, by simp, ?_, ?_, ?_, ?_⟩
    · rw [← hz]; rfl
    · rw [← hz]
      simp [subs, index, setCap, hpos, k1, braced]
    · refine (captured_some (n := 1) (a := 0) (b := (z.length : Int)) ?_ ?_).trans ?_
      · simp [subs, setCap, hcaps, hc0, toInt]
      · simp [subs, setCap, hcaps, hc0, toInt, hpos, k1]
      · have := substr_span [] z x
        rw [← hz, List.nil_append]
        simpa using this
    · refine (captured_some (n := 2) (a := -1) (b := -1) ?_ ?_).trans ?_
      · simp [subs, setCap, hcaps, hc0, toInt]
      · simp [subs, setCap, hcaps, hc0, toInt]
      · rw [substr_neg _ (by omega)]
  · -- braces
    obtain ⟨n1, n2, b, hb1, hb2, hb3, hb4, hb5⟩ := run_braces hq
    obtain ⟨z, y, x, rfl, k1, k2, k3, k4, k5⟩ := split_bytes (u := e) (m := (0x7B, n1) :: (b ++ [(0x7D, n2)])) (v := s.rest)
      (by rw [h1, he1', show s4.rest = _ from hb3]; simp)
    obtain ⟨look, rfl, hl1, hl2, hl3, rfl, rfl⟩ := braced_of_decode hb1 k4 hb2
    obtain ⟨hz, hzl⟩ := hedge k3
    have hll : look.length = width b := by rw [← decode_width look, hl1]
    have hp3 : (setCap (2 * 1 + 1) s4).pos = z.length := by rw [k1, ← hpos]; rfl
    have hc3 : (setCap (2 * 1 + 1) s4).caps = [none, none, some 0, some z.length, none, none] := by
      simp [setCap, hcaps, hc0, hpos, k1]
    rw [hp3] at hb4
    rw [hc3, hp3] at hb5
    refine ⟨x, look, z.length, hl3, ?_, ?_, ?_, ?_⟩
    · rw [← hz]
    · rw [← hz]
      simp [subs, index, hb4, braced, hl2, hll]; omega
    · refine (captured_some (n := 1) (a := 0) (b := (z.length : Int)) ?_ ?_).trans ?_
      · simp [subs, hb5, toInt]
      · simp [subs, hb5, toInt]
      · have := substr_span [] z (braced look ++ x)
        rw [← hz]
        simpa using this
    · refine (captured_some (n := 2) (a := ((z.length + 1 : Nat) : Int)) (b := ((z.length + 1 + look.length : Nat) : Int)) ?_ ?_).trans ?_
      · simp [subs, hb5, toInt]
      · simp [subs, hb5, toInt, hll]
      · have := substr_span (z ++ [0x7B]) look ([0x7D] ++ x)
        simp only [List.length_append, List.length_singleton] at this
        rw [show z ++ (braced look ++ x) = z ++ [0x7B] ++ (look ++ ([0x7D] ++ x)) by simp [braced, hl2], this]

/-! ## Expressions without capturing groups -/

theorem hasPrefix_single (c k : UInt8) (t : Bytes) : hasPrefix (c :: t) [k] = decide (c = k) := by
  simp [hasPrefix, List.isPrefixOf, Bool.beq_eq_decide_eq, eq_comm]

theorem replaceAll_single (k : UInt8) (new s : Bytes) :
    replaceAll [k] new s = s.flatMap fun c => if c = k then new else [c] := by
  unfold replaceAll replacePairs
  induction s with
  | nil => simp [replaceFrom, lookupKey, hasPrefix]
  | cons c t ih =>
    by_cases h : c = k
    · simp [replaceFrom, lookupKey, hasPrefix_single, h, ih]
    · simp [replaceFrom, lookupKey, hasPrefix_single, h, ih]

theorem noCapture_eq (x : Bytes) :
    noCapture x = x.flatMap fun c => if c = 0x28 then [0x28, 0x3F, 0x3A] else [c] := replaceAll_single _ _ _

/-- Every opening parenthesis is that of a group `(?:`. -/
def quiet : Bytes → Bool
  | [] => true
  | c :: t => (c != 0x28 || t.take 2 == [0x3F, 0x3A]) && quiet t

def quietR : List Rune → Bool
  | [] => true
  | c :: t => (c != 0x28 || t.take 2 == [0x3F, 0x3A]) && quietR t

theorem quiet_append {a b : Bytes} (ha : quiet a = true) (hb : quiet b = true) : quiet (a ++ b) = true := by
  induction a with
  | nil => exact hb
  | cons c t ih =>
    simp only [quiet, Bool.and_eq_true, Bool.or_eq_true, bne_iff_ne, ne_eq, beq_iff_eq, List.cons_append] at ha ⊢
    refine ⟨ha.1.imp_right fun h => ?_, ih ha.2⟩
    match t, h with
    | [x, y], h => simpa using h
    | x :: y :: z :: t, h => simpa using h

theorem quiet_noCapture (x : Bytes) : quiet (noCapture x) = true := by
  rw [noCapture_eq]
  induction x with
  | nil => rfl
  | cons c t ih =>
    rw [List.flatMap_cons]
    refine quiet_append ?_ ih
    by_cases h : c = 0x28
    · rw [if_pos h]; decide
    · rw [if_neg h]; simp [quiet, h]

theorem quiet_drop {x : Bytes} (h : quiet x = true) (n : Nat) : quiet (x.drop n) = true := by
  induction n generalizing x with
  | zero => simpa using h
  | succ n ih =>
    cases x with
    | nil => simpa using h
    | cons c t =>
      simp only [quiet, Bool.and_eq_true] at h
      simpa using ih h.2

theorem quiet_mapRuns {k : UInt8} (hk1 : k ≠ 0x3F) (hk2 : k ≠ 0x3A) {f : Nat → Bytes}
    (hf : ∀ n, quiet (f n) = true) {x : Bytes} (hx : quiet x = true) (n : Nat) :
    quiet (mapRuns k f n x) = true := by
  induction x generalizing n with
  | nil => simp only [mapRuns]; split <;> simp [quiet, hf]
  | cons c t ih =>
    simp only [quiet, Bool.and_eq_true, Bool.or_eq_true, bne_iff_ne, ne_eq, beq_iff_eq] at hx
    simp only [mapRuns]
    split
    · exact ih hx.2 _
    · refine quiet_append (by split <;> simp [quiet, hf]) ?_
      simp only [quiet, Bool.and_eq_true, Bool.or_eq_true, bne_iff_ne, ne_eq, beq_iff_eq]
      refine ⟨hx.1.imp_right fun h => ?_, ih hx.2 _⟩
      match t, h with
      | x :: y :: t, h =>
        simp at h
        obtain ⟨rfl, rfl⟩ := h
        simp [mapRuns, Ne.symm hk1, Ne.symm hk2]

theorem quiet_expandEdges {x : Bytes} (hx : quiet x = true) : quiet (expandEdges x) = true := by
  rw [expandEdges_eq]
  refine quiet_mapRuns (by decide) (by decide) ?_
    (quiet_mapRuns (by decide) (by decide) ?_ hx 0) 0
  · intro n; split <;> decide
  · intro n; split <;> decide

theorem quietR_runes {x : Bytes} (hx : quiet x = true) : quietR (runes x) = true := by
  suffices ∀ n (x : Bytes), x.length ≤ n → quiet x = true → quietR (runes x) = true from
    this _ x (Nat.le_refl _) hx
  intro n
  induction n with
  | zero =>
    intro x hl _
    have : x = [] := List.eq_nil_of_length_eq_zero (by omega)
    subst this; rfl
  | succ n ih =>
    intro x hl hx
    cases x with
    | nil => rfl
    | cons b t =>
      have hx' := hx
      simp only [quiet, Bool.and_eq_true, Bool.or_eq_true, bne_iff_ne, ne_eq, beq_iff_eq] at hx
      rw [runes_cons]
      simp only [quietR, Bool.and_eq_true, Bool.or_eq_true, bne_iff_ne, ne_eq, beq_iff_eq]
      refine ⟨?_, ih _ (by simp at hl ⊢; omega) (quiet_drop hx.2 _)⟩
      by_cases h : (decodeRune b t).1 = 0x28
      · right
        have hd := decodeRune_lt (b := b) (t := t) (by omega)
        rw [hd.1] at h ⊢
        have hb : b = 0x28 := UInt8.toNat_inj.1 h
        have ht := hx.1.resolve_left (by simp [hb])
        match t, ht with
        | x :: y :: t, ht =>
          simp at ht
          obtain ⟨rfl, rfl⟩ := ht
          simp [runes, decode_cons_ascii (c := 0x3F) (by decide), decode_cons_ascii (c := 0x3A) (by decide)]
      · exact .inl h

theorem lexClass_not_open {t : List Rune} {tok : Tok} {n : Nat} (h : lexClass t = .ok (tok, n)) :
    tok ≠ .open := by
  unfold lexClass at h
  split at h
  all_goals
    simp only [go_bind_ok, Prod.exists, Go.ok.injEq, Prod.mk.injEq] at h
    obtain ⟨_, _, _, rfl, _⟩ := h
    simp

theorem escapeTok_not_open {c : Rune} {tok : Tok} (h : escapeTok c = .ok tok) : tok ≠ .open := by
  unfold escapeTok at h
  split at h
  · simp at h; subst h; simp
  · repeat' split at h
    all_goals first | (simp at h; done) | (simp at h; subst h; simp) | skip
    simp only [go_bind_ok] at h
    obtain ⟨_, _, h⟩ := h
    simp at h; subst h; simp

theorem lexOne_not_open {c : Rune} {t : List Rune} {tok : Tok} {n : Nat}
    (hq : c ≠ 0x28 ∨ t.take 2 = [0x3F, 0x3A]) (h : lexOne c t = .ok (tok, n)) : tok ≠ .open := by
  by_cases hc : c = 0x28
  · have := hq.resolve_left (by simp [hc])
    unfold lexOne at h
    rw [if_pos hc, if_pos this] at h
    simp at h
    rw [← h.1]; simp
  · unfold lexOne at h
    rw [if_neg hc] at h
    by_cases c2 : c = 0x29
    · rw [if_pos c2] at h; simp at h; obtain ⟨rfl, _⟩ := h; simp
    rw [if_neg c2] at h
    by_cases c3 : c = 0x7C
    · rw [if_pos c3] at h; simp at h; obtain ⟨rfl, _⟩ := h; simp
    rw [if_neg c3] at h
    by_cases c4 : c = 0x5E
    · rw [if_pos c4] at h; simp at h; obtain ⟨rfl, _⟩ := h; simp
    rw [if_neg c4] at h
    by_cases c5 : c = 0x24
    · rw [if_pos c5] at h; simp at h; obtain ⟨rfl, _⟩ := h; simp
    rw [if_neg c5] at h
    by_cases c6 : c = 0x2E
    · rw [if_pos c6] at h; simp at h; obtain ⟨rfl, _⟩ := h; simp
    rw [if_neg c6] at h
    by_cases c7 : c = 0x2A
    · rw [if_pos c7] at h; simp at h; obtain ⟨rfl, _⟩ := h; simp
    rw [if_neg c7] at h
    by_cases c8 : c = 0x2B
    · rw [if_pos c8] at h; simp at h; obtain ⟨rfl, _⟩ := h; simp
    rw [if_neg c8] at h
    by_cases c9 : c = 0x3F
    · rw [if_pos c9] at h; simp at h; obtain ⟨rfl, _⟩ := h; simp
    rw [if_neg c9] at h
    by_cases c10 : c = 0x5B
    · rw [if_pos c10] at h; exact lexClass_not_open h
    rw [if_neg c10] at h
    by_cases c11 : c = 0x7B
    · rw [if_pos c11] at h
      split at h
      · simp at h; obtain ⟨rfl, _⟩ := h; simp
      · split at h
        · simp at h
        · simp at h; obtain ⟨rfl, _⟩ := h; simp
    rw [if_neg c11] at h
    by_cases c12 : c = 0x5C
    · rw [if_pos c12] at h
      cases t with
      | nil => simp at h
      | cons e t =>
        simp only [go_bind_ok, Go.ok.injEq, Prod.mk.injEq] at h
        obtain ⟨_, h0, rfl, _⟩ := h
        exact escapeTok_not_open h0
    · rw [if_neg c12] at h; simp at h; obtain ⟨rfl, _⟩ := h; simp

theorem lexFrom_not_open : ∀ (k : Nat) (a : List Rune) (ts : List Tok), quietR a = true →
    lexFrom k a = .ok ts → ∀ t ∈ ts, t ≠ .open
  | _, [], ts, _, h => by simp [lexFrom] at h; subst h; simp
  | k + 1, c :: t, ts, hq, h => by
      simp only [quietR, Bool.and_eq_true] at hq
      exact lexFrom_not_open k t ts hq.2 (by simpa [lexFrom] using h)
  | 0, c :: t, ts, hq, h => by
      simp only [quietR, Bool.and_eq_true, Bool.or_eq_true, bne_iff_ne, ne_eq, beq_iff_eq] at hq
      simp only [lexFrom, go_bind_ok] at h
      obtain ⟨⟨tok, n⟩, h1, us, h2, h3⟩ := h
      simp at h3
      subst h3
      intro x hx
      rcases List.mem_cons.1 hx with rfl | hx
      · exact lexOne_not_open hq.1 h1
      · exact lexFrom_not_open n t us hq.2 h2 x hx

theorem pstep_ncap {st st' : PSt} {t : Tok} (ht : t ≠ .open) (h : pstep st t = .ok st') :
    st'.ncap = st.ncap := by
  have rep : ∀ f, st.repeat f = .ok st' → st'.ncap = st.ncap := by
    intro f h
    unfold PSt.repeat at h
    split at h
    · simp at h; rw [← h]
    · simp at h
  cases t with
  | «open» => exact absurd rfl ht
  | lit r => simp [pstep, PSt.push] at h; rw [← h]
  | re r => simp [pstep, PSt.push] at h; rw [← h]
  | openNC => simp [pstep] at h; rw [← h]
  | bar => simp [pstep] at h; rw [← h]
  | close =>
    simp only [pstep] at h
    split at h
    · simp at h
    · simp [PSt.push] at h; rw [← h]
  | star g => exact rep _ h
  | plus g => exact rep _ h
  | quest g => exact rep _ h
  | rep mn mx g => exact rep _ h

theorem psteps_ncap {ts : List Tok} (ht : ∀ t ∈ ts, t ≠ .open) :
    ∀ {st st' : PSt}, psteps st ts = .ok st' → st'.ncap = st.ncap := by
  induction ts with
  | nil => intro st st' h; simp [psteps] at h; rw [h]
  | cons t ts ih =>
    intro st st' h
    simp only [psteps, go_bind_ok] at h
    obtain ⟨s1, h1, h2⟩ := h
    rw [ih (fun t h => ht t (by simp [h])) h2, pstep_ncap (ht t (by simp)) h1]

theorem compile_parses {x : Bytes} {r : Re} (h : compile x = .ok r) :
    ValidUtf8 x ∧ ∃ ts f l, Parses (runes x) ts f (numCap r) l := by
  unfold compile at h
  split at h
  · rename_i hv
    obtain ⟨ts, f, k, l, h1, rfl⟩ := parseRunes_iff.1 h
    exact ⟨hv, ts, f, l, by rw [h1.numCap]; exact h1⟩
  · simp at h

theorem numCap_of_quiet {x : Bytes} {r : Re} (hq : quiet x = true) (h : compile x = .ok r) : numCap r = 0 := by
  obtain ⟨_, ts, f, l, hp⟩ := compile_parses h
  have := psteps_ncap (lexFrom_not_open 0 _ _ (quietR_runes hq) hp.lex) hp.steps
  simpa [PSt.init] using this

/-- A pattern made of `(a)(b)m(c)(d)` where each piece is a regular expression on its own and only the
middle one has groups is well-shaped. -/
theorem wellShaped_of_pieces {p : Pattern} {a b m c d : Bytes} {ra rb rm rc rd : Re}
    (hp : compile (paren a ++ (paren b ++ (m ++ (paren c ++ paren d)))) = .ok p.re)
    (ha : compile a = .ok ra) (hb : compile b = .ok rb) (hm : compile m = .ok rm)
    (hc : compile c = .ok rc) (hd : compile d = .ok rd)
    (na : numCap ra = 0) (nb : numCap rb = 0) (nc : numCap rc = 0) (nd : numCap rd = 0) :
    WellShaped p := by
  obtain ⟨va, _, _, _, ha⟩ := compile_parses ha
  obtain ⟨vb, _, _, _, hb⟩ := compile_parses hb
  obtain ⟨vm, _, _, _, hm⟩ := compile_parses hm
  obtain ⟨vc, _, _, _, hc⟩ := compile_parses hc
  obtain ⟨vd, _, _, _, hd⟩ := compile_parses hd
  rw [na] at ha; rw [nb] at hb; rw [nc] at hc; rw [nd] at hd
  unfold compile at hp
  split at hp
  · have vo : ValidUtf8 [0x28] := ⟨[0x28], by decide, by decide⟩
    have vx : ValidUtf8 [0x29] := ⟨[0x29], by decide, by decide⟩
    have ro : runes [0x28] = [0x28] := by decide
    have rx : runes [0x29] = [0x29] := by decide
    have : runes (paren a ++ (paren b ++ (m ++ (paren c ++ paren d)))) =
        pieces (runes a) (runes b) (runes m) (runes c) (runes d) := by
      simp only [paren, List.append_assoc]
      simp only [runes_append va, runes_append vb, runes_append vm, runes_append vc, runes_append vd,
        runes_append vo, runes_append vx, ro, rx, pieces]
      simp
    rw [this] at hp
    exact (ordOk_pieces ha hb hm hc hd hp).2
  · simp at hp

end Verif.Hre
