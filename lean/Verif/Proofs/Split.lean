import Verif.Proofs.Shape
import Verif.Proofs.Leftmost
import Verif.Proofs.Scan
import Mathlib.Data.List.Basic
import Verif.Proofs.VarParse

/-! How a pattern text is split into edges, lookarounds and core: the split is the expected one. -/

namespace Verif.Hre

open Verif.Rx Verif.Spec

theorem head?_flatMap_of {α β : Type} {l : List α} {f : α → List β} {a : α} {b : β} (h : l.head? = some a)
    (hb : (f a).head? = some b) : (l.flatMap f).head? = some b := by
  cases l with
  | nil => simp at h
  | cons c l =>
    simp at h
    subst h
    rw [List.flatMap_cons, List.head?_append, hb]
    rfl

theorem braced_cons {look : Bytes} (h : look ≠ []) : braced look = 0x7B :: (look ++ [0x7D]) := by
  rw [braced, if_neg h]; simp

theorem braced_nil : braced [] = [] := rfl

/-- The first closing brace. -/
theorem first_brace {a b x y : Bytes} (ha : 0x7D ∉ a) (hb : 0x7D ∉ b) (h : a ++ 0x7D :: x = b ++ 0x7D :: y) :
    a = b ∧ x = y := by
  induction a generalizing b with
  | nil =>
    cases b with
    | nil => simpa using h
    | cons c b => simp at h hb; exact absurd h.1 hb.1
  | cons c a ih =>
    cases b with
    | nil => simp at h ha; exact absurd h.1.symm ha.1
    | cons d b =>
      simp only [List.cons_append, List.cons.injEq, List.mem_cons, not_or] at h ha hb
      obtain ⟨h1, h2⟩ := ih ha.2 hb.2 h.2
      exact ⟨by rw [h.1, h1], h2⟩

theorem tail_unique {a b : Bytes} {m n : Nat} (ha : 0x7D ∉ a) (hb : 0x7D ∉ b)
    (h : braced a ++ List.replicate m 0x24 = braced b ++ List.replicate n 0x24) : a = b ∧ m = n := by
  by_cases h1 : a = []
  · by_cases h2 : b = []
    · subst h1 h2
      simp only [braced_nil, List.nil_append] at h
      have := congrArg List.length h
      simpa using this
    · subst h1
      rw [braced_nil, braced_cons h2, List.nil_append] at h
      cases m <;> simp [List.replicate_succ] at h
  · by_cases h2 : b = []
    · subst h2
      rw [braced_nil, braced_cons h1, List.nil_append] at h
      cases n <;> simp [List.replicate_succ] at h
    · rw [braced_cons h1, braced_cons h2] at h
      simp only [List.cons_append, List.append_assoc, List.cons.injEq, true_and, List.nil_append] at h
      obtain ⟨h3, h4⟩ := first_brace ha hb h
      have := congrArg List.length h4
      exact ⟨h3, by simpa using this⟩

theorem front_unique {a b : Bytes} {m n : Nat}
    (h : List.replicate m 0x5E ++ braced a = List.replicate n 0x5E ++ braced b) : a = b ∧ m = n := by
  induction m generalizing n with
  | zero =>
    cases n with
    | zero =>
      simp only [List.replicate_zero, List.nil_append] at h
      by_cases h1 : a = []
      · by_cases h2 : b = []
        · exact ⟨by rw [h1, h2], rfl⟩
        · rw [h1, braced_nil, braced_cons h2] at h; simp at h
      · by_cases h2 : b = []
        · rw [h2, braced_nil, braced_cons h1] at h; simp at h
        · rw [braced_cons h1, braced_cons h2] at h
          simp at h
          exact ⟨h, rfl⟩
    | succ n =>
      exfalso
      simp only [List.replicate_zero, List.nil_append, List.replicate_succ, List.cons_append] at h
      by_cases h1 : a = []
      · rw [h1, braced_nil] at h; simp at h
      · rw [braced_cons h1] at h; simp at h
  | succ m ih =>
    cases n with
    | zero =>
      exfalso
      simp only [List.replicate_zero, List.nil_append, List.replicate_succ, List.cons_append] at h
      by_cases h1 : b = []
      · rw [h1, braced_nil] at h; simp at h
      · rw [braced_cons h1] at h; simp at h
    | succ n =>
      simp only [List.replicate_succ, List.cons_append, List.cons.injEq, true_and] at h
      obtain ⟨h1, h2⟩ := ih h
      exact ⟨h1, by rw [h2]⟩

/-- The characters of a text between braces. -/
theorem match_notBraces {b u a : List Rune} (hu : u ≠ []) (h : ∀ c ∈ u, c ≠ 0x7D) : Match notBraces b u a := by
  have e : u = (u.map fun c => [c]).flatten := (flatten_map_single u).symm
  rw [e]
  refine .plus _ (by simpa using hu) ?_
  intro xs v ys hv
  have : v ∈ u.map fun c => [c] := by rw [hv]; simp
  obtain ⟨c, hc, rfl⟩ := List.mem_map.1 this
  refine .cls ?_
  have := h c hc
  simp only [List.mem_singleton, exists_eq_left]
  constructor
  · intro hh; omega
  · intro hh; simp at hh

theorem match_braces {i : Nat} {b u a : List Rune} (hu : u ≠ []) (h : ∀ c ∈ u, c ≠ 0x7D) :
    Match (.cat [.lit [0x7B], .cap i notBraces, .lit [0x7D]]) b (0x7B :: (u ++ [0x7D])) a := by
  have := Match.cons (r := .lit [0x7B]) (rs := [.cap i notBraces, .lit [0x7D]]) (b := b) (u := [0x7B]) (v := u ++ [0x7D]) (a := a)
    (.lit _) (.cons (.cap (match_notBraces hu h)) (by
      have := Match.cons (r := .lit [0x7D]) (rs := []) (b := b ++ [0x7B] ++ u) (u := [0x7D]) (v := []) (a := a) (.lit _) .nil
      simpa using this))
  simpa using this

theorem match_dollars {b a : List Rune} {n : Nat} {c : Rune} : Match (.star true (.lit [c])) b (List.replicate n c) a := by
  have e : List.replicate n c = (List.replicate n [c]).flatten := by
    have := flatten_map_single (List.replicate n c)
    rw [List.map_replicate] at this
    exact this.symm
  rw [e]
  refine .star _ ?_
  intro xs v ys hv
  have : v ∈ List.replicate n [c] := by rw [hv]; simp
  rw [List.eq_of_mem_replicate this]
  exact .lit _

theorem runes_braced {look : Bytes} (hv : ValidUtf8 look) (h : look ≠ []) : runes (braced look) = 0x7B :: (runes look ++ [0x7D]) := by
  have v1 : ValidUtf8 [0x7B] := ⟨[0x7B], by decide, by decide⟩
  have r1 : runes [0x7B] = [0x7B] := by decide
  have r2 : runes [0x7D] = [0x7D] := by decide
  have : braced look = [0x7B] ++ (look ++ [0x7D]) := by rw [braced_cons h]; rfl
  rw [this, runes_append v1, runes_append hv, r1, r2]
  rfl

theorem runes_not_brace {look : Bytes} (hv : ValidUtf8 look) (h : 0x7D ∉ look) : ∀ c ∈ runes look, c ≠ 0x7D := by
  obtain ⟨u, hu, rfl⟩ := hv
  rw [runes_encode hu]
  rintro c hc rfl
  obtain ⟨x, y, rfl⟩ := List.append_of_mem hc
  refine h ?_
  rw [encode_append, encode_cons]
  exact List.mem_append_right _ (List.mem_append_left _ (by decide))

theorem runes_ne_nil {look : Bytes} (h : look ≠ []) : runes look ≠ [] := by
  intro hh
  exact h ((decode_eq_nil_iff look).1 (List.map_eq_nil_iff.1 hh))

theorem decode_dollars (n : Nat) (c : UInt8) (hc : c.toNat < 0x80) : runes (List.replicate n c) = List.replicate n c.toNat := by
  have := decode_replicate hc n []
  rw [List.append_nil, decode_nil, List.append_nil] at this
  rw [runes, this]
  simp

theorem replicate_valid (n : Nat) (c : UInt8) (hc : c.toNat < 0x80) : ValidUtf8 (List.replicate n c) := by
  induction n with
  | zero => exact .nil
  | succ n ih =>
    have : ValidUtf8 [c] := ⟨[c.toNat], by
      simp only [List.mem_singleton, forall_eq, validRune_iff]
      omega, by
      have : encodeRune c.toNat = [c] := by
        unfold encodeRune
        simp [encodeValid, hc, validRune_iff]
        omega
      simp [this]⟩
    rw [List.replicate_succ]
    exact this.append ih

theorem start_of_search {r : Re} {expr : Bytes} {m : List Int} (h : findSubmatch r expr = some m) :
    ∃ u v s, decode expr = u ++ v ∧ (run r (start r (prevAfter none u) (width u) v)).head? = some s ∧ m = subs (width u) s ∧
      ∀ u' v', decode expr = u' ++ v' → u'.length < u.length →
        run r (start r (prevAfter none u') (width u') v') = [] := by
  simp only [findSubmatch, Option.map_eq_some_iff, Prod.exists] at h
  obtain ⟨p, s, h, rfl⟩ := h
  obtain ⟨u, v, h1, h2, h3, h4⟩ := searchFrom_first h
  simp only [Nat.zero_add] at h2 h4
  subst h2
  exact ⟨u, v, s, h1, h3, rfl, h4⟩

/-- What comes after a closing brace. -/
theorem after_brace {look x y d : Bytes} (hl : 0x7D ∉ look) (h : look ++ 0x7D :: d = x ++ 0x7D :: y) :
    ∃ z, d = z ++ y := by
  induction x generalizing look with
  | nil =>
    cases look with
    | nil => exact ⟨[], by simpa using h⟩
    | cons c look => simp at h hl; exact absurd h.1 (Ne.symm hl.1)
  | cons c x ih =>
    cases look with
    | nil =>
      simp at h
      exact ⟨x ++ [0x7D], by simp [h.2]⟩
    | cons b look =>
      simp only [List.cons_append, List.cons.injEq, List.mem_cons, not_or] at h hl
      exact ih hl.2 h.2

/-- The lookahead begins after the core. -/
theorem lookahead_at {pre core look : Bytes} {n : Nat} (hpre : ValidUtf8 (pre ++ core)) (hlook : ValidUtf8 look) (hl : 0x7D ∉ look)
    (hp : 0x7B ∉ pre ∨ pre.getLast? = some 0x7D) (hc : core ≠ []) (h1 : 0x24 ∉ core) (h2 : 0x7B ∉ core) :
    ∃ m, findSubmatch reLookahead (pre ++ core ++ (braced look ++ List.replicate n 0x24)) = some m ∧
      index m 0 = .ok ((pre ++ core).length : Int) ∧
      captured (pre ++ core ++ (braced look ++ List.replicate n 0x24)) m 1 = .ok look ∧
      captured (pre ++ core ++ (braced look ++ List.replicate n 0x24)) m 2 = .ok (List.replicate n 0x24) := by
  generalize hx : pre ++ core ++ (braced look ++ List.replicate n 0x24) = expr
  obtain ⟨m, hm⟩ := lookahead_matches expr
  obtain ⟨other, look', n', k1, k2, k3, k4, k5⟩ := lookahead_split hm
  obtain ⟨u, v, s, g1, g2, g3, g4⟩ := start_of_search hm
  have hu : other.length = width u := by
    rw [g3] at k3
    simp [subs, index] at k3
    omega
  -- not later
  have hle : other.length ≤ (pre ++ core).length := by
    rcases Nat.lt_or_ge (pre ++ core).length other.length with hlt | hge
    · exfalso
      have hd : decode expr = decode (pre ++ core) ++ decode (braced look ++ List.replicate n 0x24) := by
        rw [← hx, decode_append hpre]
      have hw : width (decode (pre ++ core)) = (pre ++ core).length := decode_width _
      have hlen : (decode (pre ++ core)).length < u.length := by
        rcases Nat.lt_or_ge (decode (pre ++ core)).length u.length with h | h
        · exact h
        · exfalso
          have : u <+: decode (pre ++ core) := by
            rw [g1] at hd
            exact List.prefix_of_prefix_length_le (l₃ := u ++ v) (List.prefix_append u v) (by rw [hd]; exact List.prefix_append _ _) h
          obtain ⟨t, ht⟩ := this
          have := width_append u t
          rw [ht, hw] at this
          omega
      have hemp := g4 _ _ hd hlen
      have hmatch : Match reLookahead (runes (pre ++ core)) (runes (braced look ++ List.replicate n 0x24)) [] := by
        have e2 : ∀ b, Match (.cat [.cap 2 (.star true (.lit [0x24])), .endText]) b (List.replicate n 0x24) [] := by
          intro b
          have := Match.cons (r := .cap 2 (.star true (.lit [0x24]))) (rs := [.endText]) (b := b) (u := List.replicate n 0x24) (v := [])
            (a := []) (.cap match_dollars) (by
              have := Match.cons (r := .endText) (rs := []) (b := b ++ List.replicate n 0x24) (u := []) (v := []) (a := []) .endText .nil
              simpa using this)
          simpa using this
        by_cases h0 : look = []
        · subst h0
          rw [braced_nil, List.nil_append, decode_dollars n 0x24 (by decide)]
          exact .cons (u := []) .skip (by simpa using e2 _)
        · rw [runes_append (a := braced look) (by
            rw [braced_cons h0]
            exact ValidUtf8.append (a := [0x7B]) ⟨[0x7B], by decide, by decide⟩ (hlook.append ⟨[0x7D], by decide, by decide⟩)),
            runes_braced hlook h0, decode_dollars n 0x24 (by decide)]
          exact .cons (.quest (match_braces (runes_ne_nil h0) (runes_not_brace hlook hl))) (e2 _)
      obtain ⟨s', hs', _⟩ := run_coversIn hmatch (start reLookahead (prevAfter none (decode (pre ++ core))) (width (decode (pre ++ core)))
        (decode (braced look ++ List.replicate n 0x24))) (decode (braced look ++ List.replicate n 0x24)) [] (by
          have := prevAfter_getLast (b := []) (decode (pre ++ core))
          simpa [start, runes, chars] using this) (by simp [start]) rfl rfl
      rw [hemp] at hs'
      simp at hs'
    · exact hge
  -- not earlier
  have heq : pre ++ core = other := by
    rw [← hx] at k2
    rcases List.append_eq_append_iff.1 k2 with ⟨c, hc1, hc2⟩ | ⟨c, hc1, hc2⟩
    · have : c = [] := by
        have := congrArg List.length hc1
        simp only [List.length_append] at this hle
        exact List.eq_nil_of_length_eq_zero (by omega)
      rw [hc1, this, List.append_nil]
    · by_cases hc0 : c = []
      · rw [hc1, hc0, List.append_nil]
      exfalso
      have hhead : c.head? = some 0x7B ∨ c.head? = some 0x24 := by
        cases c with
        | nil => exact absurd rfl hc0
        | cons b c =>
          by_cases h0 : look' = []
          · rw [h0, braced_nil, List.nil_append] at hc2
            cases n' with
            | zero => simp at hc2
            | succ n' => simp only [List.replicate_succ, List.cons_append, List.cons.injEq] at hc2; right; simp [hc2.1]
          · rw [braced_cons h0] at hc2
            simp only [List.cons_append, List.cons.injEq] at hc2
            left; simp [hc2.1]
      rcases List.append_eq_append_iff.1 hc1 with ⟨d, hd1, hd2⟩ | ⟨d, hd1, hd2⟩
      · -- it would begin in the core
        have : ∀ b, c.head? = some b → b ∈ core := by
          intro b hb
          rw [hd2]
          exact List.mem_append_right _ (List.mem_of_head? hb)
        rcases hhead with h | h
        · exact h2 (this _ h)
        · exact h1 (this _ h)
      · -- it would begin before the core
        by_cases hd0 : d = []
        · subst hd0
          simp only [List.nil_append] at hd2
          subst hd2
          rcases hhead with h | h
          · exact h2 (List.mem_of_head? h)
          · exact h1 (List.mem_of_head? h)
        by_cases h0 : look' = []
        · rw [h0, braced_nil, List.nil_append, hd2] at hc2
          obtain ⟨b, hb⟩ := List.exists_mem_of_ne_nil _ hc
          have : b ∈ List.replicate n' (0x24 : UInt8) := by rw [hc2]; simp [hb]
          rw [List.eq_of_mem_replicate this] at hb
          exact h1 hb
        · have hdh : d.head? = some 0x7B := by
            rw [braced_cons h0, hd2] at hc2
            cases d with
            | nil => exact absurd rfl hd0
            | cons b d => simp only [List.cons_append, List.cons.injEq] at hc2; simp [hc2.1]
          have hdl : d.getLast? = some 0x7D := by
            rcases hp with hp | hp
            · exact absurd (by rw [hd1]; exact List.mem_append_right _ (List.mem_of_head? hdh)) hp
            · rw [hd1, List.getLast?_append] at hp
              cases hg : d.getLast? with
              | none => exact absurd (List.getLast?_eq_none_iff.1 hg) hd0
              | some b => rw [hg] at hp; simpa using hp
          obtain ⟨d', rfl⟩ : ∃ d', d = d' ++ [0x7D] := ⟨d.dropLast, by
            exact (List.dropLast_append_getLast? _ hdl).symm⟩
          rw [braced_cons h0, hd2] at hc2
          have hd' : ∃ d'', d' = 0x7B :: d'' := by
            cases d' with
            | nil => simp at hdh
            | cons b d' => simp at hdh; exact ⟨d', by rw [hdh]⟩
          obtain ⟨d'', rfl⟩ := hd'
          simp only [List.cons_append, List.append_assoc, List.cons.injEq, true_and, List.nil_append] at hc2
          obtain ⟨z, hz⟩ := after_brace k1 hc2
          obtain ⟨b, hb⟩ := List.exists_mem_of_ne_nil _ hc
          have : b ∈ List.replicate n' (0x24 : UInt8) := by rw [hz]; simp [hb]
          rw [List.eq_of_mem_replicate this] at hb
          exact h1 hb
  subst heq
  have := k2
  rw [← hx, List.append_cancel_left_eq] at this
  obtain ⟨rfl, rfl⟩ := tail_unique hl k1 this
  exact ⟨m, hm, k3, k4, k5⟩

/-- The first way to match the lookbehind takes all carets, and then the braces if there are any. -/
theorem lookbehind_run {s : St} {n : Nat} {look t : Bytes} (hp : s.prev = none)
    (hr : s.rest = decode (List.replicate n 0x5E ++ (braced look ++ t))) (hlook : ValidUtf8 look) (hl : 0x7D ∉ look)
    (ht : look = [] → t.head? ≠ some 0x5E ∧ t.head? ≠ some 0x7B) :
    ∃ s', (run reLookbehind s).head? = some s' ∧ s'.pos = s.pos + (List.replicate n (0x5E : UInt8) ++ braced look).length := by
  have hrest : s.rest = List.replicate n (0x5E, 1) ++ decode (braced look ++ t) := by
    rw [hr, decode_replicate (c := 0x5E) (by decide)]
    rfl
  have hhead : ∀ x, (decode (braced look ++ t)).head? = some x → x.1 ≠ 0x5E := by
    intro x hx
    by_cases h0 : look = []
    · subst h0
      rw [braced_nil, List.nil_append] at hx
      cases t with
      | nil => rw [decode_nil] at hx; simp at hx
      | cons b t =>
        rw [decode_cons] at hx
        simp only [List.head?_cons, Option.some.injEq] at hx
        rw [← hx]
        intro h
        have := decodeRune_lt (b := b) (t := t) (by rw [h]; decide)
        rw [this.1] at h
        exact (ht rfl).1 (by simp only [List.head?_cons, Option.some.injEq]; exact UInt8.toNat_inj.1 h)
    · rw [braced_cons h0, List.cons_append, decode_cons_ascii (c := 0x7B) (by decide)] at hx
      simp only [List.head?_cons, Option.some.injEq] at hx
      rw [← hx]
      decide
  -- after the carets
  have h1 : ∃ s1, (run (.cap 1 (.star true (.lit [0x5E]))) s).head? = some s1 ∧ s1.pos = s.pos + n ∧
      s1.rest = decode (braced look ++ t) := by
    rw [run, run, run_lit_single]
    have hc : ∀ x, (decode (braced look ++ t)).head? = some x → (x.1 == 0x5E) = false := by
      intro x hx
      simpa using hhead x hx
    cases n with
    | zero =>
      refine ⟨setCap (2 * 1 + 1) (setCap (2 * 1) s), ?_, by simp [setCap], by simpa [setCap] using hrest⟩
      rw [starLoop, if_pos rfl, plusLoop_one_nil]
      · rfl
      · simpa [setCap, hrest] using hc
    | succ n =>
      refine ⟨setCap (2 * 1 + 1) ((setCap (2 * 1) s).after (List.replicate (n + 1) (0x5E, 1)) (decode (braced look ++ t))), ?_, ?_, rfl⟩
      · rw [List.head?_map, starLoop, if_pos rfl, List.head?_append, plusLoop_one_head (u := List.replicate (n + 1) (0x5E, 1))
          (v := decode (braced look ++ t)) (by simp [List.replicate_succ]) ?_ hc (by simpa [setCap] using hrest) ?_]
        · rfl
        · intro x hx
          rw [List.eq_of_mem_replicate hx]
          rfl
        · simp [setCap, hrest]
          omega
      · simp [setCap, St.after, width]
  obtain ⟨s1, h1, p1, r1⟩ := h1
  -- after the braces
  have h2 : ∃ s2, (run (.quest true (.cat [.lit [0x7B], .cap 2 notBraces, .lit [0x7D]])) s1).head? = some s2 ∧
      s2.pos = s1.pos + (braced look).length := by
    rw [run, if_pos rfl, List.head?_append]
    by_cases h0 : look = []
    · subst h0
      have : run (.cat [.lit [0x7B], .cap 2 notBraces, .lit [0x7D]]) s1 = [] := by
        rw [List.eq_nil_iff_forall_not_mem]
        intro s' hs'
        obtain ⟨n1, n2, u, _, _, q3, _⟩ := run_braces hs'
        rw [r1, braced_nil, List.nil_append] at q3
        cases t with
        | nil => rw [decode_nil] at q3; simp at q3
        | cons b t =>
          rw [decode_cons] at q3
          simp only [List.cons.injEq] at q3
          have h := q3.1
          have hh := decodeRune_lt (b := b) (t := t) (by rw [h]; show 0x7B < 0x80; decide)
          have : b.toNat = 0x7B := by rw [hh.1] at h; exact (Prod.mk.inj h).1
          exact (ht rfl).2 (by simp only [List.head?_cons, Option.some.injEq]; exact UInt8.toNat_inj.1 this)
      rw [this]
      exact ⟨s1, rfl, by simp [braced_nil]⟩
    · have hb : ValidUtf8 (braced look) := by
        rw [braced_cons h0]
        exact ValidUtf8.append (a := [0x7B]) ⟨[0x7B], by decide, by decide⟩ (hlook.append ⟨[0x7D], by decide, by decide⟩)
      have hm := match_braces (i := 2) (b := runes look) (a := runes t) (runes_ne_nil h0) (runes_not_brace hlook hl)
      obtain ⟨s', hs', _⟩ := run_coversIn (match_braces (i := 2) (b := s1.prev.toList) (a := runes t) (runes_ne_nil h0) (runes_not_brace hlook hl))
        s1 (decode (braced look)) (decode t) (by cases s1.prev <;> rfl) (by rw [r1, decode_append hb])
        (by rw [← runes_braced hlook h0]; rfl) rfl
      cases hd : run (.cat [.lit [0x7B], .cap 2 notBraces, .lit [0x7D]]) s1 with
      | nil => rw [hd] at hs'; simp at hs'
      | cons s2 l =>
        refine ⟨s2, rfl, ?_⟩
        obtain ⟨n1, n2, u, q1, q2, q3, q4, _⟩ := run_braces (s' := s2) (i := 2) (s := s1) (by rw [hd]; simp)
        have e : s1.rest = (0x7B, 1) :: (decode look ++ (0x7D, 1) :: decode t) := by
          rw [r1, braced_cons h0, List.cons_append, decode_cons_ascii (c := 0x7B) (by decide), List.append_assoc, decode_append hlook,
            List.singleton_append, decode_cons_ascii (c := 0x7D) (by decide)]
          rfl
        rw [e] at q3
        simp only [List.cons.injEq, Prod.mk.injEq, true_and] at q3
        obtain ⟨rfl, q3⟩ := q3
        have key : ∀ (a b : List (Rune × Nat)) (x y : List (Rune × Nat)) (n1 n2 : Nat), (∀ p ∈ a, p.1 ≠ 0x7D) → (∀ p ∈ b, p.1 ≠ 0x7D) →
            a ++ (0x7D, n1) :: x = b ++ (0x7D, n2) :: y → a = b ∧ n1 = n2 := by
          intro a
          induction a with
          | nil =>
            intro b x y n1 n2 _ hb h
            cases b with
            | nil => simp at h; exact ⟨rfl, h.1⟩
            | cons c b => simp at h hb; exact absurd (by rw [← h.1]) hb.1
          | cons c a ih =>
            intro b x y n1 n2 ha hb h
            cases b with
            | nil => simp at h ha; exact absurd (by rw [h.1]) ha.1
            | cons d b =>
              simp only [List.cons_append, List.cons.injEq] at h
              obtain ⟨w1, w2⟩ := ih b x y n1 n2 (fun p hp => ha p (by simp [hp])) (fun p hp => hb p (by simp [hp])) h.2
              exact ⟨by rw [h.1, w1], w2⟩
        obtain ⟨e1, e2⟩ := key _ _ _ _ _ _ (fun p hp => runes_not_brace hlook hl _ (List.mem_map.2 ⟨p, hp, rfl⟩)) q2 q3
        have hw : width u = look.length := by rw [← e1]; exact decode_width look
        rw [q4, hw, ← e2, braced_cons h0]
        simp
        omega
  obtain ⟨s2, h2, p2⟩ := h2
  refine ⟨s2, ?_, ?_⟩
  · rw [show reLookbehind = .cat [.beginText, .cap 1 (.star true (.lit [0x5E])),
      .quest true (.cat [.lit [0x7B], .cap 2 notBraces, .lit [0x7D]])] from rfl, run, runCat]
    have hb : run .beginText s = [s] := by
      rw [run, hp]
      rfl
    rw [hb, List.flatMap_cons, List.flatMap_nil, List.append_nil, runCat]
    refine head?_flatMap_of h1 ?_
    rw [runCat]
    exact head?_flatMap_of h2 rfl
  · rw [p2, p1]
    simp
    omega

theorem lookbehind_at {look t : Bytes} {n : Nat} (hlook : ValidUtf8 look) (hl : 0x7D ∉ look)
    (ht : look = [] → t.head? ≠ some 0x5E ∧ t.head? ≠ some 0x7B) :
    ∃ m, findSubmatch reLookbehind (List.replicate n 0x5E ++ (braced look ++ t)) = some m ∧
      index m 1 = .ok ((List.replicate n (0x5E : UInt8) ++ braced look).length : Int) ∧
      captured (List.replicate n 0x5E ++ (braced look ++ t)) m 1 = .ok (List.replicate n 0x5E) ∧
      captured (List.replicate n 0x5E ++ (braced look ++ t)) m 2 = .ok look := by
  generalize hx : List.replicate n 0x5E ++ (braced look ++ t) = expr
  obtain ⟨m, hm⟩ := lookbehind_matches expr
  obtain ⟨other, look', n', k1, k2, k3, k4, k5⟩ := lookbehind_split hm
  obtain ⟨u, v, s, g1, g2, g3, g4⟩ := start_of_search hm
  obtain ⟨s', h1, h2⟩ := lookbehind_run (s := start reLookbehind none 0 (decode expr)) (n := n) (look := look) (t := t) rfl (by rw [hx]; rfl)
    hlook hl ht
  have hu : u = [] := by
    rcases Nat.eq_zero_or_pos u.length with h | h
    · exact List.eq_nil_of_length_eq_zero h
    · have := g4 [] (decode expr) rfl h
      rw [show prevAfter none ([] : List (Rune × Nat)) = none from rfl, width_nil] at this
      rw [this] at h1
      simp at h1
  subst hu
  rw [List.nil_append] at g1
  subst g1
  rw [show prevAfter none ([] : List (Rune × Nat)) = none from rfl, width_nil, h1] at g2
  cases g2
  have hi : index m 1 = .ok ((List.replicate n (0x5E : UInt8) ++ braced look).length : Int) := by
    rw [g3]
    simp only [subs, index, List.getElem?_cons_succ, List.getElem?_cons_zero, h2]
    simp [start]
  rw [hi] at k3
  simp only [Go.ok.injEq, Int.natCast_inj] at k3
  have e : List.replicate n (0x5E : UInt8) ++ braced look = List.replicate n' 0x5E ++ braced look' := by
    rw [← hx, ← List.append_assoc, ← List.append_assoc] at k2
    exact (List.append_inj k2 k3).1
  obtain ⟨rfl, rfl⟩ := front_unique e
  exact ⟨m, hm, hi, k4, k5⟩

end Verif.Hre
