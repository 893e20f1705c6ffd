import Verif.Proofs.ChoiceWhole
import Verif.Props.ExprWhole

/-!
# Property C94: which of several texts `Find` takes

What is found at a place is the text of the least choices (`Spec/Choice.lean`): the earlier alternative, the earlier value of
a var, a further repetition or no further one.
-/

namespace Verif.Props
open Verif.Hre Verif.Rx Verif.Spec Verif.Spec.Expr

/-- C94 (partial): an expression with edges and lookarounds is a pattern.  In every word `Find` goes to the leftmost place
where the parts stand one after another, takes the parts of the least choices there, goes on from the end of the
expression's text, and reports each text against which there is no veto; and this determines what it reports.  Missing: as
for `C93_whole_partial`; repetitions of a text that may be empty.  The groups are in `C95_groups_partial`. -/
theorem C94_picks_partial {vars : List (Bytes × List Bytes)} {macros : List (Bytes × Bytes)} {w : Whole} (h : w.Fit vars)
    (hw : w.Solid) (hm : ∀ m ∈ macros, m.1 ≠ [] ∧ ¬ m.1 <:+: encode w.text) :
    ∃ p, newPattern (encode w.text) macros vars = .ok p ∧
      (∀ word ms, find p word (-1) = .ok ms → Scan (w.PicksFrom word) (w.Vetoed word) word.length 0 ms ∧
        ∀ ms', Scan (w.PicksFrom word) (w.Vetoed word) word.length 0 ms' → ms'.map (·.take 2) = ms.map (·.take 2)) ∧
      (¬ Means w.mid [] → ∀ word, ∃ ms, find p word (-1) = .ok ms) := by
  obtain ⟨p, sh, rc, hp, h1, h2, h3, h4, hno, hc, hs⟩ := whole_pattern h hm
  obtain ⟨p', hp', _, hret⟩ := C93_whole_partial h hm
  rw [hp] at hp'
  cases hp'
  obtain ⟨e1, lb, core', k, la, e2, r, -⟩ := whole_runs h sh h1 h2 h3 h4 hno hc hs
  refine ⟨p, hp, fun word ms hf => ?_, hret⟩
  have hv : ∀ j k, vetoes p word j k ↔ w.Vetoed word j k := by
    intro j k
    refine (vetoed_iff hp sh ?_).trans (whole_veto h sh h1 h2 h3 h4)
    rintro e (⟨he, _⟩ | ⟨he, _⟩)
    · obtain ⟨_, _, _, r, hr, _⟩ := whole_neg h.ahead (h4 ▸ he)
      exact ⟨r, hr⟩
    · obtain ⟨_, _, _, r, hr, _⟩ := whole_neg h.behind (h3 ▸ he)
      exact ⟨r, hr⟩
  have hscan : Scan (w.PicksFrom word) (w.Vetoed word) word.length 0 ms :=
    scan_congr (fun _ _ _ _ => Iff.rfl) (fun _ _ j k _ => hv j k) (r.scan hw (boundary_zero word) hf)
  exact ⟨hscan, fun ms' h' => scan_unique (occ := w.PicksFrom word) (picks_unique hw) picks_bound h' hscan⟩

/-- C94: exactly where the parts stand one after another, parts are taken, and always the same. -/
theorem C94_one {w : Whole} (hw : w.Solid) (word : Bytes) (o i : Nat) :
    ((∃ j k, w.OccursFrom word o i j k) ↔ ∃ j k, w.PicksFrom word o i j k) ∧
    (∀ j k, w.PicksFrom word o i j k → w.OccursFrom word o i j k) ∧
    ∀ j k j' k', w.PicksFrom word o i j k → w.PicksFrom word o i j' k' → j = j' ∧ k = k' :=
  ⟨⟨fun ⟨_, _, h⟩ => occurs_picks hw h, fun ⟨j, k, h⟩ => ⟨j, k, picks_occurs h⟩⟩, fun _ _ => picks_occurs,
    fun _ _ _ _ => picks_unique hw⟩

/-! ## Repetitions -/

/-- `[..]+` or `[..]+?` -/
def repeated (greedy : Bool) (ranges : List (Nat × Nat)) : Whole := ⟨0, .nothing, .more greedy (.oneOf ranges), .nothing, 0⟩

theorem chooses_repeated {g : Bool} {r : List (Nat × Nat)} {cs : List Nat} {u : List Rune}
    (h : Chooses (.more g (.oneOf r)) cs u) : ∃ n, u.length = n + 1 ∧ cs = List.replicate n (again g) ++ [enough g] := by
  obtain ⟨c, v, ps, rfl, rfl, ⟨rfl, a, rfl, _⟩, h2⟩ := h
  refine ⟨ps.length, ?_⟩
  induction ps with
  | nil => simp [rounds]
  | cons p ps ih =>
    obtain ⟨i1, i2⟩ := ih fun q hq => h2 q (by simp [hq])
    obtain ⟨q1, b, q2, _⟩ := h2 p (by simp)
    simp only [List.nil_append, List.flatMap_cons, q2, rounds, q1, List.length_cons, List.replicate_succ, List.cons_append,
      List.cons.injEq, true_and] at i1 i2 ⊢
    exact ⟨by omega, i2⟩

theorem repeated_lt {a b : Nat} (h : a < b) {m n : Nat} (hm : m < n) :
    Lt (List.replicate n a ++ [b]) (List.replicate m a ++ [b]) ∧ Lt (List.replicate m b ++ [a]) (List.replicate n b ++ [a]) := by
  obtain ⟨d, rfl⟩ : ∃ d, n = m + (d + 1) := ⟨n - m - 1, by omega⟩
  refine ⟨⟨List.replicate m a, a, b, List.replicate d a ++ [b], [], ?_, rfl, h⟩,
    ⟨List.replicate m b, a, b, [], List.replicate d b ++ [a], rfl, ?_, h⟩⟩
  · rw [List.replicate_add, List.replicate_succ]; simp
  · rw [List.replicate_add, List.replicate_succ]; simp

/-- The text of a repetition, without edges and lookarounds. -/
theorem repeated_parts {g : Bool} {r : List (Nat × Nat)} {cs : List Nat} {b e x y z f t : List Rune}
    (h : (repeated g r).Chooses cs b e x y z f t) :
    e = [] ∧ x = [] ∧ z = [] ∧ f = [] ∧ ∃ n, y.length = n + 1 ∧ cs = List.replicate n (again g) ++ [enough g] := by
  obtain ⟨c1, c2, c3, c4, c5, rfl, ⟨rfl, rfl⟩, ⟨rfl, rfl⟩, h3, ⟨rfl, rfl⟩, ⟨rfl, rfl⟩⟩ := h
  refine ⟨rfl, rfl, rfl, rfl, ?_⟩
  simpa using chooses_repeated h3

/-- C94: `[..]+` takes the longest text there is at a place, and `[..]+?` the shortest. -/
theorem C94_long {g : Bool} {r : List (Nat × Nat)} {word : Bytes} {o i j k j' k' : Nat}
    (h : (repeated g r).PicksFrom word o i j k) (h' : (repeated g r).OccursFrom word o i j' k') :
    j = j' ∧ if g then k' ≤ k else k ≤ k' := by
  obtain ⟨v, e, x, y, z, f, t, cs, a1, a2, a3, a4, a5, a6⟩ := h
  obtain ⟨v', e', x', y', z', f', t', b1, b2, b3, b4, b5, b6, b7, b8, b9⟩ := h'
  obtain ⟨c1, b5⟩ := left_choice.2 b5
  obtain ⟨c2, b6⟩ := Look.asks_iff.2 b6
  obtain ⟨c3, b7⟩ := chooses_of_means b7
  obtain ⟨c4, b8⟩ := Look.asks_iff.2 b8
  obtain ⟨c5, b9⟩ := right_choice.2 b9
  have hv : v = v' := by
    rw [bytes_eq] at a2 b2
    obtain ⟨q, hq⟩ := prefix_of_width_le a1 b1 (by omega)
    obtain ⟨q', hq'⟩ := prefix_of_width_le b1 a1 (by omega)
    rw [hq', List.append_assoc] at hq
    have : q' ++ q = [] := by simpa using hq
    rw [hq', (List.append_eq_nil_iff.1 this).1, List.append_nil]
  subst hv
  rw [a1] at b1
  have hr := List.append_cancel_left b1
  have b10 : (repeated g r).Chooses (c1 ++ (c2 ++ (c3 ++ (c4 ++ c5)))) _ _ _ _ _ _ _ := ⟨c1, c2, c3, c4, c5, rfl, b5, b6, b7, b8, b9⟩
  have least := a6 _ e' x' y' z' f' t' hr b10
  obtain ⟨p1, p2, p3, p4, m, p5, rfl⟩ := repeated_parts a5
  obtain ⟨q1, q2, q3, q4, n, q5, q6⟩ := repeated_parts b10
  rw [q6] at least
  simp only [List.map_eq_nil_iff, List.length_map] at p1 p2 p3 p4 p5 q1 q2 q3 q4 q5
  subst p1 p2 p3 p4 q1 q2 q3 q4
  simp only [List.nil_append] at hr
  have hj : j = j' := by rw [a3, b3]
  subst hj
  refine ⟨rfl, ?_⟩
  have len : ∀ {y y' t t' : List (Rune × Nat)}, y ++ t = y' ++ t' → y.length ≤ y'.length → bytes y ≤ bytes y' := by
    intro y y' t t' he hl
    obtain ⟨q, rfl⟩ := List.prefix_of_prefix_length_le (List.prefix_append y t) (he ▸ List.prefix_append y' t') hl
    rw [bytes_eq, bytes_eq, width_append]
    omega
  cases g
  · have : m ≤ n := by
      by_contra hlt
      exact least (repeated_lt (a := 0) (b := 1) (by decide) (Nat.lt_of_not_le hlt)).2.lt
    have := len hr (by omega)
    simp only [Bool.false_eq_true, if_false]
    omega
  · have : n ≤ m := by
      by_contra hlt
      exact least (repeated_lt (a := 0) (b := 1) (by decide) (Nat.lt_of_not_le hlt)).1.lt
    have := len hr.symm (by omega)
    simp only [if_true]
    omega

/-! ## Examples -/

theorem repeated_solid (g : Bool) (r : List (Nat × Nat)) : (repeated g r).Solid := by
  refine ⟨trivial, ⟨trivial, ?_⟩, trivial⟩
  rintro ⟨c, h, _⟩
  simp at h

/-- `[a-c]+` and `[a-c]+?` are patterns. -/
theorem repeated_fit (g : Bool) : (repeated g [(0x61, 0x63)]).Fit [] := by
  refine ⟨trivial, ?_, trivial, rfl, by cases g <;> decide, fun _ => rfl, fun _ => rfl⟩
  simp only [repeated, Fit, Proper]
  decide +kernel

example (g : Bool) : ∃ p, newPattern (encode (repeated g [(0x61, 0x63)]).text) [] [] = .ok p ∧ ∀ word ms, find p word (-1) = .ok ms →
    Scan ((repeated g [(0x61, 0x63)]).PicksFrom word) ((repeated g [(0x61, 0x63)]).Vetoed word) word.length 0 ms := by
  obtain ⟨p, h1, h2, _⟩ := C94_picks_partial (repeated_fit g) (repeated_solid g _) (macros := []) (by simp)
  exact ⟨p, h1, fun word ms h => (h2 word ms h).1⟩

example : encode (repeated true [(0x61, 0x63)]).text = str "[a-c]+" ∧ encode (repeated false [(0x61, 0x63)]).text = str "[a-c]+?" := by
  decide +kernel

/-- In `xabc` the one takes `abc`, the other `a`, `b` and `c`. -/
example : ((newPattern (str "[a-c]+") [] []).bind fun p => find p (str "xabc") (-1)) = .ok [[1, 4]] ∧
    ((newPattern (str "[a-c]+?") [] []).bind fun p => find p (str "xabc") (-1)) = .ok [[1, 2], [2, 3], [3, 4]] := by decide +kernel

/-- In `xab` the greedy one may take `a` or `ab`, and takes `ab`. -/
example : (repeated true [(0x61, 0x63)]).OccursFrom (str "xab") 0 1 1 2 ∧ (repeated true [(0x61, 0x63)]).PicksFrom (str "xab") 0 1 1 3 := by
  have one : ∀ c, 0x61 ≤ c → c ≤ 0x63 → Means (.oneOf [(0x61, 0x63)]) [c] := fun c h1 h2 => ⟨c, rfl, (0x61, 0x63), by simp, h1, h2⟩
  have o2 : (repeated true [(0x61, 0x63)]).OccursFrom (str "xab") 0 1 1 2 :=
    ⟨[(0x78, 1)], [], [], [(0x61, 1)], [], [], [(0x62, 1)], by decide +kernel, rfl, rfl, rfl, .inl ⟨rfl, rfl⟩, rfl,
      ⟨[[0x61]], by simp, rfl, by simpa using one 0x61 (by decide) (by decide)⟩, rfl, .inl ⟨rfl, rfl⟩⟩
  have o3 : (repeated true [(0x61, 0x63)]).OccursFrom (str "xab") 0 1 1 3 :=
    ⟨[(0x78, 1)], [], [], [(0x61, 1), (0x62, 1)], [], [], [], by decide +kernel, rfl, rfl, rfl, .inl ⟨rfl, rfl⟩, rfl,
      ⟨[[0x61], [0x62]], by simp, rfl, by
        intro v hv
        simp only [List.mem_cons, List.not_mem_nil, or_false] at hv
        rcases hv with rfl | rfl
        · exact one 0x61 (by decide) (by decide)
        · exact one 0x62 (by decide) (by decide)⟩, rfl, .inl ⟨rfl, rfl⟩⟩
  refine ⟨o2, ?_⟩
  obtain ⟨j, k, hp⟩ := occurs_picks (repeated_solid _ _) o2
  obtain ⟨rfl, hk⟩ := C94_long hp o3
  have : k = 3 := by
    obtain ⟨v, e, x, y, z, f, t, cs, a1, a2, a3, a4, -⟩ := hp
    have := congrArg Rx.width a1
    rw [decode_width] at this
    simp only [width_append, bytes_eq] at this a2 a3 a4
    have l : ((str "xab").drop 0).length = 3 := by decide
    simp only [if_true] at hk
    omega
  rw [← this]
  exact hp

/-- `<v>(a|ab)b?` where `v` has the values `x` and `xa`. -/
def sampleChoice : Whole :=
  ⟨0, .nothing, .seq (.var [0x76] [[0x78], [0x78, 0x61]]) (.seq (.group true (.or (.char 0x61) (.seq (.char 0x61) (.char 0x62))))
    (.opt true (.char 0x62))), .nothing, 0⟩

def sampleChoiceVars : List (Bytes × List Bytes) := [(str "v", [str "x", str "xa"])]

example : encode sampleChoice.text = str "<v>(a|ab)b?" := by decide +kernel

theorem sampleChoice_ok : sampleChoice.Fit sampleChoiceVars ∧ sampleChoice.Solid := by
  refine ⟨⟨trivial, ?_, trivial, rfl, by decide, fun h => absurd rfl h, fun h => absurd rfl h⟩, trivial, ?_, trivial⟩
  · simp only [sampleChoice, sampleChoiceVars, Fit, Proper]
    decide +kernel
  · simp only [sampleChoice, Solid, and_self]

example : ∃ p, newPattern (encode sampleChoice.text) [] sampleChoiceVars = .ok p ∧ ∀ word ms, find p word (-1) = .ok ms →
    Scan (sampleChoice.PicksFrom word) (sampleChoice.Vetoed word) word.length 0 ms := by
  obtain ⟨p, h1, h2, _⟩ := C94_picks_partial sampleChoice_ok.1 sampleChoice_ok.2 (macros := []) (by simp)
  exact ⟨p, h1, fun word ms h => (h2 word ms h).1⟩

/-- `xaabb` is `x` and `a`, since `x` is before `xa` in the var, though `xa` and `ab` and `b` would be longer; in `xabb` the
`b` is the one of `b?`, since `a` is before `ab`. -/
example : ((newPattern (encode sampleChoice.text) [] sampleChoiceVars).bind fun p => (find p (str "xaabb xabb") (-1)).bind fun ms =>
    .ok (ms.map (·.take 2))) = .ok [[0, 2], [6, 9]] := by decide +kernel

/-- The choices of `xab`: the value, the alternative, the option. -/
example : Chooses sampleChoice.mid [0, 0, 0] [0x78, 0x61, 0x62] ∧ Chooses sampleChoice.mid [0, 1, 1] [0x78, 0x61, 0x62] ∧
    ([0, 0, 0] : List Nat) < [0, 1, 1] := by
  refine ⟨⟨[0], [0, 0], [0x78], [0x61, 0x62], rfl, rfl, ⟨0, rfl, rfl⟩, [0], [0], [0x61], [0x62], rfl, rfl, .inl ⟨[], rfl, rfl, rfl⟩,
    .inl ⟨[], rfl, rfl, rfl⟩⟩, ⟨[0], [1, 1], [0x78], [0x61, 0x62], rfl, rfl, ⟨0, rfl, rfl⟩, [1], [1], [0x61, 0x62], [], rfl, rfl,
    .inr ⟨[], rfl, ⟨[], [], [0x61], [0x62], rfl, rfl, ⟨rfl, rfl⟩, rfl, rfl⟩⟩, .inr ⟨rfl, rfl⟩⟩, by decide⟩

end Verif.Props
