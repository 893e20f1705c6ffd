import Verif.Spec.Choice

/-!
# What the groups of an expression hold

Each `(a)` and each var of an expression is a group.  A group holds the place of the last text it was, or nothing.
-/

namespace Verif.Spec.Expr

/-- The places of the groups, in the order in which the groups begin; `none` for a group that was not used. -/
abbrev Places := List (Option (Nat × Nat))

/-- The number of groups. -/
def groups : Expr → Nat
  | .var _ _ => 1
  | .seq a b | .or a b => groups a + groups b
  | .group captures a => (if captures then 1 else 0) + groups a
  | .opt _ a | .many _ a | .more _ a => groups a
  | _ => 0

/-- No group of the expression is used. -/
def unused (e : Expr) : Places := List.replicate (groups e) none

/-- A group that is used again holds the later place. -/
def later (first second : Places) : Places := List.zipWith (fun a b => b.or a) first second

/-- A repetition, once or more, of what `M` says. -/
inductive Reps (M : List Nat → Nat → List (Rune × Nat) → Places → Prop) (greedy : Bool) :
    List Nat → Nat → List (Rune × Nat) → Places → Prop
  | last {c : List Nat} {i : Nat} {y : List (Rune × Nat)} {gs : Places} (h : M c i y gs) :
      Reps M greedy (c ++ [enough greedy]) i y gs
  | next {c d : List Nat} {i : Nat} {y z : List (Rune × Nat)} {gs hs : Places} (h : M c i y gs)
      (hr : Reps M greedy d (i + bytes y) z hs) : Reps M greedy (c ++ again greedy :: d) i (y ++ z) (later gs hs)

/-- With the choices the expression is the text at `i`, and its groups hold these places. -/
def Marks : Expr → List Nat → Nat → List (Rune × Nat) → Places → Prop
  | .nothing, cs, _, y, gs => cs = [] ∧ y = [] ∧ gs = []
  | .char c, cs, _, y, gs => cs = [] ∧ y.map Prod.fst = [c] ∧ gs = []
  | .any, cs, _, y, gs => cs = [] ∧ (∃ c, y.map Prod.fst = [c] ∧ c ≠ 0x0A) ∧ gs = []
  | .oneOf ranges, cs, _, y, gs => cs = [] ∧ (∃ c, y.map Prod.fst = [c] ∧ ∃ p ∈ ranges, p.1 ≤ c ∧ c ≤ p.2) ∧ gs = []
  | .var _ vals, cs, i, y, gs => ∃ n, cs = [n] ∧ vals[n]? = some (y.map Prod.fst) ∧ gs = [some (i, i + bytes y)]
  | .seq a b, cs, i, y, gs => ∃ c d u v g h, cs = c ++ d ∧ y = u ++ v ∧ gs = g ++ h ∧ Marks a c i u g ∧
      Marks b d (i + bytes u) v h
  | .or a b, cs, i, y, gs => (∃ c g, cs = 0 :: c ∧ gs = g ++ unused b ∧ Marks a c i y g) ∨
      ∃ c g, cs = 1 :: c ∧ gs = unused a ++ g ∧ Marks b c i y g
  | .group captures a, cs, i, y, gs => ∃ g, gs = (if captures then some (i, i + bytes y) :: g else g) ∧ Marks a cs i y g
  | .opt g a, cs, i, y, gs => (∃ c, cs = again g :: c ∧ Marks a c i y gs) ∨ cs = [enough g] ∧ y = [] ∧ gs = unused a
  | .many g a, cs, i, y, gs => (∃ c, cs = again g :: c ∧ Reps (Marks a) g c i y gs) ∨
      cs = [enough g] ∧ y = [] ∧ gs = unused a
  | .more g a, cs, i, y, gs => Reps (Marks a) g cs i y gs

/-! ## Edges and lookarounds -/

/-- As `PicksFrom`, and the groups of the expression hold these places. -/
def Whole.TakesFrom (w : Whole) (word : Bytes) (o i j k : Nat) (gs : Places) : Prop :=
  ∃ v e x y z f t c1 c2 c3 c4 c5, decode (word.drop o) = v ++ (e ++ (x ++ (y ++ (z ++ (f ++ t))))) ∧
    i = o + bytes v ∧ j = i + bytes e + bytes x ∧ k = j + bytes y ∧
    LeftChoice w.carets c1 (v.map Prod.fst) (e.map Prod.fst) ∧ w.behind.Chooses c2 (x.map Prod.fst) ∧ Marks w.mid c3 j y gs ∧
    w.ahead.Chooses c4 (z.map Prod.fst) ∧ RightChoice w.dollars c5 (f.map Prod.fst) (t.map Prod.fst) ∧
    ∀ ds e' x' y' z' f' t', e ++ (x ++ (y ++ (z ++ (f ++ t)))) = e' ++ (x' ++ (y' ++ (z' ++ (f' ++ t')))) →
      w.Chooses ds (v.map Prod.fst) (e'.map Prod.fst) (x'.map Prod.fst) (y'.map Prod.fst) (z'.map Prod.fst)
        (f'.map Prod.fst) (t'.map Prod.fst) → ¬ ds < c1 ++ (c2 ++ (c3 ++ (c4 ++ c5)))

/-- Offsets of places; `-1` twice for none. -/
def offsets (gs : Places) : List Int :=
  gs.flatMap fun g => match g with
    | some (a, b) => [(a : Int), (b : Int)]
    | none => [-1, -1]

/-- As `Scan`, with the groups. -/
inductive Whole.Reports (w : Whole) (word : Bytes) : Nat → List (List Int) → Prop
  | done {lo : Nat} (h : ∀ i j k gs, lo ≤ i → i < word.length → ¬ w.TakesFrom word lo i j k gs) : w.Reports word lo []
  | found {lo i j k : Nat} {gs : Places} {ms : List (List Int)} (h : w.TakesFrom word lo i j k gs) (hl : lo ≤ i)
      (hj : j < k) (hn : ∀ i' j' k' gs', lo ≤ i' → i' < i → ¬ w.TakesFrom word lo i' j' k' gs') (hv : ¬ w.Vetoed word j k)
      (hs : w.Reports word k ms) : w.Reports word lo (((j : Int) :: (k : Int) :: offsets gs) :: ms)
  | vetoed {lo i j k : Nat} {gs : Places} {ms : List (List Int)} (h : w.TakesFrom word lo i j k gs) (hl : lo ≤ i)
      (hj : j < k) (hn : ∀ i' j' k' gs', lo ≤ i' → i' < i → ¬ w.TakesFrom word lo i' j' k' gs') (hv : w.Vetoed word j k)
      (hs : w.Reports word k ms) : w.Reports word lo ms

end Verif.Spec.Expr
