import Verif.Spec.Expr

/-!
# Which of several texts an expression prefers

Where an expression leaves a choice, the choices are numbered: the earlier alternative, value or repetition has the lesser
number.  Of two texts of an expression that stand at the same place the preferred one is the one whose choices, read from
left to right, come first.
-/

namespace Verif.Spec.Expr

/-- The number of the choice of a further text in a repetition. -/
def again (greedy : Bool) : Nat := if greedy then 0 else 1

/-- The number of the choice of no further text. -/
def enough (greedy : Bool) : Nat := if greedy then 1 else 0

/-- The choices of a repetition of texts with these choices. -/
def rounds (greedy : Bool) (ps : List (List Nat × List Rune)) : List Nat :=
  ps.flatMap (fun p => again greedy :: p.1) ++ [enough greedy]

/-- With the choices `cs` the expression is the text. -/
def Chooses : Expr → List Nat → List Rune → Prop
  | .nothing, cs, u => cs = [] ∧ u = []
  | .char c, cs, u => cs = [] ∧ u = [c]
  | .any, cs, u => cs = [] ∧ ∃ c, u = [c] ∧ c ≠ 0x0A
  | .oneOf ranges, cs, u => cs = [] ∧ ∃ c, u = [c] ∧ ∃ p ∈ ranges, p.1 ≤ c ∧ c ≤ p.2
  | .var _ vals, cs, u => ∃ i, cs = [i] ∧ vals[i]? = some u
  | .seq a b, cs, u => ∃ c d v w, cs = c ++ d ∧ u = v ++ w ∧ Chooses a c v ∧ Chooses b d w
  | .or a b, cs, u => (∃ c, cs = 0 :: c ∧ Chooses a c u) ∨ ∃ c, cs = 1 :: c ∧ Chooses b c u
  | .group _ a, cs, u => Chooses a cs u
  | .opt g a, cs, u => (∃ c, cs = again g :: c ∧ Chooses a c u) ∨ cs = [enough g] ∧ u = []
  | .many g a, cs, u => ∃ ps : List (List Nat × List Rune), cs = rounds g ps ∧ u = ps.flatMap Prod.snd ∧
      ∀ p ∈ ps, Chooses a p.1 p.2
  | .more g a, cs, u => ∃ (c : List Nat) (v : List Rune) (ps : List (List Nat × List Rune)), cs = c ++ rounds g ps ∧
      u = v ++ ps.flatMap Prod.snd ∧ Chooses a c v ∧ ∀ p ∈ ps, Chooses a p.1 p.2

/-- What is repeated is not the empty text. -/
def Solid : Expr → Prop
  | .seq a b | .or a b => Solid a ∧ Solid b
  | .group _ a | .opt _ a => Solid a
  | .many _ a | .more _ a => Solid a ∧ ¬ Means a []
  | _ => True

/-! ## Edges and lookarounds -/

/-- Blanks, or `{}`. -/
def gap : Expr :=
  .or (.more true (.oneOf [(0x09, 0x0A), (0x0C, 0x0D), (0x20, 0x20)])) (.seq (.char 0x7B) (.char 0x7D))

/-- The left edge: the beginning of the text, then blanks, then `{}`; for more than one caret only the beginning. -/
def LeftChoice (carets : Nat) (cs : List Nat) (before u : List Rune) : Prop :=
  match carets with
  | 0 => cs = [] ∧ u = []
  | 1 => (cs = [0] ∧ before = [] ∧ u = []) ∨ ∃ c, cs = 1 :: c ∧ Chooses gap c u
  | _ => cs = [] ∧ before = [] ∧ u = []

/-- The right edge. -/
def RightChoice (dollars : Nat) (cs : List Nat) (u after : List Rune) : Prop :=
  match dollars with
  | 0 => cs = [] ∧ u = []
  | 1 => (cs = [0] ∧ after = [] ∧ u = []) ∨ ∃ c, cs = 1 :: c ∧ Chooses gap c u
  | _ => cs = [] ∧ after = [] ∧ u = []

def Look.Chooses : Look → List Nat → List Rune → Prop
  | .yes a, cs, u => Expr.Chooses a cs u
  | _, cs, u => cs = [] ∧ u = []

def Look.Solid : Look → Prop
  | .yes a => Expr.Solid a
  | _ => True

def Whole.Solid (w : Whole) : Prop := w.behind.Solid ∧ Expr.Solid w.mid ∧ w.ahead.Solid

/-- With the choices the left edge, the lookbehind, the expression, the lookahead and the right edge are these texts, with
the other two before and after. -/
def Whole.Chooses (w : Whole) (cs : List Nat) (before e x y z f after : List Rune) : Prop :=
  ∃ c1 c2 c3 c4 c5, cs = c1 ++ (c2 ++ (c3 ++ (c4 ++ c5))) ∧ LeftChoice w.carets c1 before e ∧ w.behind.Chooses c2 x ∧
    Expr.Chooses w.mid c3 y ∧ w.ahead.Chooses c4 z ∧ RightChoice w.dollars c5 f after

/-- As `OccursFrom`, and with the least choices of all that occur at `i`. -/
def Whole.PicksFrom (w : Whole) (word : Bytes) (o i j k : Nat) : Prop :=
  ∃ v e x y z f t cs, decode (word.drop o) = v ++ (e ++ (x ++ (y ++ (z ++ (f ++ t))))) ∧
    i = o + bytes v ∧ j = i + bytes e + bytes x ∧ k = j + bytes y ∧
    w.Chooses cs (v.map Prod.fst) (e.map Prod.fst) (x.map Prod.fst) (y.map Prod.fst) (z.map Prod.fst) (f.map Prod.fst)
      (t.map Prod.fst) ∧
    ∀ ds e' x' y' z' f' t', e ++ (x ++ (y ++ (z ++ (f ++ t)))) = e' ++ (x' ++ (y' ++ (z' ++ (f' ++ t')))) →
      w.Chooses ds (v.map Prod.fst) (e'.map Prod.fst) (x'.map Prod.fst) (y'.map Prod.fst) (z'.map Prod.fst)
        (f'.map Prod.fst) (t'.map Prod.fst) → ¬ ds < cs

end Verif.Spec.Expr
