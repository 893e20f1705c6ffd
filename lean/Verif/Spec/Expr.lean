import Verif.Spec.Context

/-!
# Regular expressions as they are meant

Expressions as trees, how they are written, and which texts they stand for.  Nothing here refers to the parser, to the
matcher or to the expansions of patterns.
-/

namespace Verif.Spec.Expr

/-- Expressions.  A repetition prefers as many texts as possible (greedy) or as few as possible (lazy). -/
inductive Expr
  | nothing
  | char (c : Rune)
  | any
  /-- `[ab-c]` -/
  | oneOf (ranges : List (Rune × Rune))
  /-- `<name>`, which has the values -/
  | var (name : List Rune) (vals : List (List Rune))
  | seq (a b : Expr)
  | or (a b : Expr)
  /-- `(a)` or `(?:a)` -/
  | group (captures : Bool) (a : Expr)
  /-- `a?` -/
  | opt (greedy : Bool) (a : Expr)
  /-- `a*` -/
  | many (greedy : Bool) (a : Expr)
  /-- `a+` -/
  | more (greedy : Bool) (a : Expr)
  deriving DecidableEq, Repr

/-- The characters that are written with a backslash: `\ . + * ? ( ) | [ ] { } ^ $`. -/
def special (c : Rune) : Bool :=
  [0x5C, 0x2E, 0x2B, 0x2A, 0x3F, 0x28, 0x29, 0x7C, 0x5B, 0x5D, 0x7B, 0x7D, 0x5E, 0x24].contains c

def charText (c : Rune) : List Rune := if special c then [0x5C, c] else [c]

/-- In brackets also `-` is written with a backslash. -/
def memberText (c : Rune) : List Rune := if special c || c == 0x2D then [0x5C, c] else [c]

def rangeText (p : Rune × Rune) : List Rune :=
  if p.1 = p.2 then memberText p.1 else memberText p.1 ++ 0x2D :: memberText p.2

def mark (greedy : Bool) : List Rune := if greedy then [] else [0x3F]

/-- How an expression is written. -/
def text : Expr → List Rune
  | .nothing => []
  | .char c => charText c
  | .any => [0x2E]
  | .oneOf ranges => 0x5B :: (ranges.flatMap rangeText ++ [0x5D])
  | .var name _ => 0x3C :: (name ++ [0x3E])
  | .seq a b => text a ++ text b
  | .or a b => text a ++ 0x7C :: text b
  | .group captures a => (if captures then [0x28] else [0x28, 0x3F, 0x3A]) ++ (text a ++ [0x29])
  | .opt g a => text a ++ 0x3F :: mark g
  | .many g a => text a ++ 0x2A :: mark g
  | .more g a => text a ++ 0x2B :: mark g

/-- The text belongs to the expression. -/
def Means : Expr → List Rune → Prop
  | .nothing, u => u = []
  | .char c, u => u = [c]
  | .any, u => ∃ c, u = [c] ∧ c ≠ 0x0A
  | .oneOf ranges, u => ∃ c, u = [c] ∧ ∃ p ∈ ranges, p.1 ≤ c ∧ c ≤ p.2
  | .var _ vals, u => u ∈ vals
  | .seq a b, u => ∃ v w, u = v ++ w ∧ Means a v ∧ Means b w
  | .or a b, u => Means a u ∨ Means b u
  | .group _ a, u => Means a u
  | .opt _ a, u => u = [] ∨ Means a u
  | .many _ a, u => ∃ us : List (List Rune), u = us.flatten ∧ ∀ v ∈ us, Means a v
  | .more _ a, u => ∃ us : List (List Rune), us ≠ [] ∧ u = us.flatten ∧ ∀ v ∈ us, Means a v

/-- The most characters a text of the expression has, if there is such a number. -/
def width : Expr → Option Nat
  | .nothing => some 0
  | .char _ | .any | .oneOf _ => some 1
  | .var _ vals => some ((vals.map List.length).foldr max 0)
  | .seq a b => (width a).bind fun m => (width b).map fun n => m + n
  | .or a b => (width a).bind fun m => (width b).map fun n => max m n
  | .group _ a | .opt _ a => width a
  | .many _ _ | .more _ _ => none

def isOr : Expr → Bool
  | .or _ _ => true
  | _ => false

/-- What a repetition may follow. -/
def isAtom : Expr → Bool
  | .char _ | .any | .oneOf _ | .var _ _ | .group _ _ => true
  | _ => false

/-- A character other than `^`, `$`, `{`. -/
def Proper (c : Rune) : Prop := validRune c = true ∧ c ≠ 0x5E ∧ c ≠ 0x24 ∧ c ≠ 0x7B

/-- The tree is the one its text suggests: a bar has the least precedence, a repetition the greatest.  Characters are
other than `^`, `$`, `{` and `<`; the vars are those of the table. -/
def Fit (vars : List (Bytes × List Bytes)) : Expr → Prop
  | .nothing | .any => True
  | .char c => Proper c ∧ c ≠ 0x3C
  | .oneOf ranges => ranges ≠ [] ∧ ∀ p ∈ ranges, Proper p.1 ∧ p.1 ≠ 0x3C ∧ Proper p.2 ∧ p.2 ≠ 0x3C ∧ p.1 ≤ p.2
  | .var name vals => name ≠ [] ∧ (∀ c ∈ name, validRune c = true ∧ c ≠ 0x3C ∧ c ≠ 0x3E ∧ c ≠ 0x0A) ∧
      vals ≠ [] ∧ (∀ v ∈ vals, ∀ c ∈ v, Proper c) ∧ vars.lookup (encode name) = some (vals.map encode)
  | .seq a b => Fit vars a ∧ Fit vars b ∧ isOr a = false ∧ isOr b = false
  | .or a b => Fit vars a ∧ Fit vars b
  | .group _ a => Fit vars a
  | .opt _ a | .many _ a | .more _ a => Fit vars a ∧ isAtom a = true

/-- A text of the expression stands from byte offset `j` to `k` of the word. -/
def Stands (e : Expr) (word : Bytes) (j k : Nat) : Prop :=
  ∃ w y t, decode word = w ++ (y ++ t) ∧ j = bytes w ∧ k = j + bytes y ∧ Means e (y.map Prod.fst)

/-! ## Edges and lookarounds -/

/-- What is looked at before or after a text. -/
inductive Look
  | nothing
  /-- `{a}` -/
  | yes (a : Expr)
  /-- `{~a}` -/
  | no (a : Expr)

/-- `^^{a}b{c}$$` -/
structure Whole where
  carets : Nat
  behind : Look
  mid : Expr
  ahead : Look
  dollars : Nat

def Look.text : Look → List Rune
  | .nothing => []
  | .yes a => 0x7B :: (Expr.text a ++ [0x7D])
  | .no a => 0x7B :: 0x7E :: (Expr.text a ++ [0x7D])

def Whole.text (w : Whole) : List Rune :=
  List.replicate w.carets 0x5E ++ (w.behind.text ++ (Expr.text w.mid ++ (w.ahead.text ++ List.replicate w.dollars 0x24)))

/-- No character is `(` or `}`, and groups are written `(a)`. -/
def Mild : Expr → Prop
  | .nothing | .any => True
  | .char c => c ≠ 0x28 ∧ c ≠ 0x7D
  | .oneOf ranges => ∀ p ∈ ranges, p.1 ≠ 0x28 ∧ p.1 ≠ 0x7D ∧ p.2 ≠ 0x28 ∧ p.2 ≠ 0x7D
  | .var _ vals => ∀ v ∈ vals, ∀ c ∈ v, c ≠ 0x28 ∧ c ≠ 0x7D
  | .seq a b | .or a b => Mild a ∧ Mild b
  | .group captures a => captures = true ∧ Mild a
  | .opt _ a | .many _ a | .more _ a => Mild a

/-- The lookaround is the one its text suggests. -/
def Look.Fit (vars : List (Bytes × List Bytes)) : Look → Prop
  | .nothing => True
  | .yes a => Expr.Fit vars a ∧ Mild a ∧ Expr.text a ≠ [] ∧ (Expr.text a).head? ≠ some 0x7E
  | .no a => Expr.Fit vars a ∧ Mild a

/-- Lookarounds are not beside edges, and bars are in groups. -/
structure Whole.Fit (vars : List (Bytes × List Bytes)) (w : Whole) : Prop where
  behind : w.behind.Fit vars
  mid : Expr.Fit vars w.mid
  ahead : w.ahead.Fit vars
  noOr : isOr w.mid = false
  some : Expr.text w.mid ≠ []
  left : w.carets ≠ 0 → w.behind = .nothing
  right : w.dollars ≠ 0 → w.ahead = .nothing

/-- The text that must be there for a lookaround. -/
def Look.Asks : Look → List Rune → Prop
  | .yes a, u => Means a u
  | _, u => u = []

/-- In the word from byte offset `o` on, taken for a whole text, begins at `i` the left edge, then a text of the positive
lookbehind, at `j` one of the expression that ends at `k`, then one of the positive lookahead and the right edge. -/
def Whole.OccursFrom (w : Whole) (word : Bytes) (o i j k : Nat) : Prop :=
  ∃ v e x y z f t, decode (word.drop o) = v ++ (e ++ (x ++ (y ++ (z ++ (f ++ t))))) ∧
    i = o + bytes v ∧ j = i + bytes e + bytes x ∧ k = j + bytes y ∧
    LeftEdge w.carets (v.map Prod.fst) (e.map Prod.fst) ∧ w.behind.Asks (x.map Prod.fst) ∧ Means w.mid (y.map Prod.fst) ∧
    w.ahead.Asks (z.map Prod.fst) ∧ RightEdge w.dollars (f.map Prod.fst) (t.map Prod.fst)

/-- How many bytes a negative lookaround looks at, -1 for all: as many as a text has characters. -/
def reach (a : Expr) : Int :=
  match width a with
  | some n => n
  | none => -1

/-- A text that must not be there stands after `k` or before `j`, as far as the lookaround reaches. -/
def Whole.Vetoed (w : Whole) (word : Bytes) (j k : Nat) : Prop :=
  (∃ a u, w.ahead = .no a ∧ Means a u ∧ u <+: runes (windowAhead word k (reach a))) ∨
  (∃ a u, w.behind = .no a ∧ Means a u ∧ u <:+ runes (windowBehind word j (reach a)))

end Verif.Spec.Expr
