import Verif.Go.RegexpParse

/-!
# Variables in patterns and replacements

A pattern or a replacement written as a sequence of plain text and `<var>`.
-/

namespace Verif.Spec.Vars

/-- Plain text, or a var with its values. -/
inductive Item
  | text (t : Bytes)
  | var (name : Bytes) (vals : List Bytes)
  deriving DecidableEq, Repr

/-- How the items are written. -/
def written : List Item → Bytes
  | [] => []
  | .text t :: is => t ++ written is
  | .var name _ :: is => 0x3C :: (name ++ 0x3E :: written is)

/-- What the items may be in a replacement: text is valid UTF-8 without `<`, a var is defined by the table and
has a value, its name is not empty and is without `<`, `>` and newlines. -/
def Item.Defined (vars : List (Bytes × List Bytes)) : Item → Prop
  | .text t => ValidUtf8 t ∧ 0x3C ∉ t
  | .var name vals => ValidUtf8 name ∧ name ≠ [] ∧ 0x3C ∉ name ∧ 0x3E ∉ name ∧ 0x0A ∉ name ∧
      vars.lookup name = some vals ∧ vals ≠ []

/-- What the items may be in a pattern: furthermore text contains no meta character of regular expressions.
Values may contain them, except `^`, `$` and `{`. -/
def Item.Simple (vars : List (Bytes × List Bytes)) (it : Item) : Prop :=
  it.Defined vars ∧
    match it with
    | .text t => ∀ b ∈ t, Rx.isMeta b = false
    | .var _ vals => ∀ v ∈ vals, ValidUtf8 v ∧ 0x5E ∉ v ∧ 0x24 ∉ v ∧ 0x7B ∉ v

/-- The item cannot read the empty text. -/
def Item.Solid : Item → Prop
  | .text t => t ≠ []
  | .var _ vals => [] ∉ vals

/-- The ways to read the items at the beginning of a word, the preferred one first: the values chosen for the
vars. -/
def ways : List Item → Bytes → List (List Bytes)
  | [], _ => [[]]
  | .text t :: is, w => if t <+: w then ways is (w.drop t.length) else []
  | .var _ vals :: is, w => vals.flatMap fun v =>
      if v <+: w then (ways is (w.drop v.length)).map (v :: ·) else []

/-- The text read in one of the ways. -/
def reading : List Item → List Bytes → Bytes
  | .text t :: is, vs => t ++ reading is vs
  | .var _ _ :: is, v :: vs => v ++ reading is vs
  | _, _ => []

/-- Where the values lie, as pairs of byte offsets. -/
def places (i : Nat) : List Item → List Bytes → List Int
  | .text t :: is, vs => places (i + t.length) is vs
  | .var _ _ :: is, v :: vs => (i : Int) :: ((i + v.length : Nat) : Int) :: places (i + v.length) is vs
  | _, _ => []

/-- A match at byte offset `i`. -/
def report (items : List Item) (i : Nat) (vs : List Bytes) : List Int :=
  (i : Int) :: ((i + (reading items vs).length : Nat) : Int) :: places i items vs

/-- The matches in a word, from left to right: at each offset the preferred way to read the items, and the
search goes on after what was read.  The arguments are the offset and the number of bytes to be skipped. -/
def matches_ (items : List Item) : Nat → Nat → Bytes → List (List Int)
  | _, _, [] => []
  | i, k + 1, _ :: w => matches_ items (i + 1) k w
  | i, 0, c :: w =>
    match ways items (c :: w) with
    | [] => matches_ items (i + 1) 0 w
    | vs :: _ => report items i vs :: matches_ items (i + 1) ((reading items vs).length - 1) w

/-- The occurrences of the values in a word, from left to right: at each offset the first value in the list that
stands there, and the search goes on after it.  The arguments are the offset and the number of bytes to be
skipped.  An occurrence is reported as a match with one group. -/
def occurrences (vals : List Bytes) : Nat → Nat → Bytes → List (List Int)
  | _, _, [] => []
  | i, k + 1, _ :: w => occurrences vals (i + 1) k w
  | i, 0, c :: w =>
    match vals.find? (· <+: c :: w) with
    | none => occurrences vals (i + 1) 0 w
    | some v => [(i : Int), ((i + v.length : Nat) : Int), (i : Int), ((i + v.length : Nat) : Int)] ::
        occurrences vals (i + 1) (v.length - 1) w

/-- The vars of a pattern with the values chosen for them. -/
def chosen : List Item → List Bytes → List (List Bytes × Bytes)
  | .text _ :: is, vs => chosen is vs
  | .var _ vals :: is, v :: vs => (vals, v) :: chosen is vs
  | _, _ => []

/-- A replacement: its vars correspond to the vars of the pattern from left to right.  If the `k`-th value was
chosen, the value number `k` modulo the number of values takes its place.  There is no replacement when the
pattern has too few vars. -/
def mapped : List Item → List (List Bytes × Bytes) → Option Bytes
  | [], _ => some []
  | .text t :: is, fs => (mapped is fs).map (t ++ ·)
  | .var _ _ :: _, [] => none
  | .var _ to :: is, (vals, v) :: fs => (mapped is fs).map (to.getD (vals.idxOf v % to.length) [] ++ ·)

/-- A word with all matches replaced; those without a replacement are kept. -/
def rewritten (items to : List Item) : Nat → Bytes → Bytes
  | _, [] => []
  | k + 1, _ :: w => rewritten items to k w
  | 0, c :: w =>
    match ways items (c :: w) with
    | [] => c :: rewritten items to 0 w
    | vs :: _ =>
      (mapped to (chosen items vs)).getD (reading items vs) ++
        rewritten items to ((reading items vs).length - 1) w

end Verif.Spec.Vars
