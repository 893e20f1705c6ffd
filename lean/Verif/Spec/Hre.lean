import Verif.Go.Utf8

/-!
# Specification of finding matches
-/

namespace Verif.Spec.Hre

/-- A byte offset between two characters of a word (or at one of its ends). -/
def Boundary (word : Bytes) (i : Nat) : Prop :=
  ∃ u v, decode word = u ++ v ∧ i = (u.map (·.2)).sum

/-- Non-empty ranges of whole characters of the word, in order and disjoint, all at or after `lo`.  A
match is given by its start, its stop and the offsets of its groups. -/
def ProperMatches (word : Bytes) : Nat → List (List Int) → Prop
  | _, [] => True
  | lo, m :: ms => ∃ (start stop : Nat) (groups : List Int), m = (start : Int) :: (stop : Int) :: groups ∧
      lo ≤ start ∧ start < stop ∧ stop ≤ word.length ∧ Boundary word start ∧ Boundary word stop ∧
      ProperMatches word stop ms

/-- The bytes of a word from `i` to `j`. -/
def between (word : Bytes) (i j : Nat) : Bytes := (word.drop i).take (j - i)

/-- The word from `cur` on with its matches replaced: what `f` gives for a match stands for it, a match
for which it gives nothing is kept, and so is everything between the matches. -/
def splice (word : Bytes) (f : List Int → Option Bytes) : Nat → List (List Int) → Bytes
  | cur, [] => word.drop cur
  | cur, m :: ms =>
    let start := (m.headD 0).toNat
    let stop := (m.getD 1 0).toNat
    between word cur start ++ (f m).getD (between word start stop) ++ splice word f stop ms

/-- Every match starts where the one before it ended. -/
def Tiled : Nat → List (List Int) → Prop
  | _, [] => True
  | at_, m :: ms => ∃ (stop : Nat) (groups : List Int), m = (at_ : Int) :: (stop : Int) :: groups ∧ Tiled stop ms

end Verif.Spec.Hre
