import Verif.Spec.Regex

/-!
# Leftmost matches
-/

namespace Verif.Spec

open Verif.Rx

/-- The number of bytes of a piece of text. -/
def bytes (l : List (Rune × Nat)) : Nat := (l.map Prod.snd).sum

/-- At byte offset `i` of the word begins a text of `behind`, at `j` one of `core` that ends at `k`, and
there one of `ahead`. -/
def Occurs (behind core ahead : Re) (word : Bytes) (i j k : Nat) : Prop :=
  ∃ w x y z t, decode word = w ++ (x ++ (y ++ (z ++ t))) ∧ i = bytes w ∧ j = i + bytes x ∧ k = j + bytes y ∧
    Lang behind (x.map Prod.fst) ∧ Lang core (y.map Prod.fst) ∧ Lang ahead (z.map Prod.fst)

/-- Nothing occurs from `lo` to before `hi`. -/
def Nothing (occ : Nat → Nat → Nat → Prop) (lo hi : Nat) : Prop :=
  ∀ i j k, lo ≤ i → i < hi → ¬ occ i j k

/-- From `lo` on the leftmost occurrence is taken, then the leftmost one from where its core ended, and so
on to the end of a word of `len` bytes.  An occurrence is reported unless there is a veto against it. -/
inductive Leftmost (occ : Nat → Nat → Nat → Prop) (veto : Nat → Nat → Prop) (len : Nat) : Nat → List (List Int) → Prop
  | done {lo : Nat} (h : Nothing occ lo len) : Leftmost occ veto len lo []
  | found {lo i j k : Nat} {groups : List Int} {ms : List (List Int)} (h : occ i j k) (hl : lo ≤ i)
      (hj : j < k) (hn : Nothing occ lo i) (hv : ¬ veto j k) (hs : Leftmost occ veto len k ms) :
      Leftmost occ veto len lo (((j : Int) :: (k : Int) :: groups) :: ms)
  | vetoed {lo i j k : Nat} {ms : List (List Int)} (h : occ i j k) (hl : lo ≤ i)
      (hj : j < k) (hn : Nothing occ lo i) (hv : veto j k) (hs : Leftmost occ veto len k ms) :
      Leftmost occ veto len lo ms

end Verif.Spec
