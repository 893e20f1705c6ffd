import Verif.Proofs.Regexp
import Verif.Model.Hre

/-!
# Checks of compiled rules

What can be read off the compiled expression of a rule, without any word: that between the lookarounds at least one
character is matched, that the groups of its vars hold one of their values, and that it matches no NUL character.
-/

namespace Verif.Rx

mutual
/-- A lower bound of the number of characters read. -/
def minW : Re → Nat
  | .lit rs => rs.length
  | .cls .. => 1
  | .anyNotNL => 1
  | .any => 1
  | .cap _ r => minW r
  | .plus _ r => minW r
  | .rep mn _ _ r => mn * minW r
  | .cat rs => minWCat rs
  | .alt rs => minWAlt rs
  | _ => 0
def minWCat : List Re → Nat
  | [] => 0
  | r :: rs => minW r + minWCat rs
def minWAlt : List Re → Nat
  | [] => 0
  | [r] => minW r
  | r :: rs => min (minW r) (minWAlt rs)
end

/-- At least one character is read between group `a` (or the beginning) and group `b` (or the end); `acc` characters
were read since. -/
def gapCat (a b : Nat) : Nat → List Re → Bool
  | acc, [] => 0 < acc
  | acc, .cap i r :: rs =>
    !HasCap a r && !HasCap b r &&
    if i = a then gapCat a b 0 rs
    else if i = b then decide (0 < acc) && !HasCapList a rs && !HasCapList b rs
    else gapCat a b (acc + minW r) rs
  | acc, r :: rs => !HasCap a r && !HasCap b r && gapCat a b (acc + minW r) rs

/-- The elements of a concatenation. -/
def items : Re → List Re
  | .cat rs => rs
  | r => [r]

/-- The same for an expression with alternatives. -/
def gap (a b : Nat) : Re → Bool
  | .alt rs => rs.all fun r => gapCat a b 0 (items r)
  | r => gapCat a b 0 (items r)

mutual
/-- All texts that are matched, if they can be listed. -/
def texts : Re → Option (List (List Rune))
  | .empty => some [[]]
  | .lit rs => some [rs]
  | .cap _ r => texts r
  | .cat rs => textsCat rs
  | .alt rs => textsAlt rs
  | _ => none
def textsCat : List Re → Option (List (List Rune))
  | [] => some [[]]
  | r :: rs =>
    match texts r, textsCat rs with
    | some a, some b => some (a.flatMap fun x => b.map (x ++ ·))
    | _, _ => none
def textsAlt : List Re → Option (List (List Rune))
  | [] => some []
  | r :: rs =>
    match texts r, textsAlt rs with
    | some a, some b => some (a ++ b)
    | _, _ => none
end

/-- All texts that are matched are values, and none contains U+FFFD. -/
def holds (vals : List Bytes) (r : Re) : Bool :=
  match texts r with
  | some ts => ts.all fun t => !t.contains runeError && vals.contains (encode t)
  | none => false

/-- An expression is group `i`, holding a value. -/
def sureCap (i : Nat) (vals : List Bytes) : Re → Bool
  | .cap j q => j == i && !HasCap i q && holds vals q
  | _ => false

/-- Group `i` always takes part and holds a value. -/
def sureCat (i : Nat) (vals : List Bytes) : List Re → Bool
  | [] => false
  | r :: rs => (sureCap i vals r && !HasCapList i rs) || sureCat i vals rs

mutual
/-- No part of the expression matches a NUL character. -/
def avoids : Re → Bool
  | .lit rs => !rs.contains 0
  | .cls neg rg => inRanges rg 0 == neg
  | .anyNotNL => false
  | .any => false
  | .cap _ r | .star _ r | .quest _ r | .plus _ r | .rep _ _ _ r => avoids r
  | .cat rs | .alt rs => avoidsList rs
  | _ => true
def avoidsList : List Re → Bool
  | [] => true
  | r :: rs => avoids r && avoidsList rs
end

end Verif.Rx

namespace Verif.Hre

open Verif.Rx

/-- The check for a pattern. -/
def firm (p : Pattern) : Bool := decide (4 ≤ numCap p.re) && gap 2 (numCap p.re - 1) p.re

/-- The vars of a replacement. -/
def toVars : List RPart → List (List Bytes)
  | [] => []
  | .plain _ :: ps => toVars ps
  | .toVar vals :: ps => vals :: toVars ps

/-- Group `i` of a whole expression always takes part and holds a value. -/
def sure (i : Nat) (vals : List Bytes) : Re → Bool
  | .cat rs => sureCat i vals rs
  | _ => false

/-- The vars of a replacement have values, and each of them stands for a var of the pattern whose group always holds
a value. -/
def varsOk (r : Rule) : Bool :=
  ((toVars r.to.parts).all fun vals => !vals.isEmpty) &&
    ((List.range (min (toVars r.to.parts).length r.pat.usedVars.length)).all fun k =>
      decide (k + 3 + 1 < numCap r.pat.re) && sure (k + 3) (r.pat.usedVars.getD k []) r.pat.re)

/-- A rule passes the checks. -/
def checked (r : Rule) : Bool := firm r.pat && varsOk r

end Verif.Hre
