import Verif.Go.Utf8

/-!
# Package `strings`

The functions used by the code base, on byte strings.
-/

namespace Verif

/-- Whether the second string is a prefix of the first at this point: the first pair (in argument
order) whose key is a prefix of `s`, skipping empty keys when `skipEmpty`. -/
def lookupKey (pairs : List (Bytes × Bytes)) (s : Bytes) (skipEmpty : Bool) : Option (Bytes × Nat) :=
  (pairs.find? fun p => hasPrefix s p.1 && !(skipEmpty && p.1.isEmpty)).map fun p => (p.2, p.1.length)

/-- `strings.NewReplacer(pairs...).Replace(s)`; the first argument counts the bytes of the last matched
key still to be skipped.  At each position the earliest pair whose key matches is used; a match of the
empty key is not followed by another one at the same position. -/
def replaceFrom (pairs : List (Bytes × Bytes)) : Nat → Bytes → Bytes
  | _, [] =>
    match lookupKey pairs [] false with
    | some (v, _) => v
    | none => []
  | k + 1, _ :: t => replaceFrom pairs k t
  | 0, c :: t =>
    match lookupKey pairs (c :: t) false with
    | none => c :: replaceFrom pairs 0 t
    | some (v, k + 1) => v ++ replaceFrom pairs k t
    | some (v, 0) =>
      match lookupKey pairs (c :: t) true with
      | none => v ++ c :: replaceFrom pairs 0 t
      | some (v', k) => v ++ v' ++ replaceFrom pairs (k - 1) t

/-- `strings.NewReplacer(pairs...).Replace(s)`. -/
def replacePairs (pairs : List (Bytes × Bytes)) (s : Bytes) : Bytes := replaceFrom pairs 0 s

/-- `strings.Replace(s, old, new, -1)` for a non-empty `old`. -/
def replaceAll (old new s : Bytes) : Bytes := replacePairs [(old, new)] s

/-- `strings.Join(xs, sep)`. -/
def join (sep : Bytes) : List Bytes → Bytes
  | [] => []
  | [x] => x
  | x :: xs => x ++ sep ++ join sep xs

/-- `strings.Trim(s, cutset)` for an ASCII cutset. -/
def trim (cut : UInt8 → Bool) (s : Bytes) : Bytes :=
  ((s.dropWhile cut).reverse.dropWhile cut).reverse

end Verif
