import Verif.Go.Utf8

/-!
# `encoding/json`

Model of `json.Marshal` for strings, slices, structs and maps: the text is given by its characters.
-/

namespace Verif.Json

/-- A digit of `\u00xx`. -/
def hex (n : Nat) : Rune := if n < 10 then 0x30 + n else 0x61 + (n - 10)

/-- `appendString`: a character with its width.  A byte which is no UTF-8 is written as `\ufffd`.  Since Go 1.22
there are the short forms `\b` and `\f`. -/
def quoteRune (short : Bool) : Rune × Nat → List Rune
  | (r, n) =>
    if r = 0x22 ∨ r = 0x5C then [0x5C, r]
    else if r = 0x0A then [0x5C, 0x6E]
    else if r = 0x0D then [0x5C, 0x72]
    else if r = 0x09 then [0x5C, 0x74]
    else if r = 0x08 ∧ short then [0x5C, 0x62]
    else if r = 0x0C ∧ short then [0x5C, 0x66]
    else if r < 0x20 ∨ r = 0x3C ∨ r = 0x3E ∨ r = 0x26 then [0x5C, 0x75, 0x30, 0x30, hex (r / 16), hex (r % 16)]
    else if r = runeError ∧ n = 1 then [0x5C, 0x75, 0x66, 0x66, 0x66, 0x64]
    else if r = 0x2028 ∨ r = 0x2029 then [0x5C, 0x75, 0x32, 0x30, 0x32, hex (r % 16)]
    else [r]

/-- `appendString`: a string. -/
def string (short : Bool) (s : Bytes) : List Rune := [0x22] ++ (decode s).flatMap (quoteRune short) ++ [0x22]

/-- Items with commas between them. -/
def commas : List (List Rune) → List Rune
  | [] => []
  | [t] => t
  | t :: ts => t ++ 0x2C :: commas ts

/-- `arrayEncoder.encode`, for a slice which is not nil. -/
def array (items : List (List Rune)) : List Rune := 0x5B :: (commas items ++ [0x5D])

/-- `sliceEncoder.encode`, for a nil slice. -/
def null : List Rune := [0x6E, 0x75, 0x6C, 0x6C]

/-- `structEncoder.encode`, `mapEncoder.encode`: the fields or the sorted keys, with their values. -/
def object (short : Bool) (fields : List (Bytes × List Rune)) : List Rune :=
  0x7B :: (commas (fields.map fun f => string short f.1 ++ 0x3A :: f.2) ++ [0x7D])

end Verif.Json
