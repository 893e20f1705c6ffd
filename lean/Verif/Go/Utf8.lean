import Verif.Go.Basic

/-!
# `unicode/utf8`

Model of Go's UTF-8 decoder and encoder (`utf8.DecodeRune`, `utf8.EncodeRune`), `for range` over a
string, and conversions between `string` and `[]rune`.
-/

namespace Verif

/-- `utf8.RuneError`, U+FFFD. -/
def runeError : Rune := 0xFFFD

/-- `utf8.ValidRune`: a Unicode scalar value. -/
def validRune (r : Rune) : Bool := r < 0xD800 || (0xE000 ≤ r && r ≤ 0x10FFFF)

/-- A UTF-8 continuation byte. -/
def isCont (b : UInt8) : Bool := 0x80 ≤ b.toNat && b.toNat ≤ 0xBF

/-- `utf8.DecodeRune` on a non-empty string given as its first byte and the rest: the rune and its
width in bytes.  An invalid sequence is U+FFFD with width 1. -/
def decodeRune (b0 : UInt8) (t : Bytes) : Rune × Nat :=
  let x0 := b0.toNat
  if x0 < 0x80 then (x0, 1)
  else if x0 < 0xC2 then (runeError, 1)
  else if x0 < 0xE0 then
    match t with
    | b1 :: _ => if isCont b1 then ((x0 - 0xC0) * 0x40 + (b1.toNat - 0x80), 2) else (runeError, 1)
    | _ => (runeError, 1)
  else if x0 < 0xF0 then
    match t with
    | b1 :: b2 :: _ =>
      let r := (x0 - 0xE0) * 0x1000 + (b1.toNat - 0x80) * 0x40 + (b2.toNat - 0x80)
      if isCont b1 && isCont b2 && 0x800 ≤ r && validRune r then (r, 3) else (runeError, 1)
    | _ => (runeError, 1)
  else if x0 < 0xF5 then
    match t with
    | b1 :: b2 :: b3 :: _ =>
      let r := (x0 - 0xF0) * 0x40000 + (b1.toNat - 0x80) * 0x1000 + (b2.toNat - 0x80) * 0x40
        + (b3.toNat - 0x80)
      if isCont b1 && isCont b2 && isCont b3 && 0x10000 ≤ r && validRune r then (r, 4)
      else (runeError, 1)
    | _ => (runeError, 1)
  else (runeError, 1)

/-- Decoding a whole string; the first argument is the number of bytes of the current rune that are
still to be skipped.  Each entry is a rune with its width. -/
def decodeFrom : Nat → Bytes → List (Rune × Nat)
  | _, [] => []
  | 0, b :: t => decodeRune b t :: decodeFrom ((decodeRune b t).2 - 1) t
  | k + 1, _ :: t => decodeFrom k t

/-- The runes of a string with their widths. -/
def decode (s : Bytes) : List (Rune × Nat) := decodeFrom 0 s

/-- `[]rune(s)`. -/
def runes (s : Bytes) : List Rune := (decode s).map (·.1)

/-- `for i, ch := range s`: pairs of byte offset and rune. -/
def rangeFrom : Nat → List (Rune × Nat) → List (Nat × Rune)
  | _, [] => []
  | i, (r, n) :: t => (i, r) :: rangeFrom (i + n) t

/-- `for i, ch := range s`. -/
def rangeStr (s : Bytes) : List (Nat × Rune) := rangeFrom 0 (decode s)

/-- The UTF-8 bytes of a valid rune (`utf8.EncodeRune` without the invalid case). -/
def encodeValid (r : Rune) : Bytes :=
  if r < 0x80 then [UInt8.ofNat r]
  else if r < 0x800 then [UInt8.ofNat (0xC0 + r / 0x40), UInt8.ofNat (0x80 + r % 0x40)]
  else if r < 0x10000 then
    [UInt8.ofNat (0xE0 + r / 0x1000), UInt8.ofNat (0x80 + r / 0x40 % 0x40),
      UInt8.ofNat (0x80 + r % 0x40)]
  else
    [UInt8.ofNat (0xF0 + r / 0x40000), UInt8.ofNat (0x80 + r / 0x1000 % 0x40),
      UInt8.ofNat (0x80 + r / 0x40 % 0x40), UInt8.ofNat (0x80 + r % 0x40)]

/-- `bytes.Buffer.WriteRune` / `utf8.AppendRune`: an invalid rune is written as U+FFFD. -/
def encodeRune (r : Rune) : Bytes :=
  if validRune r then encodeValid r else encodeValid runeError

/-- `string(rs)` for a `[]rune`. -/
def encode (rs : List Rune) : Bytes := rs.flatMap encodeRune

/-- A string is valid UTF-8 iff it is the encoding of some scalar values. -/
def ValidUtf8 (s : Bytes) : Prop := ∃ rs : List Rune, (∀ r ∈ rs, validRune r = true) ∧ s = encode rs

end Verif
