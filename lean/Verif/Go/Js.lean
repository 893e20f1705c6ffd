import Verif.Go.Utf8

/-!
# `syscall/js` and the JavaScript values it passes

A JavaScript string is a list of UTF-16 code units.  Go and JavaScript exchange texts as UTF-8, with a `TextEncoder`
and a `TextDecoder` (web/src/hangulize/wasm_exec.js:91-92).
-/

namespace Verif.Js

/-- A JavaScript string: its UTF-16 code units. -/
abbrev Str := List Nat

/-- The first unit of a surrogate pair. -/
def isHigh (u : Nat) : Bool := 0xD800 ≤ u && u < 0xDC00
/-- The second unit of a surrogate pair. -/
def isLow (u : Nat) : Bool := 0xDC00 ≤ u && u < 0xE000

/-- The code point of a unit on its own: a lone surrogate becomes U+FFFD. -/
def unit (u : Nat) : Rune := if isHigh u || isLow u then runeError else u

/-- The code points of a string. -/
def chars : Str → List Rune
  | [] => []
  | [u] => [unit u]
  | u :: v :: rest =>
    if isHigh u && isLow v then (0x10000 + (u - 0xD800) * 0x400 + (v - 0xDC00)) :: chars rest
    else unit u :: chars (v :: rest)

/-- `TextEncoder.encode`, used by `js.Value.String` (wasm_exec.js:402-414). -/
def encodeText (s : Str) : Bytes := encode (chars s)

/-- The units of a code point. -/
def unitsOf (r : Rune) : Str :=
  if r < 0x10000 then [r] else [0xD800 + (r - 0x10000) / 0x400, 0xDC00 + (r - 0x10000) % 0x400]

/-- The units of code points. -/
def units (rs : List Rune) : Str := rs.flatMap unitsOf

/-- The decoder of the Encoding Standard within a character: the number of bytes which are missing, the bits so far,
and the range of the next byte. -/
structure Partial where
  needed : Nat
  bits : Nat
  lower : Nat
  upper : Nat
  deriving DecidableEq, Repr

/-- The decoder of the Encoding Standard at the first byte of a character: a code point, or more bytes are needed. -/
def lead (b : Nat) : Rune ⊕ Partial :=
  if b < 0x80 then .inl b
  else if b < 0xC2 then .inl runeError
  else if b < 0xE0 then .inr ⟨1, b - 0xC0, 0x80, 0xBF⟩
  else if b < 0xF0 then
    .inr ⟨2, b - 0xE0, if b = 0xE0 then 0xA0 else 0x80, if b = 0xED then 0x9F else 0xBF⟩
  else if b < 0xF5 then
    .inr ⟨3, b - 0xF0, if b = 0xF0 then 0x90 else 0x80, if b = 0xF4 then 0x8F else 0xBF⟩
  else .inl runeError

/-- The decoder of the Encoding Standard: a byte out of range ends the character before it. -/
def decodeBytes : Option Partial → Bytes → List Rune
  | none, [] => []
  | some _, [] => [runeError]
  | none, b :: rest =>
    match lead b.toNat with
    | .inl r => r :: decodeBytes none rest
    | .inr p => decodeBytes (some p) rest
  | some p, b :: rest =>
    if p.lower ≤ b.toNat ∧ b.toNat ≤ p.upper then
      let bits := p.bits * 0x40 + (b.toNat - 0x80)
      if p.needed = 1 then bits :: decodeBytes none rest
      else decodeBytes (some ⟨p.needed - 1, bits, 0x80, 0xBF⟩) rest
    else match lead b.toNat with
      | .inl r => runeError :: r :: decodeBytes none rest
      | .inr q => runeError :: decodeBytes (some q) rest

/-- The byte order mark in UTF-8. -/
def bom : Bytes := [0xEF, 0xBB, 0xBF]

/-- `TextDecoder.decode`, used for all Go strings (wasm_exec.js:174-178): a byte order mark at the start is skipped,
as the option `ignoreBOM` is not set. -/
def decodeText (s : Bytes) : Str :=
  units (decodeBytes none (if bom.isPrefixOf s then s.drop 3 else s))

/-- The JavaScript values in question.  Of numbers only the integers are modelled, and functions and other objects of
the page are known by a number. -/
inductive Value
  | undefined
  | null
  | bool (b : Bool)
  | number (n : Int)
  | string (s : Str)
  | array (items : List Value)
  | object (fields : List (Str × Value))
  | func (id : Nat)

/-- `js.Value.String`: the text of a string, and a description of any other value. -/
def Value.text : Value → Bytes
  | .undefined => str "<undefined>"
  | .null => str "<null>"
  | .bool b => str (if b then "<boolean: true>" else "<boolean: false>")
  | .number n => str s!"<number: {n}>"
  | .string s => encodeText s
  | .array _ => str "<object>"
  | .object _ => str "<object>"
  | .func _ => str "<function>"

/-- `js.Value.Get`: panics unless the value is an object or a function.  The properties of arrays and functions are not
modelled. -/
def Value.get (v : Value) (name : Str) : Go Value :=
  match v with
  | .object fields => .ok ((fields.lookup name).getD .undefined)
  | .array _ => .ok .undefined
  | .func _ => .ok .undefined
  | _ => .panic

/-- `js.ValueOf` of a Go string. -/
def ofText (s : Bytes) : Value := .string (decodeText s)

end Verif.Js
