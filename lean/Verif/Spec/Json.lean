import Verif.Spec.Wasm

/-! Vocabulary for statements about `manifest.json` (C74): a reader of JSON, written after the ECMAScript specification
(`JSON.parse`), without numbers and booleans. -/

namespace Verif.Spec.Json

open Verif.Js Verif.Spec.Wasm

/-- White space. -/
def white (c : Rune) : Bool := c == 0x20 || c == 0x0A || c == 0x0D || c == 0x09

/-- The text after white space. -/
def skip : List Rune → List Rune := List.dropWhile white

/-- A hexadecimal digit. -/
def digit (c : Rune) : Option Nat :=
  if 0x30 ≤ c ∧ c ≤ 0x39 then some (c - 0x30)
  else if 0x61 ≤ c ∧ c ≤ 0x66 then some (c - 0x61 + 10)
  else if 0x41 ≤ c ∧ c ≤ 0x46 then some (c - 0x41 + 10)
  else none

/-- The character after a backslash. -/
def escape (c : Rune) : Option Nat :=
  [(0x22, 0x22), (0x5C, 0x5C), (0x2F, 0x2F), (0x62, 0x08), (0x66, 0x0C), (0x6E, 0x0A), (0x72, 0x0D), (0x74, 0x09)].lookup c

/-- A string after its opening quotation mark, and the text after it. -/
def chars : List Rune → Option (Str × List Rune)
  | [] => none
  | 0x22 :: rest => some ([], rest)
  | 0x5C :: 0x75 :: a :: b :: c :: d :: rest => do
    let (s, rest) ← chars rest
    return (((← digit a) * 0x1000 + (← digit b) * 0x100 + (← digit c) * 0x10 + (← digit d)) :: s, rest)
  | 0x5C :: c :: rest => do
    let (s, rest) ← chars rest
    return ((← escape c) :: s, rest)
  | c :: rest => do
    if c < 0x20 ∨ c = 0x5C then none
    let (s, rest) ← chars rest
    return (unitsOf c ++ s, rest)

mutual
/-- A value, and the text after it; the number bounds the depth and the number of items. -/
def value : Nat → List Rune → Option (Value × List Rune)
  | 0, _ => none
  | n + 1, s =>
    match skip s with
    | 0x22 :: s => do
      let (s, rest) ← chars s
      return (.string s, rest)
    | 0x6E :: 0x75 :: 0x6C :: 0x6C :: rest => some (.null, rest)
    | 0x5B :: s =>
      match skip s with
      | 0x5D :: rest => some (.array [], rest)
      | _ => do
        let (vs, rest) ← items n s
        return (.array vs, rest)
    | 0x7B :: s =>
      match skip s with
      | 0x7D :: rest => some (.object [], rest)
      | _ => do
        let (fs, rest) ← fields n s
        return (.object fs, rest)
    | _ => none

/-- The items of an array up to its end. -/
def items : Nat → List Rune → Option (List Value × List Rune)
  | 0, _ => none
  | n + 1, s => do
    let (v, rest) ← value n s
    match skip rest with
    | 0x2C :: rest =>
      let (vs, rest) ← items n rest
      return (v :: vs, rest)
    | 0x5D :: rest => return ([v], rest)
    | _ => none

/-- The fields of an object up to its end; of several ones with the same name the last one counts. -/
def fields : Nat → List Rune → Option (List (Str × Value) × List Rune)
  | 0, _ => none
  | n + 1, s =>
    match skip s with
    | 0x22 :: s => do
      let (name, rest) ← chars s
      match skip rest with
      | 0x3A :: rest =>
        let (v, rest) ← value n rest
        match skip rest with
        | 0x2C :: rest =>
          let (fs, rest) ← fields n rest
          return (if (fs.lookup name).isSome then fs else (name, v) :: fs, rest)
        | 0x7D :: rest => return ([(name, v)], rest)
        | _ => none
      | _ => none
    | _ => none
end

/-- `JSON.parse`: a text is a value, with nothing but white space around it. -/
def parse (text : List Rune) : Option Value :=
  match value (text.length + 1) text with
  | some (v, rest) => if (skip rest).isEmpty then some v else none
  | none => none

/-- A JavaScript value which is the text of a Go string; bytes which are no UTF-8 are replacement characters. -/
def Exact (v : Value) (s : Bytes) : Prop := ∃ u, v = .string u ∧ Spells u (runes s)

/-- A JavaScript object which tells what a spec is, without its source. -/
structure Tells (v : Value) (sp : Spec) : Prop where
  lang : ∀ f s, (f, s) ∈ [("id", sp.lang.id), ("code2", sp.lang.codes.1), ("code3", sp.lang.codes.2),
    ("english", sp.lang.english), ("korean", sp.lang.korean), ("script", sp.lang.script)] →
    ∃ x, path v ["lang", f] = .ok x ∧ Exact x s
  translit : ∃ xs, path v ["lang", "translit"] = .ok (.array xs) ∧ Lists Exact xs sp.lang.translit
  authors : ∃ xs, path v ["config", "authors"] = .ok (.array xs) ∧ Lists Exact xs sp.config.authors
  stage : ∃ x, path v ["config", "stage"] = .ok x ∧ Exact x sp.config.stage
  test : ∃ xs, path v ["test"] = .ok (.array xs) ∧ Lists (fun x exm =>
    (∃ y, path x ["word"] = .ok y ∧ Exact y exm.1) ∧ ∃ y, path x ["result"] = .ok y ∧ Exact y exm.2) xs sp.test

end Verif.Spec.Json
