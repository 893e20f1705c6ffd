import Verif.Model.Hsl

/-! Vocabulary for the statements about HSL: quotes and comments of a source, and its entries. -/

namespace Verif.Spec.Hsl

open Verif.Hsl

/-- Where in a source a character stands. -/
inductive Mode
  | code
  | comment
  | quote
  | escaped
  deriving DecidableEq, Repr

/-- The mode after a character. -/
def Mode.next : Mode → Rune → Mode
  | .code, c => if c = 0x22 then .quote else if c = 0x23 then .comment else .code
  | .comment, c => if c = 0x0A ∨ c = 0 then .code else .comment
  | .quote, c => if c = 0x22 then .code else if c = 0x5C then .escaped else .quote
  | .escaped, c => if c = 0x22 then .quote else .escaped

/-- The mode after some text. -/
def Mode.after (m : Mode) (s : List Rune) : Mode := s.foldl Mode.next m

/-- Every quote of the source is closed. -/
def QuotesClosed (src : Bytes) : Prop :=
  Mode.after .code (runes src) = .code ∨ Mode.after .code (runes src) = .comment

instance (src : Bytes) : Decidable (QuotesClosed src) := by unfold QuotesClosed; infer_instance

/-- A pair of a source, with the section it belongs to. -/
structure Entry where
  sect : Bytes
  kind : Kind
  pair : Pair
  deriving DecidableEq, Repr

/-- Reading values: strings up to the end of the line. -/
def values : List (Token × Nat) → List Bytes
  | [] => []
  | (.eof, _) :: _ | (.newline, _) :: _ => []
  | (.string s, _) :: ts => encode s :: values ts
  | _ :: ts => values ts

/-- The entries of a list of tokens.  A name is followed by a colon, a key by a sign; `inValues` while the
right side of a pair is read. -/
def entries : (sect key : Bytes) → (inValues : Bool) → List (Token × Nat) → List Entry
  | _, _, _, [] => []
  | sect, key, true, (.eof, _) :: ts | sect, key, true, (.newline, _) :: ts => entries sect key false ts
  | sect, key, true, _ :: ts => entries sect key true ts
  | _, _, false, (.eof, _) :: _ => []
  | sect, _, false, (.string s, _) :: ts => entries sect (encode s) false ts
  | _, key, false, (.colon, _) :: ts => entries key key false ts
  | sect, key, false, (.equal, line) :: ts =>
    ⟨sect, .dict, ⟨key, values ts, line⟩⟩ :: entries sect key true ts
  | sect, key, false, (.arrow, line) :: ts =>
    ⟨sect, .list, ⟨key, values ts, line⟩⟩ :: entries sect key true ts
  | sect, key, false, _ :: ts => entries sect key false ts

/-- The pairs of one section. -/
def pairsOf (name : Bytes) (es : List Entry) : List Pair := (es.filter (·.sect = name)).map (·.pair)

/-- The kind of a section is decided by the sign of its first pair. -/
def kindOf (name : Bytes) (es : List Entry) : Option Kind := (es.find? (·.sect = name)).map (·.kind)

/-- Two pairs of a dictionary have the same key. -/
def Duplicated (es : List Entry) : Prop :=
  ∃ name, kindOf name es = some .dict ∧ ¬ ((pairsOf name es).map (·.left)).Nodup

/-- A document holds exactly the given entries: every section has its pairs in their order, and the keys
of dictionaries are unique. -/
def Holds (doc : Doc) (es : List Entry) : Prop :=
  ∀ name, (doc.lookup name = none → pairsOf name es = []) ∧
    ∀ s, doc.lookup name = some s → s.pairs = pairsOf name es ∧ kindOf name es = some s.kind ∧
      (s.kind = .dict → (s.pairs.map (·.left)).Nodup)

/-! ## Writing documents -/

/-- A text with its quotes escaped. -/
def escape : List Rune → List Rune
  | [] => []
  | c :: s => if c = 0x22 then 0x5C :: 0x22 :: escape s else c :: escape s

/-- A quoted text. -/
def quote (s : List Rune) : List Rune := 0x22 :: escape s ++ [0x22]

/-- A word: a letter or `_`, then letters, `_` and digits. -/
def Word (s : List Rune) : Prop :=
  ∃ c t, s = c :: t ∧ (c = 0x5F ∨ Unicode.isLetter c = true) ∧
    ∀ x ∈ t, x = 0x5F ∨ Unicode.isLetter x = true ∨ Unicode.isDigit x = true

/-- A way of writing texts: words may be written without quotes. -/
def Spelling (w : List Rune → List Rune) : Prop := ∀ s, w s = quote s ∨ (Word s ∧ w s = s)

/-- A section to be written: its name, kind and pairs. -/
structure Sect where
  name : List Rune
  kind : Kind
  pairs : List (List Rune × List (List Rune))

/-- The right side of a pair. -/
def renderValues (w : List Rune → List Rune) : List (List Rune) → List Rune
  | [] => []
  | [v] => w v
  | v :: v' :: vs => w v ++ [0x2C, 0x20] ++ renderValues w (v' :: vs)

/-- `=` or `->`. -/
def sign : Kind → List Rune
  | .dict => [0x3D]
  | .list => [0x2D, 0x3E]

/-- A pair on its own line. -/
def renderPair (w : List Rune → List Rune) (kind : Kind) (p : List Rune × List (List Rune)) : List Rune :=
  [0x09] ++ w p.1 ++ [0x20] ++ sign kind ++ [0x20]
    ++ renderValues w p.2 ++ [0x0A]

/-- A section: its name, a colon and its pairs. -/
def renderSect (w : List Rune → List Rune) (s : Sect) : List Rune :=
  w s.name ++ [0x3A, 0x0A] ++ (s.pairs.map (renderPair w s.kind)).flatten

/-- The runes of a document. -/
def render (w : List Rune → List Rune) (d : List Sect) : List Rune := (d.map (renderSect w)).flatten

/-- A text that can be written. -/
def Text (s : List Rune) : Prop := (∀ c ∈ s, validRune c = true) ∧ (0x5C : Rune) ∉ s

/-- A document that can be written: different non-empty names, at least one pair per section, and unique
keys in dictionaries. -/
def Writable (d : List Sect) : Prop :=
  (d.map (·.name)).Nodup ∧ ∀ s ∈ d, s.name ≠ [] ∧ Text s.name ∧ s.pairs ≠ [] ∧
    (s.kind = .dict → (s.pairs.map (·.1)).Nodup) ∧
    ∀ p ∈ s.pairs, Text p.1 ∧ ∀ v ∈ p.2, Text v

/-- The pairs of a section without their lines. -/
def bare (s : Section) : Kind × List (Bytes × List Bytes) :=
  (s.kind, s.pairs.map fun p => (p.left, p.right))

/-- The outcome of parsing without line numbers. -/
def bareOutcome : Go Doc → Go (List (Bytes × Kind × List (Bytes × List Bytes)))
  | .ok doc => .ok (doc.map fun x => (x.1, bare x.2))
  | .err e => .err e
  | .panic => .panic
  | .hang => .hang

end Verif.Spec.Hsl
