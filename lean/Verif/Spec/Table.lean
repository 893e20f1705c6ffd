import Verif.Go.Utf8

/-! # Tables of text -/

namespace Verif.Spec.Table

/-- A cell: the text, and blanks up to the width of the column; a text which is too long is not cut. -/
def Cell (width : Nat) (text cell : List Rune) : Prop :=
  ∃ blanks, cell = text ++ blanks ∧ (∀ b ∈ blanks, b = ' '.toNat) ∧ cell.length = max width text.length

/-- A row: cells with a blank between them. -/
inductive Row : List (Nat × List Rune) → List Rune → Prop
  | last {width : Nat} {text cell : List Rune} (h : Cell width text cell) : Row [(width, text)] cell
  | cons {width : Nat} {text cell line : List Rune} {rest : List (Nat × List Rune)} (h : Cell width text cell) (hr : Row rest line) :
      Row ((width, text) :: rest) (cell ++ ' '.toNat :: line)

/-- A table: a line for each row. -/
inductive Table : List (List (Nat × List Rune)) → List Rune → Prop
  | nil : Table [] []
  | cons {row : List (Nat × List Rune)} {rows : List (List (Nat × List Rune))} {line lines : List Rune} (h : Row row line)
      (hr : Table rows lines) : Table (row :: rows) (line ++ '\n'.toNat :: lines)

end Verif.Spec.Table
