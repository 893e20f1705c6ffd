import Verif.Go.Utf8
import Verif.Go.UnicodeTables

/-!
# Package `unicode`
-/

namespace Verif.Unicode

/-- Membership in a table of ranges. -/
def inTable (t : List (Nat × Nat)) (r : Rune) : Bool := t.any fun p => p.1 ≤ r && r ≤ p.2

/-- `unicode.IsLetter`. -/
def isLetter (r : Rune) : Bool := inTable letterTable r
/-- `unicode.IsDigit`. -/
def isDigit (r : Rune) : Bool := inTable digitTable r
/-- `unicode.IsPunct`. -/
def isPunct (r : Rune) : Bool := inTable punctTable r
/-- `unicode.IsMark`. -/
def isMark (r : Rune) : Bool := inTable markTable r

/-- Property White_Space. -/
def spaceTable : List (Nat × Nat) :=
  [(0x09, 0x0D), (0x20, 0x20), (0x85, 0x85), (0xA0, 0xA0), (0x1680, 0x1680), (0x2000, 0x200A),
   (0x2028, 0x2029), (0x202F, 0x202F), (0x205F, 0x205F), (0x3000, 0x3000)]

/-- `unicode.IsSpace`. -/
def isSpace (r : Rune) : Bool := inTable spaceTable r

/-- `unicode.ToLower`. -/
def toLower (r : Rune) : Rune :=
  match lowerTable.find? fun (lo, hi, stride, _) => lo ≤ r && r ≤ hi && (r - lo) % stride == 0 with
  | some (lo, _, _, img) => img + (r - lo)
  | none => r

/-- The first byte of `norm.NFD.PropertiesString(string(r)).Decomposition()` for a Latin letter; `none`
if it has no decomposition. -/
def latinDecomp (r : Rune) : Option Nat :=
  (latinDecompTable.find? fun (lo, hi, _) => lo ≤ r && r ≤ hi).map (·.2.2)

end Verif.Unicode
