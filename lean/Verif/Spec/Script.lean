import Verif.Go.Basic

/-! # Alphabets

The letters of the main blocks of the scripts, by their ISO 15924 codes, from the code charts of Unicode. -/

namespace Verif.Spec.Script

/-- Ranges of letters which belong to a script. -/
def alphabets : List (String × List (Nat × Nat)) :=
  [("", [('A'.toNat, 'Z'.toNat), ('a'.toNat, 'z'.toNat), (0xC0, 0xD6), (0xD8, 0xF6), (0xF8, 0x24F)]),
   ("Latn", [('A'.toNat, 'Z'.toNat), ('a'.toNat, 'z'.toNat), (0xC0, 0xD6), (0xD8, 0xF6), (0xF8, 0x24F), (0x1E00, 0x1EFF)]),
   -- The combining marks are letters of Cyrillic words.
   ("Cyrl", [(0x400, 0x52F), (0x300, 0x36F)]),
   ("Geor", [(0x10A0, 0x10C5), (0x10D0, 0x10FA), (0x1C90, 0x1CBA)]),
   ("Grek", [(0x370, 0x373), (0x386, 0x386), (0x388, 0x38A), (0x38C, 0x38C), (0x38E, 0x3A1), (0x3A3, 0x3E1), (0x1F00, 0x1F15)]),
   -- With the iteration marks and the mark of long vowels.
   ("Hrkt", [(0x3041, 0x3096), (0x309D, 0x309E), (0x30A1, 0x30FA), (0x30FC, 0x30FE)])]

/-- The distance from upper-case letters to lower-case ones in ranges of the code charts. -/
def cases : List (String × Nat × Nat × Nat) :=
  [("Latn", 'A'.toNat, 'Z'.toNat, 32),
   ("Cyrl", 0x400, 0x40F, 80), ("Cyrl", 0x410, 0x42F, 32),
   ("Grek", 0x391, 0x3A1, 32), ("Grek", 0x3A3, 0x3AB, 32), ("Grek", 0x388, 0x38A, 37), ("Grek", 0x38E, 0x38F, 63)]

/-- The ranges of lower-case letters, which stay. -/
def small : List (String × Nat × Nat) :=
  [("Latn", 'a'.toNat, 'z'.toNat), ("Cyrl", 0x430, 0x45F), ("Grek", 0x3AC, 0x3CE),
   -- Georgian text has no cases.
   ("Geor", 0x10A0, 0x10C5), ("Geor", 0x10D0, 0x10FA),
   ("Hrkt", 0x30A1, 0x30FA), ("Hrkt", 0x30FC, 0x30FE)]

end Verif.Spec.Script
