import Verif.Go.Unicode

/-! # The Cyrillic alphabets of the countries -/

namespace Verif.Spec.Cyrillic

/-- Small letters in their order, by country. -/
def alphabets : List (String × String) :=
  [("bg", "абвгдежзийклмнопрстуфхцчшщъьюя"),
   ("mk", "абвгдѓежзѕијклљмнњопрстќуфхцчџш"),
   ("ru", "абвгдеёжзийклмнопрстуфхцчшщъыьэюя"),
   ("ua", "абвгґдеєжзиіїйклмнопрстуфхцчшщьюя")]

/-- The letters of a string in lower case. -/
def lower (s : String) : List Rune := s.toList.map fun c => Unicode.toLower c.toNat

end Verif.Spec.Cyrillic
