import Verif.Go.Unicode

/-!
# Letters whose case matters

Specification for C80.
-/

namespace Verif.Spec.Case

/-- The letters of a text. -/
def letters (s : String) : List Rune := s.toList.map Char.toNat

/-- The letters of a bundled spec, by its id, which are not read as the small letters `unicode.ToLower` gives for
them.  In languages written in Latin letters these include `Ǯ`, which is read as `Ʒ` with a caron, from which the
script takes the first byte only. -/
def irregular (id : Bytes) : List Rune :=
  if id = str "aze" ∨ id = str "tur" then letters "IǮ"
  else if id = str "fin" ∨ id = str "swe" then [0x212B, 0x1EE]
  else if id = str "hbs" then letters "CǄǅǇǈǊǋǮ"
  else if id = str "nld" then letters "ḮǮ"
  else if id = str "por" ∨ id = str "por-br" then letters "ÊǮ"
  else if id = str "spa" then letters "ǗǮ"
  else if id = str "ell" then letters "ἉἍἙἝἩἭἹἽὉὍὙὝὩὭ"
  else if id = str "kat-1" ∨ id = str "kat-2" then
    letters "ႳჇჍᲐᲑᲒᲓᲔᲕᲖᲗᲘᲙᲚᲛᲜᲝᲞᲟᲠᲡᲢᲣᲤᲥᲦᲧᲨᲩᲪᲫᲬᲭᲮᲯᲰᲱᲲᲳᲴᲵᲶᲷᲸᲹᲺᲽᲾᲿ"
  else if id ∈ [str "bel", str "bul", str "grc", str "jpn", str "jpn-ck", str "mkd", str "rus", str "ukr"] then []
  else letters "Ǯ"

end Verif.Spec.Case
