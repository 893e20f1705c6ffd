import Verif.Go.Unicode

/-! What the rewriting rules of the bundled languages look for, aside from letters of their scripts. -/

namespace Verif.Spec.Foreign

/-- The bundled languages without rules for `;` and `,,`. -/
def unmarked : List Bytes := [str "chi", str "deu", str "hbs", str "jpn", str "jpn-ck", str "ron", str "spa", str "vie"]

/-- Signs which rewriting rules of a bundled language look for: marks which other rules leave, punctuation and accents. -/
def signs (lang : Bytes) : List (List Rune) :=
  (if lang ∈ unmarked then [] else [[0x3B], [0x2C, 0x2C]]) ++
  (if lang ∈ [str "aze", str "bel", str "bul", str "cym", str "epo", str "est", str "isl", str "lit", str "mkd", str "rus",
    str "ukr", str "wlm"] then [[0x2D]] else
  if lang = str "nld" then [[0x2D], [0x2019]] else
  if lang = str "ita" then [[0x27]] else
  if lang = str "cat" then [[0xB7]] else
  if lang = str "por" ∨ lang = str "por-br" then [[0x7E]] else
  if lang = str "ell" ∨ lang = str "grc" then
    [[0x300], [0x301], [0x342], [0x308], [0x344], [0x304], [0x313], [0x343], [0x314]] else [])

end Verif.Spec.Foreign
