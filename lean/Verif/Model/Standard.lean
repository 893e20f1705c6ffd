import Verif.Model.Api
import Verif.Model.Furigana
import Verif.Model.Translit

/-!
# Model of the standard translits: translit/translit.go:11-15 and the methods behind it

The libraries they use are given: normalization to NFC, the tokenizer of Kagome, the dictionary of go-pinyin, and the
orders in which the loop of `mustNew` visits the mappings.  What is written to `p.kagome` (furigana.go:30-37) is not
modelled: it is a cache of something constant.
-/

namespace Verif

/-- What the standard translits are given by libraries and by the runtime. -/
structure Libraries where
  /-- `norm.NFC.String` -/
  nfc : Bytes → Bytes
  /-- `kagome.Tokenizer.Tokenize` -/
  tokenize : Bytes → List Furigana.Token
  /-- `goPinyin.SinglePinyin` -/
  pinyin : Rune → List Bytes
  /-- The pairs of a mapping in the order of visit (cyrillic.go:29-31). -/
  visit : List (Bytes × Bytes) → List (Bytes × Bytes)

/-- translit/furigana/furigana.go:14, 23-25, 39-52. -/
def furigana (l : Libraries) : Translit :=
  ⟨str "furigana", fun word => do
    let (word, _) ← Furigana.typewrite (Furigana.newTypewriter (l.tokenize (Furigana.repeatKana (l.nfc word))))
    return word⟩

/-- translit/pinyin/pinyin.go:18, 24-26, 28-57. -/
def pinyin (l : Libraries) : Translit :=
  ⟨str "pinyin", fun word => .ok (Pinyin.transliterate l.pinyin (l.nfc word))⟩

/-- translit/cyrillic/cyrillic.go:20-48. -/
def cyrillic (l : Libraries) (country : String) (mapping : List (String × String)) : Translit :=
  ⟨str "cyrillic[" ++ str country ++ str "]",
    fun word => .ok (Cyrillic.transliterate (l.visit (Cyrillic.pairs mapping)) word)⟩

/-- translit/cyrillic/cyrillic.go:10-18. -/
def cyrillics (l : Libraries) : List Translit :=
  [cyrillic l "bg" Cyrillic.bulgaria, cyrillic l "mk" Cyrillic.macedonia, cyrillic l "ru" Cyrillic.russia,
    cyrillic l "ua" Cyrillic.ukraine]

/-- translit/translit.go:11-15 `Translits`. -/
def standard (l : Libraries) : List Translit := [furigana l, pinyin l] ++ cyrillics l

end Verif
