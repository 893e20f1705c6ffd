import Verif.Go.Strings
import Verif.Model.Procedure

/-!
# Model of `translit/cyrillic` and `translit/pinyin`
-/

namespace Verif

/-! ## translit/cyrillic

The tables are the objects `tocyrillic` of translit/cyrillic/dict.json for the countries of cyrillic.go:10-16, in the
order in which they are written. -/

namespace Cyrillic

/-- The mapping of `bg`. -/
def bulgaria : List (String × String) :=
  [("A", "А"), ("a", "а"), ("B", "Б"), ("b", "б"), ("V", "В"), ("v", "в"), ("G", "Г"), ("g", "г"),
   ("D", "Д"), ("d", "д"), ("E", "Е"), ("e", "е"), ("ZH", "Ж"), ("zh", "ж"), ("Z", "З"), ("z", "з"),
   ("I", "И"), ("i", "и"), ("Y", "Й"), ("y", "й"), ("K", "К"), ("k", "к"), ("L", "Л"), ("l", "л"),
   ("M", "М"), ("m", "м"), ("N", "Н"), ("n", "н"), ("O", "О"), ("o", "о"), ("P", "П"), ("p", "п"),
   ("R", "Р"), ("r", "р"), ("S", "С"), ("s", "с"), ("T", "Т"), ("t", "т"), ("U", "У"), ("u", "у"),
   ("F", "Ф"), ("f", "ф"), ("H", "Х"), ("h", "х"), ("TS", "Ц"), ("ts", "ц"), ("CH", "Ч"), ("ch", "ч"),
   ("SH", "Ш"), ("sh", "ш"), ("SHT", "Щ"), ("sht", "щ"), ("Ă", "Ъ"), ("ă", "ъ"), ("J", "Ь"), ("j", "ь"),
   ("YU", "Ю"), ("yu", "ю"), ("YA", "Я"), ("ya", "я"), ("Zh", "Ж"), ("Ts", "Ц"), ("Ch", "Ч"),
   ("Sh", "Ш"), ("Sht", "Щ"), ("Yu", "Ю"), ("Ya", "Я")]

/-- The mapping of `mk`. -/
def macedonia : List (String × String) :=
  [("A", "А"), ("a", "а"), ("B", "Б"), ("b", "б"), ("V", "В"), ("v", "в"), ("G", "Г"), ("g", "г"),
   ("D", "Д"), ("d", "д"), ("E", "Е"), ("e", "е"), ("Ž", "Ж"), ("ž", "ж"), ("Z", "З"), ("z", "з"),
   ("I", "И"), ("i", "и"), ("J", "Ј"), ("j", "ј"), ("K", "К"), ("k", "к"), ("L", "Л"), ("l", "л"),
   ("Lj", "Љ"), ("lj", "љ"), ("M", "М"), ("m", "м"), ("N", "Н"), ("n", "н"), ("Nj", "Њ"), ("nj", "њ"),
   ("O", "О"), ("o", "о"), ("P", "П"), ("p", "п"), ("R", "Р"), ("r", "р"), ("S", "С"), ("s", "с"),
   ("T", "Т"), ("t", "т"), ("U", "У"), ("u", "у"), ("F", "Ф"), ("f", "ф"), ("H", "Х"), ("h", "х"),
   ("C", "Ц"), ("c", "ц"), ("Č", "Ч"), ("č", "ч"), ("Dž", "Џ"), ("dž", "џ"), ("Š", "Ш"), ("š", "ш"),
   ("Dz", "Ѕ"), ("dz", "ѕ"), ("Ǵ", "Ѓ"), ("ǵ", "ѓ"), ("Ḱ", "Ќ"), ("ḱ", "ќ")]

/-- The mapping of `ru`. -/
def russia : List (String × String) :=
  [("A", "А"), ("a", "а"), ("B", "Б"), ("b", "б"), ("V", "В"), ("v", "в"), ("G", "Г"), ("g", "г"),
   ("D", "Д"), ("d", "д"), ("E", "Е"), ("e", "е"), ("YO", "Ё"), ("yo", "ё"), ("ZH", "Ж"), ("zh", "ж"),
   ("Z", "З"), ("z", "з"), ("I", "И"), ("i", "и"), ("J", "Й"), ("j", "й"), ("K", "К"), ("k", "к"),
   ("L", "Л"), ("l", "л"), ("M", "М"), ("m", "м"), ("N", "Н"), ("n", "н"), ("O", "О"), ("o", "о"),
   ("P", "П"), ("p", "п"), ("R", "Р"), ("r", "р"), ("S", "С"), ("s", "с"), ("T", "Т"), ("t", "т"),
   ("U", "У"), ("u", "у"), ("F", "Ф"), ("f", "ф"), ("X", "Х"), ("x", "х"), ("CZ", "Ц"), ("cz", "ц"),
   ("CH", "Ч"), ("ch", "ч"), ("SH", "Ш"), ("sh", "ш"), ("SHH", "Щ"), ("shh", "щ"), ("''", "ъ"),
   ("Y'", "ы"), ("y'", "ы"), ("'", "ь"), ("E'", "Э"), ("e'", "э"), ("YU", "Ю"), ("yu", "ю"),
   ("YA", "Я"), ("ya", "я"), ("C", "К"), ("c", "к"), ("CK", "К"), ("Ck", "К"), ("ck", "к"),
   ("JA", "ЖА"), ("Ja", "Жа"), ("ja", "жа"), ("JE", "ЖЕ"), ("Je", "Же"), ("je", "же"), ("JI", "ЖИ"),
   ("Ji", "Жи"), ("ji", "жи"), ("JO", "ЖО"), ("Jo", "Жо"), ("jo", "жо"), ("JU", "ЖУ"), ("Ju", "Жу"),
   ("ju", "жу"), ("PH", "Ф"), ("Ph", "Ф"), ("ph", "ф"), ("TH", "З"), ("Th", "З"), ("th", "з"),
   ("W", "В"), ("w", "в"), ("Q", "К"), ("q", "к"), ("WH", "В"), ("Wh", "В"), ("wh", "в"), ("Y", "И"),
   ("y", "и"), ("Ya", "я"), ("YE", "Е"), ("Ye", "е"), ("ye", "е"), ("YI", "И"), ("Yi", "и"),
   ("yi", "и"), ("Yo", "ё"), ("Yu", "ю"), ("iy", "ый"), ("ij", "ый")]

/-- The mapping of `ua`. -/
def ukraine : List (String × String) :=
  [("A", "А"), ("a", "а"), ("B", "Б"), ("b", "б"), ("V", "В"), ("v", "в"), ("H", "Г"), ("h", "г"),
   ("D", "Д"), ("d", "д"), ("E", "Е"), ("e", "е"), ("Ž", "Ж"), ("ž", "ж"), ("Z", "З"), ("z", "з"),
   ("Y", "И"), ("y", "и"), ("J", "Й"), ("j", "й"), ("K", "К"), ("k", "к"), ("L", "Л"), ("l", "л"),
   ("M", "М"), ("m", "м"), ("N", "Н"), ("n", "н"), ("O", "О"), ("o", "о"), ("P", "П"), ("p", "п"),
   ("R", "Р"), ("r", "р"), ("S", "С"), ("s", "с"), ("T", "Т"), ("t", "т"), ("U", "У"), ("u", "у"),
   ("F", "Ф"), ("f", "ф"), ("X", "Х"), ("x", "х"), ("C", "Ц"), ("c", "ц"), ("Č", "Ч"), ("č", "ч"),
   ("Š", "Ш"), ("š", "ш"), ("Šč", "Щ"), ("šč", "щ"), ("'", "ь"), ("Ju", "Ю"), ("ju", "ю"), ("Ja", "Я"),
   ("ja", "я"), ("G", "Ґ"), ("g", "ґ"), ("Je", "Є"), ("je", "є"), ("I", "І"), ("i", "і"), ("Ï", "Ї"),
   ("ï", "ї")]

/-- The pairs of a mapping as byte strings. -/
def pairs (m : List (String × String)) : List (Bytes × Bytes) := m.map fun p => (str p.1, str p.2)

/-- translit/cyrillic/cyrillic.go:20-48 `mustNew` and `Transliterate`: `oldnew` are the pairs of the mapping in the
order in which the loop over the map (29-31) visited them. -/
def transliterate (oldnew : List (Bytes × Bytes)) (word : Bytes) : Bytes := replacePairs oldnew word

end Cyrillic

/-! ## translit/pinyin -/

namespace Pinyin

/-- U+200B in UTF-8. -/
def separator : Bytes := [0xE2, 0x80, 0x8B]

/-- translit/pinyin/pinyin.go:38-53, the loop with the flush after it: `buf` is the pending text.  `dict` is
`goPinyin.SinglePinyin`. -/
def chunksLoop (dict : Rune → List Bytes) : Bytes → List Rune → List Bytes
  | buf, [] => if buf.length ≠ 0 then [buf] else []
  | buf, ch :: rest =>
    match dict ch with
    | [] => chunksLoop dict (buf ++ encodeRune ch) rest
    | pyn :: _ => (if buf.length ≠ 0 then [buf] else []) ++ pyn :: chunksLoop dict [] rest

/-- translit/pinyin/pinyin.go:28-57 `Transliterate` on a word in NFC. -/
def transliterate (dict : Rune → List Bytes) (word : Bytes) : Bytes :=
  join separator (chunksLoop dict [] (runes word))

end Pinyin
end Verif
