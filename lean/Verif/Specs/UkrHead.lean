import Verif.Proofs.Bundle

/-! specs/ukr.hsl, the lines before the rules, generated by tools/gen_specs.py. -/

set_option Elab.async false

namespace Verif.Specs.Ukr

open Hsl

/-- The language of the spec. -/
def lang : Language :=
  ⟨str "ukr", (str "uk", str "ukr"), str "Ukrainian", str "우크라이나어", str "Cyrl", [str "cyrillic[ua]"]⟩

def macros : List (Bytes × Bytes) := [(str "@", str "<vowels>")]

def vars : List (Bytes × List Bytes) := [(str "cs", [str "б", str "в", str "г", str "ґ", str "д", str "ж", str "з", str "к", str "л", str "м", str "н", str "п", str "р", str "с", str "т", str "ф", str "х", str "ц", str "ч", str "ш", str "щ"]),
  (str "vl", [str "к", str "п", str "с", str "т", str "ф", str "х", str "ц", str "ч", str "ш", str "щ"]),
  (str "vowels", [str "а", str "е", str "є", str "и", str "і", str "ї", str "й", str "о", str "O", str "у", str "ь", str "ю", str "я"])]

def keys : List (Rune × List Rune) := []

def kept : List Rune := []

def head : List String := [
"lang:\n",
"    id       = \"ukr\"\n",
"    codes    = \"uk\", \"ukr\"\n",
"    english  = \"Ukrainian\"\n",
"    korean   = \"우크라이나어\"\n",
"    script   = \"Cyrl\"\n",
"    translit = \"cyrillic[ua]\"\n",
"\n",
"config:\n",
"    author = \"Brian Jongseong Park <iceager@gmail.com>\"\n",
"    stage  = \"draft\"\n",
"\n",
"macros:\n",
"    \"@\" = \"<vowels>\"\n",
"\n",
"vars:\n",
"    \"cs\"     = \"б\", \"в\", \"г\", \"ґ\", \"д\", \"ж\", \"з\", \"к\", \"л\", \"м\", \"н\", \"п\", \"р\", \"с\", \"т\", \"ф\", \"х\", \"ц\", \"ч\", \"ш\", \"щ\"\n",
"    \"vl\"     = \"к\", \"п\", \"с\", \"т\", \"ф\", \"х\", \"ц\", \"ч\", \"ш\", \"щ\"\n",
"    \"vowels\" = \"а\", \"е\", \"є\", \"и\", \"і\", \"ї\", \"й\", \"о\", \"O\", \"у\", \"ь\", \"ю\", \"я\"\n",
"\n"]

theorem head_ok : ∃ xs, Reads [] (runes (text head)) xs (str "vars") ∧ headOk lang macros vars keys kept xs = true := by
  apply piece_of
  · dsimp only [head]; repeat (first | exact .nil | apply Spells.cons)
  · decide +kernel

end Verif.Specs.Ukr
