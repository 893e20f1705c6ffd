import Verif.Proofs.Bundle

/-! specs/mkd.hsl, the lines before the rules, generated by tools/gen_specs.py. -/

set_option Elab.async false

namespace Verif.Specs.Mkd

open Hsl

/-- The language of the spec. -/
def lang : Language :=
  ⟨str "mkd", (str "mk", str "mkd"), str "Macedonian", str "마케도니아어", str "Cyrl", [str "cyrillic[mk]"]⟩

def macros : List (Bytes × Bytes) := [(str "@", str "<vowels>")]

def vars : List (Bytes × List Bytes) := [(str "cs", [str "б", str "в", str "г", str "д", str "ѓ", str "ж", str "з", str "ѕ", str "к", str "л", str "љ", str "м", str "н", str "њ", str "п", str "р", str "с", str "т", str "ќ", str "ф", str "х", str "ц", str "ч", str "џ", str "ш"]),
  (str "vl", [str "к", str "п", str "с", str "т", str "ќ", str "ф", str "х", str "ц", str "ч", str "ш"]),
  (str "vowels", [str "а", str "е", str "и", str "о", str "у"])]

def keys : List (Rune × List Rune) := []

def kept : List Rune := []

def head : List String := [
"lang:\n",
"    id       = \"mkd\"\n",
"    codes    = \"mk\", \"mkd\"\n",
"    english  = \"Macedonian\"\n",
"    korean   = \"마케도니아어\"\n",
"    script   = \"Cyrl\"\n",
"    translit = \"cyrillic[mk]\"\n",
"\n",
"config:\n",
"    author = \"Brian Jongseong Park <iceager@gmail.com>\"\n",
"    stage  = \"draft\"\n",
"\n",
"macros:\n",
"    \"@\" = \"<vowels>\"\n",
"\n",
"vars:\n",
"    \"cs\"     = \"б\", \"в\", \"г\", \"д\", \"ѓ\", \"ж\", \"з\", \"ѕ\", \"к\", \"л\", \"љ\", \"м\", \"н\", \"њ\", \"п\", \"р\", \"с\", \"т\", \"ќ\", \"ф\", \"х\", \"ц\", \"ч\", \"џ\", \"ш\"\n",
"    \"vl\"     = \"к\", \"п\", \"с\", \"т\", \"ќ\", \"ф\", \"х\", \"ц\", \"ч\", \"ш\"\n",
"    \"vowels\" = \"а\", \"е\", \"и\", \"о\", \"у\"\n",
"\n"]

theorem head_ok : ∃ xs, Reads [] (runes (text head)) xs (str "vars") ∧ headOk lang macros vars keys kept xs = true := by
  apply piece_of
  · dsimp only [head]; repeat (first | exact .nil | apply Spells.cons)
  · decide +kernel

end Verif.Specs.Mkd
