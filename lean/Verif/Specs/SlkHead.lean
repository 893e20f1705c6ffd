import Verif.Proofs.Bundle

/-! specs/slk.hsl, the lines before the rules, generated by tools/gen_specs.py. -/

set_option Elab.async false

namespace Verif.Specs.Slk

open Hsl

/-- The language of the spec. -/
def lang : Language :=
  ⟨str "slk", (str "sk", str "slk"), str "Slovak", str "슬로바키아어", str "Latn", []⟩

def macros : List (Bytes × Bytes) := [(str "@", str "<vowels>")]

def vars : List (Bytes × List Bytes) := [(str "cs", [str "b", str "c", str "C", str "d", str "D", str "f", str "g", str "h", str "j", str "k", str "l", str "L", str "m", str "n", str "N", str "p", str "q", str "Q", str "r", str "R", str "s", str "S", str "t", str "T", str "v", str "w", str "x", str "z", str "Z"]),
  (str "vl", [str "c", str "C", str "f", str "k", str "p", str "s", str "S", str "t", str "T"]),
  (str "vowels", [str "a", str "A", str "P", str "e", str "E", str "i", str "I", str "o", str "O", str "W", str "u", str "U", str "y", str "Y"])]

def keys : List (Rune × List Rune) := [(193, [225]),
  (196, [228]),
  (268, [269]),
  (270, [271]),
  (201, [233]),
  (205, [237]),
  (313, [314]),
  (317, [318]),
  (327, [328]),
  (211, [243]),
  (212, [244]),
  (340, [341]),
  (352, [353]),
  (356, [357]),
  (218, [250]),
  (221, [253]),
  (381, [382])]

def kept : List Rune := [225, 228, 269, 271, 233, 237, 314, 318, 328, 243, 244, 341, 353, 357, 250, 253, 382]

def head : List String := [
"lang:\n",
"    id      = \"slk\"\n",
"    codes   = \"sk\", \"slk\"\n",
"    english = \"Slovak\"\n",
"    korean  = \"슬로바키아어\"\n",
"    script  = \"Latn\"\n",
"\n",
"config:\n",
"    author = \"Brian Jongseong Park <iceager@gmail.com>\"\n",
"    stage  = \"draft\"\n",
"\n",
"macros:\n",
"    \"@\" = \"<vowels>\"\n",
"\n",
"vars:\n",
"    \"cs\"     = \"b\", \"c\", \"C\", \"d\", \"D\", \"f\", \"g\", \"h\", \"j\", \"k\", \"l\", \"L\", \"m\", \"n\", \"N\", \"p\", \"q\", \"Q\", \"r\", \"R\", \"s\", \"S\", \"t\", \"T\", \"v\", \"w\", \"x\", \"z\", \"Z\"\n",
"    \"vl\"     = \"c\", \"C\", \"f\", \"k\", \"p\", \"s\", \"S\", \"t\", \"T\"\n",
"    \"vowels\" = \"a\", \"A\", \"P\", \"e\", \"E\", \"i\", \"I\", \"o\", \"O\", \"W\", \"u\", \"U\", \"y\", \"Y\"\n",
"\n",
"normalize:\n",
"    \"á\" = \"Á\"\n",
"    \"ä\" = \"Ä\"\n",
"    \"č\" = \"Č\"\n",
"    \"ď\" = \"Ď\"\n",
"    \"é\" = \"É\"\n",
"    \"í\" = \"Í\"\n",
"    \"ĺ\" = \"Ĺ\"\n",
"    \"ľ\" = \"Ľ\"\n",
"    \"ň\" = \"Ň\"\n",
"    \"ó\" = \"Ó\"\n",
"    \"ô\" = \"Ô\"\n",
"    \"ŕ\" = \"Ŕ\"\n",
"    \"š\" = \"Š\"\n",
"    \"ť\" = \"Ť\"\n",
"    \"ú\" = \"Ú\"\n",
"    \"ý\" = \"Ý\"\n",
"    \"ž\" = \"Ž\"\n",
"\n"]

theorem head_ok : ∃ xs, Reads [] (runes (text head)) xs (str "normalize") ∧ headOk lang macros vars keys kept xs = true := by
  apply piece_of
  · dsimp only [head]; repeat (first | exact .nil | apply Spells.cons)
  · decide +kernel

end Verif.Specs.Slk
