import Verif.Proofs.Bundle

/-! specs/swe.hsl, the lines before the rules, generated by tools/gen_specs.py. -/

set_option Elab.async false

namespace Verif.Specs.Swe

open Hsl

/-- The language of the spec. -/
def lang : Language :=
  ⟨str "swe", (str "sv", str "swe"), str "Swedish", str "스웨덴어", str "Latn", []⟩

def macros : List (Bytes × Bytes) := [(str "@", str "<vowels>")]

def vars : List (Bytes × List Bytes) := [(str "vl", [str "f", str "h", str "k", str "p", str "s", str "t"]),
  (str "vowels", [str "a", str "A", str "e", str "E", str "i", str "o", str "O", str "u", str "y"])]

def keys : List (Rune × List Rune) := [(252, [121]), (220, [121]),
  (231, [115]), (199, [115]),
  (507, [229]), (506, [229]), (197, [229]),
  (230, [228]), (196, [228]), (198, [228]),
  (216, [246]), (248, [246]), (214, [246])]

def kept : List Rune := [121, 115, 229, 228, 246]

def head : List String := [
"lang:\n",
"    id      = \"swe\"\n",
"    codes   = \"sv\", \"swe\"\n",
"    english = \"Swedish\"\n",
"    korean  = \"스웨덴어\"\n",
"    script  = \"Latn\"\n",
"\n",
"config:\n",
"    author = \"Brian Jongseong Park <iceager@gmail.com>\"\n",
"    stage  = \"draft\"\n",
"\n",
"macros:\n",
"    \"@\" = \"<vowels>\"\n",
"\n",
"vars:\n",
"    \"vl\"     = \"f\", \"h\", \"k\", \"p\", \"s\", \"t\"\n",
"    \"vowels\" = \"a\", \"A\", \"e\", \"E\", \"i\", \"o\", \"O\", \"u\", \"y\"\n",
"\n",
"normalize:\n",
"    \"y\" = \"ü\", \"Ü\"\n",
"    \"s\" = \"ç\", \"Ç\"\n",
"    \"å\" = \"ǻ\", \"Ǻ\", \"Å\"\n",
"    \"ä\" = \"æ\", \"Ä\", \"Æ\"\n",
"    \"ö\" = \"Ø\", \"ø\", \"Ö\"\n",
"\n"]

theorem head_ok : ∃ xs, Reads [] (runes (text head)) xs (str "normalize") ∧ headOk lang macros vars keys kept xs = true := by
  apply piece_of
  · dsimp only [head]; repeat (first | exact .nil | apply Spells.cons)
  · decide +kernel

end Verif.Specs.Swe
