import Verif.Proofs.Bundle

/-! specs/por.hsl, the lines before the rules, generated by tools/gen_specs.py. -/

set_option Elab.async false

namespace Verif.Specs.Por

open Hsl

/-- The language of the spec. -/
def lang : Language :=
  ⟨str "por", (str "pt", str "por"), str "Portuguese", str "포르투갈어", str "Latn", []⟩

def macros : List (Bytes × Bytes) := [(str "@", str "<vowels>")]

def vars : List (Bytes × List Bytes) := [(str "cs", [str "b", str "c", str "C", str "d", str "f", str "g", str "h", str "j", str "k", str "l", str "m", str "n", str "p", str "q", str "r", str "R", str "s", str "S", str "t", str "v", str "w", str "x", str "z"]),
  (str "son", [str "l", str "m", str "n", str "r"]),
  (str "vl", [str "c", str "C", str "f", str "k", str "p", str "q", str "R", str "s", str "S", str "t"]),
  (str "vowels", [str "a", str "A", str "e", str "E", str "i", str "I", str "o", str "O", str "u", str "U", str "Q"])]

def keys : List (Rune × List Rune) := [(193, [225]),
  (195, [227]),
  (194, [226]),
  (199, [231]),
  (201, [233]), (234, [233]),
  (202, [234]),
  (211, [243]),
  (213, [245]),
  (212, [244])]

def kept : List Rune := [225, 227, 226, 231, 233, 234, 243, 245, 244]

def head : List String := [
"lang:\n",
"    id      = \"por\"\n",
"    codes   = \"pt\", \"por\"\n",
"    english = \"Portuguese\"\n",
"    korean  = \"포르투갈어\"\n",
"    script  = \"Latn\"\n",
"\n",
"config:\n",
"    author = \"Brian Jongseong Park <iceager@gmail.com>\"\n",
"    stage  = \"draft\"\n",
"\n",
"macros:\n",
"    \"@\" = \"<vowels>\"\n",
"\n",
"vars:\n",
"    \"cs\"     = \"b\", \"c\", \"C\", \"d\", \"f\", \"g\", \"h\", \"j\", \"k\", \"l\", \"m\", \"n\", \"p\", \"q\", \"r\", \"R\", \"s\", \"S\", \"t\", \"v\", \"w\", \"x\", \"z\"\n",
"    \"son\"    = \"l\", \"m\", \"n\", \"r\"\n",
"    \"vl\"     = \"c\", \"C\", \"f\", \"k\", \"p\", \"q\", \"R\", \"s\", \"S\", \"t\"\n",
"    \"vowels\" = \"a\", \"A\", \"e\", \"E\", \"i\", \"I\", \"o\", \"O\", \"u\", \"U\", \"Q\"\n",
"\n",
"normalize:\n",
"    \"á\" = \"Á\"\n",
"    \"ã\" = \"Ã\"\n",
"    \"â\" = \"Â\"\n",
"    \"ç\" = \"Ç\"\n",
"    \"é\" = \"É\", \"ê\"\n",
"    \"ê\" = \"Ê\"\n",
"    \"ó\" = \"Ó\"\n",
"    \"õ\" = \"Õ\"\n",
"    \"ô\" = \"Ô\"\n",
"\n"]

theorem head_ok : ∃ xs, Reads [] (runes (text head)) xs (str "normalize") ∧ headOk lang macros vars keys kept xs = true := by
  apply piece_of
  · dsimp only [head]; repeat (first | exact .nil | apply Spells.cons)
  · decide +kernel

end Verif.Specs.Por
