import Verif.Proofs.Bundle

/-! specs/pol.hsl, the lines before the rules, generated by tools/gen_specs.py. -/

set_option Elab.async false

namespace Verif.Specs.Pol

open Hsl

/-- The language of the spec. -/
def lang : Language :=
  ⟨str "pol", (str "pl", str "pol"), str "Polish", str "폴란드어", str "Latn", []⟩

def macros : List (Bytes × Bytes) := [(str "@", str "<vowels>")]

def vars : List (Bytes × List Bytes) := [(str "cs", [str "b", str "c", str "C", str "d", str "f", str "g", str "h", str "j", str "k", str "l", str "m", str "n", str "p", str "q", str "r", str "s", str "t", str "v", str "w", str "x", str "z"]),
  (str "vl", [str "c", str "C", str "f", str "h", str "k", str "p", str "s", str "t"]),
  (str "vowels", [str "a", str "e", str "i", str "o", str "u", str "y"])]

def keys : List (Rune × List Rune) := [(321, [322]),
  (260, [261]),
  (262, [263]),
  (211, [243]),
  (280, [281]),
  (346, [347]),
  (377, [378]),
  (379, [380])]

def kept : List Rune := [322, 261, 263, 243, 281, 347, 378, 380]

def head : List String := [
"lang:\n",
"    id      = \"pol\"\n",
"    codes   = \"pl\", \"pol\"\n",
"    english = \"Polish\"\n",
"    korean  = \"폴란드어\"\n",
"    script  = \"Latn\"\n",
"\n",
"config:\n",
"    author = \"Brian Jongseong Park <iceager@gmail.com>\"\n",
"    stage  = \"draft\"\n",
"\n",
"macros:\n",
"    \"@\" = \"<vowels>\"\n",
"\n",
"vars:\n",
"    \"cs\"     = \"b\", \"c\", \"C\", \"d\", \"f\", \"g\", \"h\", \"j\", \"k\", \"l\", \"m\", \"n\", \"p\", \"q\", \"r\", \"s\", \"t\", \"v\", \"w\", \"x\", \"z\"\n",
"    \"vl\"     = \"c\", \"C\", \"f\", \"h\", \"k\", \"p\", \"s\", \"t\"\n",
"    \"vowels\" = \"a\", \"e\", \"i\", \"o\", \"u\", \"y\"\n",
"\n",
"normalize:\n",
"    \"ł\" = \"Ł\"\n",
"    \"ą\" = \"Ą\"\n",
"    \"ć\" = \"Ć\"\n",
"    \"ó\" = \"Ó\"\n",
"    \"ę\" = \"Ę\"\n",
"    \"ś\" = \"Ś\"\n",
"    \"ź\" = \"Ź\"\n",
"    \"ż\" = \"Ż\"\n",
"\n"]

theorem head_ok : ∃ xs, Reads [] (runes (text head)) xs (str "normalize") ∧ headOk lang macros vars keys kept xs = true := by
  apply piece_of
  · dsimp only [head]; repeat (first | exact .nil | apply Spells.cons)
  · decide +kernel

end Verif.Specs.Pol
