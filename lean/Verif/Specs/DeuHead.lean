import Verif.Proofs.Bundle

/-! specs/deu.hsl, the lines before the rules, generated by tools/gen_specs.py. -/

set_option Elab.async false

namespace Verif.Specs.Deu

open Hsl

/-- The language of the spec. -/
def lang : Language :=
  ⟨str "deu", (str "de", str "deu"), str "German", str "독일어", str "Latn", []⟩

def macros : List (Bytes × Bytes) := [(str "@", str "<vowels>")]

def vars : List (Bytes × List Bytes) := [(str "cons", [str "b", str "c", str "C", str "d", str "f", str "g", str "h", str "j", str "J", str "k", str "l", str "m", str "n", str "N", str "p", str "q", str "r", str "s", str "S", str "t", str "T", str "v", str "w", str "x", str "z", str "Z", str "ß"]),
  (str "vowels", [str "a", str "e", str "i", str "o", str "u", str "ä", str "ö", str "ü", str "y", str "A", str "E", str "O", str "U"])]

def keys : List (Rune × List Rune) := [(196, [228]),
  (220, [252]),
  (214, [246])]

def kept : List Rune := [228, 252, 246]

def head : List String := [
"lang:\n",
"    id      = \"deu\"\n",
"    codes   = \"de\", \"deu\"\n",
"    english = \"German\"\n",
"    korean  = \"독일어\"\n",
"    script  = \"Latn\"\n",
"\n",
"config:\n",
"    author = \"Brian Jongseong Park <iceager@gmail.com>\"\n",
"    stage  = \"draft\"\n",
"\n",
"macros:\n",
"    \"@\" = \"<vowels>\"\n",
"\n",
"vars:\n",
"    \"cons\"   = \"b\", \"c\", \"C\", \"d\", \"f\", \"g\", \"h\", \"j\", \"J\", \"k\", \"l\", \"m\", \"n\", \"N\", \"p\", \"q\", \"r\", \"s\", \"S\", \"t\", \"T\", \"v\", \"w\", \"x\", \"z\", \"Z\", \"ß\"\n",
"    \"vowels\" = \"a\", \"e\", \"i\", \"o\", \"u\", \"ä\", \"ö\", \"ü\", \"y\", \"A\", \"E\", \"O\", \"U\"\n",
"\n",
"normalize:\n",
"    \"ä\" = \"Ä\"\n",
"    \"ü\" = \"Ü\"\n",
"    \"ö\" = \"Ö\"\n",
"\n"]

theorem head_ok : ∃ xs, Reads [] (runes (text head)) xs (str "normalize") ∧ headOk lang macros vars keys kept xs = true := by
  apply piece_of
  · dsimp only [head]; repeat (first | exact .nil | apply Spells.cons)
  · decide +kernel

end Verif.Specs.Deu
