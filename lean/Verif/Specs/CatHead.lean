import Verif.Proofs.Bundle

/-! specs/cat.hsl, the lines before the rules, generated by tools/gen_specs.py. -/

set_option Elab.async false

namespace Verif.Specs.Cat

open Hsl

/-- The language of the spec. -/
def lang : Language :=
  ⟨str "cat", (str "ca", str "cat"), str "Catalan", str "카탈루냐어", str "Latn", []⟩

def macros : List (Bytes × Bytes) := [(str "@", str "<vowels>")]

def vars : List (Bytes × List Bytes) := [(str "cs", [str "b", str "c", str "C", str "d", str "D", str "f", str "g", str "h", str "k", str "l", str "m", str "n", str "N", str "p", str "r", str "s", str "S", str "t", str "T", str "v", str "w", str "x", str "z", str "Z"]),
  (str "ob", [str "b", str "c", str "C", str "d", str "D", str "f", str "g", str "k", str "p", str "q", str "s", str "S", str "t", str "T", str "x", str "z", str "Z"]),
  (str "vl", [str "c", str "C", str "f", str "k", str "p", str "q", str "s", str "S", str "t", str "T", str "x"]),
  (str "vo", [str "b", str "d", str "D", str "g", str "l", str "m", str "n", str "N", str "r", str "v", str "w", str "z", str "Z"]),
  (str "vowels", [str "a", str "e", str "i", str "o", str "u", str "ü"])]

def keys : List (Rune × List Rune) := [(199, [231]),
  (220, [252]),
  (8226, [183])]

def kept : List Rune := [231, 252, 183]

def head : List String := [
"lang:\n",
"    id      = \"cat\"\n",
"    codes   = \"ca\", \"cat\"\n",
"    english = \"Catalan\"\n",
"    korean  = \"카탈루냐어\"\n",
"    script  = \"Latn\"\n",
"\n",
"config:\n",
"    author = \"Brian Jongseong Park <iceager@gmail.com>\"\n",
"    stage  = \"draft\"\n",
"\n",
"macros:\n",
"    \"@\" = \"<vowels>\"\n",
"\n",
"vars:\n",
"    \"cs\"     = \"b\", \"c\", \"C\", \"d\", \"D\", \"f\", \"g\", \"h\", \"k\", \"l\", \"m\", \"n\", \"N\", \"p\", \"r\", \"s\", \"S\", \"t\", \"T\", \"v\", \"w\", \"x\", \"z\", \"Z\"\n",
"    \"ob\"     = \"b\", \"c\", \"C\", \"d\", \"D\", \"f\", \"g\", \"k\", \"p\", \"q\", \"s\", \"S\", \"t\", \"T\", \"x\", \"z\", \"Z\"\n",
"    \"vl\"     = \"c\", \"C\", \"f\", \"k\", \"p\", \"q\", \"s\", \"S\", \"t\", \"T\", \"x\"\n",
"    \"vo\"     = \"b\", \"d\", \"D\", \"g\", \"l\", \"m\", \"n\", \"N\", \"r\", \"v\", \"w\", \"z\", \"Z\"\n",
"    \"vowels\" = \"a\", \"e\", \"i\", \"o\", \"u\", \"ü\"\n",
"\n",
"normalize:\n",
"    \"ç\" = \"Ç\"\n",
"    \"ü\" = \"Ü\"\n",
"    \"·\" = \"•\"\n",
"\n"]

theorem head_ok : ∃ xs, Reads [] (runes (text head)) xs (str "normalize") ∧ headOk lang macros vars keys kept xs = true := by
  apply piece_of
  · dsimp only [head]; repeat (first | exact .nil | apply Spells.cons)
  · decide +kernel

end Verif.Specs.Cat
