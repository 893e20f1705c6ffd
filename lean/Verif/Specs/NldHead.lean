import Verif.Proofs.Bundle

/-! specs/nld.hsl, the lines before the rules, generated by tools/gen_specs.py. -/

set_option Elab.async false

namespace Verif.Specs.Nld

open Hsl

/-- The language of the spec. -/
def lang : Language :=
  ⟨str "nld", (str "nl", str "nld"), str "Dutch", str "네덜란드어", str "Latn", []⟩

def macros : List (Bytes × Bytes) := [(str "@", str "<vowels>")]

def vars : List (Bytes × List Bytes) := [(str "cs", [str "b", str "B", str "c", str "C", str "d", str "D", str "f", str "F", str "g", str "G", str "h", str "j", str "J", str "k", str "K", str "l", str "m", str "n", str "N", str "p", str "P", str "q", str "r", str "s", str "t", str "T", str "v", str "w", str "x", str "X", str "z", str "%"]),
  (str "short", [str "a", str "e", str "E", str "i", str "o", str "u", str "U"]),
  (str "son", [str "l", str "m", str "n", str "N", str "r", str "w"]),
  (str "vowels", [str "a", str "e", str "E", str "i", str "o", str "O", str "u", str "U", str "y", str "Q"])]

def keys : List (Rune × List Rune) := [(196, [228]),
  (199, [231]),
  (201, [233]), (200, [233]), (234, [233]), (202, [233]), (232, [233]),
  (203, [235]),
  (207, [239]), (7726, [239]),
  (376, [105, 106]), (307, [105, 106]), (306, [105, 106]), (255, [105, 106]),
  (214, [246]),
  (220, [252])]

def kept : List Rune := [228, 231, 233, 235, 239, 105, 246, 252]

def head : List String := [
"lang:\n",
"    id      = \"nld\"\n",
"    codes   = \"nl\", \"nld\"\n",
"    english = \"Dutch\"\n",
"    korean  = \"네덜란드어\"\n",
"    script  = \"Latn\"\n",
"\n",
"config:\n",
"    author = \"Brian Jongseong Park <iceager@gmail.com>\"\n",
"    stage  = \"draft\"\n",
"\n",
"macros:\n",
"    \"@\" = \"<vowels>\"\n",
"\n",
"vars:\n",
"    \"cs\"     = \"b\", \"B\", \"c\", \"C\", \"d\", \"D\", \"f\", \"F\", \"g\", \"G\", \"h\", \"j\", \"J\", \"k\", \"K\", \"l\", \"m\", \"n\", \"N\", \"p\", \"P\", \"q\", \"r\", \"s\", \"t\", \"T\", \"v\", \"w\", \"x\", \"X\", \"z\", \"%\"\n",
"    \"short\"  = \"a\", \"e\", \"E\", \"i\", \"o\", \"u\", \"U\"\n",
"    \"son\"    = \"l\", \"m\", \"n\", \"N\", \"r\", \"w\"\n",
"    \"vowels\" = \"a\", \"e\", \"E\", \"i\", \"o\", \"O\", \"u\", \"U\", \"y\", \"Q\"\n",
"\n",
"normalize:\n",
"    \"ä\"  = \"Ä\"\n",
"    \"ç\"  = \"Ç\"\n",
"    \"é\"  = \"É\", \"È\", \"ê\", \"Ê\", \"è\"\n",
"    \"ë\"  = \"Ë\"\n",
"    \"ï\"  = \"Ï\", \"Ḯ\"\n",
"    \"ij\" = \"Ÿ\", \"ĳ\", \"Ĳ\", \"ÿ\"\n",
"    \"ö\"  = \"Ö\"\n",
"    \"ü\"  = \"Ü\"\n",
"\n"]

theorem head_ok : ∃ xs, Reads [] (runes (text head)) xs (str "normalize") ∧ headOk lang macros vars keys kept xs = true := by
  apply piece_of
  · dsimp only [head]; repeat (first | exact .nil | apply Spells.cons)
  · decide +kernel

end Verif.Specs.Nld
