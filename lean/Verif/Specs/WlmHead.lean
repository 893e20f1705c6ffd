import Verif.Proofs.Bundle

/-! specs/wlm.hsl, the lines before the rules, generated by tools/gen_specs.py. -/

set_option Elab.async false

namespace Verif.Specs.Wlm

open Hsl

/-- The language of the spec. -/
def lang : Language :=
  ⟨str "wlm", (str "", str "wlm"), str "Middle Welsh", str "웨일스어(중세)", str "Latn", []⟩

def macros : List (Bytes × Bytes) := [(str "@", str "<vowels>")]

def vars : List (Bytes × List Bytes) := [(str "cs", [str "b", str "c", str "C", str "d", str "D", str "f", str "F", str "g", str "h", str "k", str "l", str "L", str "m", str "n", str "N", str "p", str "q", str "r", str "s", str "t", str "T", str "v", str "W", str "x", str "z", str "-", str "Y"]),
  (str "ob", [str "b", str "c", str "C", str "d", str "D", str "f", str "F", str "g", str "h", str "k", str "p", str "q", str "s", str "t", str "T", str "v", str "W", str "x", str "z"]),
  (str "vl", [str "c", str "C", str "F", str "h", str "k", str "p", str "s", str "t"]),
  (str "vowels", [str "a", str "e", str "i", str "î", str "o", str "u", str "U", str "w", str "ŵ", str "y", str "ŷ", str "Q"])]

def keys : List (Rune × List Rune) := [(372, [373]),
  (374, [375]),
  (207, [239]),
  (206, [238])]

def kept : List Rune := [373, 375, 239, 238]

def head : List String := [
"lang:\n",
"    id      = \"wlm\"\n",
"    codes   = \"\", \"wlm\"\n",
"    english = \"Middle Welsh\"\n",
"    korean  = \"웨일스어(중세)\"\n",
"    script  = \"Latn\"\n",
"\n",
"config:\n",
"    author = \"Brian Jongseong Park <iceager@gmail.com>\"\n",
"    stage  = \"draft\"\n",
"\n",
"macros:\n",
"    \"@\" = \"<vowels>\"\n",
"\n",
"vars:\n",
"    \"cs\"     = \"b\", \"c\", \"C\", \"d\", \"D\", \"f\", \"F\", \"g\", \"h\", \"k\", \"l\", \"L\", \"m\", \"n\", \"N\", \"p\", \"q\", \"r\", \"s\", \"t\", \"T\", \"v\", \"W\", \"x\", \"z\", \"-\", \"Y\"\n",
"    \"ob\"     = \"b\", \"c\", \"C\", \"d\", \"D\", \"f\", \"F\", \"g\", \"h\", \"k\", \"p\", \"q\", \"s\", \"t\", \"T\", \"v\", \"W\", \"x\", \"z\"\n",
"    \"vl\"     = \"c\", \"C\", \"F\", \"h\", \"k\", \"p\", \"s\", \"t\"\n",
"    \"vowels\" = \"a\", \"e\", \"i\", \"î\", \"o\", \"u\", \"U\", \"w\", \"ŵ\", \"y\", \"ŷ\", \"Q\"\n",
"\n",
"normalize:\n",
"    \"ŵ\" = \"Ŵ\"\n",
"    \"ŷ\" = \"Ŷ\"\n",
"    \"ï\" = \"Ï\"\n",
"    \"î\" = \"Î\"\n",
"\n"]

theorem head_ok : ∃ xs, Reads [] (runes (text head)) xs (str "normalize") ∧ headOk lang macros vars keys kept xs = true := by
  apply piece_of
  · dsimp only [head]; repeat (first | exact .nil | apply Spells.cons)
  · decide +kernel

end Verif.Specs.Wlm
