import Verif.Proofs.Bundle

/-! specs/vie.hsl, generated by tools/gen_specs.py. -/

set_option Elab.async false

namespace Verif.Specs.Vie

open Hsl

/-- The language of the spec. -/
def lang : Language :=
  ⟨str "vie", (str "vi", str "vie"), str "Vietnamese", str "베트남어", str "Latn", []⟩

def macros : List (Bytes × Bytes) := [(str "@", str "<vowels>")]

def vars : List (Bytes × List Bytes) := [(str "vowels", [str "a", str "A", str "e", str "E", str "i", str "o", str "O", str "u", str "U", str "y"])]

def keys : List (Rune × List Rune) := [(7905, [417]), (416, [417]), (7907, [417]), (7906, [417]), (7904, [417]), (7899, [417]), (7898, [417]), (7901, [417]), (7900, [417]), (7903, [417]), (7902, [417]),
  (258, [259]), (7855, [259]), (7854, [259]), (7857, [259]), (7856, [259]), (7859, [259]), (7858, [259]), (7861, [259]), (7860, [259]), (7863, [259]), (7862, [259]),
  (194, [226]), (7845, [226]), (7844, [226]), (7847, [226]), (7846, [226]), (7849, [226]), (7848, [226]), (7851, [226]), (7850, [226]), (7853, [226]), (7852, [226]),
  (7873, [234]), (7872, [234]), (7875, [234]), (7874, [234]), (7877, [234]), (7876, [234]), (7879, [234]), (7878, [234]), (202, [234]), (7871, [234]), (7870, [234]),
  (272, [273]),
  (7913, [432]), (7912, [432]), (7915, [432]), (7914, [432]), (7917, [432]), (7916, [432]), (431, [432]), (7918, [432]), (7921, [432]), (7920, [432]), (7919, [432])]

def kept : List Rune := [417, 259, 226, 234, 273, 432]

def head : List String := [
"lang:\n",
"    id      = \"vie\"\n",
"    codes   = \"vi\", \"vie\"\n",
"    english = \"Vietnamese\"\n",
"    korean  = \"베트남어\"\n",
"    script  = \"Latn\"\n",
"\n",
"config:\n",
"    author = \"Brian Jongseong Park <iceager@gmail.com>\"\n",
"    stage  = \"draft\"\n",
"\n",
"macros:\n",
"    \"@\" = \"<vowels>\"\n",
"\n",
"vars:\n",
"    \"vowels\" = \"a\", \"A\", \"e\", \"E\", \"i\", \"o\", \"O\", \"u\", \"U\", \"y\"\n",
"\n",
"normalize:\n",
"    \"ơ\" = \"ỡ\", \"Ơ\", \"ợ\", \"Ợ\", \"Ỡ\", \"ớ\", \"Ớ\", \"ờ\", \"Ờ\", \"ở\", \"Ở\"\n",
"    \"ă\" = \"Ă\", \"ắ\", \"Ắ\", \"ằ\", \"Ằ\", \"ẳ\", \"Ẳ\", \"ẵ\", \"Ẵ\", \"ặ\", \"Ặ\"\n",
"    \"â\" = \"Â\", \"ấ\", \"Ấ\", \"ầ\", \"Ầ\", \"ẩ\", \"Ẩ\", \"ẫ\", \"Ẫ\", \"ậ\", \"Ậ\"\n",
"    \"ê\" = \"ề\", \"Ề\", \"ể\", \"Ể\", \"ễ\", \"Ễ\", \"ệ\", \"Ệ\", \"Ê\", \"ế\", \"Ế\"\n",
"    \"đ\" = \"Đ\"\n",
"    \"ư\" = \"ứ\", \"Ứ\", \"ừ\", \"Ừ\", \"ử\", \"Ử\", \"Ư\", \"Ữ\", \"ự\", \"Ự\", \"ữ\"\n",
"\n"]

theorem head_ok : ∃ xs, Reads [] (runes (text head)) xs (str "normalize") ∧ headOk lang macros vars keys kept xs = true := by
  apply piece_of
  · dsimp only [head]; repeat (first | exact .nil | apply Spells.cons)
  · decide +kernel

def lines1 : List String := [
"rewrite:\n",
"    \"ă\"          -> \"A\"\n",
"    \"â\"          -> \"O\"\n",
"    \"đ\"          -> \"D\"\n",
"    \"ê\"          -> \"E\"\n",
"    \"ơ\"          -> \"O\"\n",
"    \"ư\"          -> \"U\"\n",
"    \"ch\"         -> \"C\"\n",
"    \"c\"          -> \"k\"\n",
"    \"j\"          -> \"d\"\n",
"    \"kh{@}\"      -> \"K\"\n"]

theorem lines1_ok : Part true lang macros vars (str "normalize") lines1 (str "rewrite") := by
  apply piece_of
  · dsimp only [lines1]; repeat (first | exact .nil | apply Spells.cons)
  · decide +kernel

def lines2 : List String := [
"    \"ngh{e|E|i}\" -> \"N\"\n",
"    \"ng\"         -> \"N\"\n",
"    \"nh{@}\"      -> \"nY\"\n",
"    \"anh\"        -> \"ain\"\n",
"    \"nh\"         -> \"n\"\n",
"    \"gi\"         -> \"d\"\n",
"    \"gh\"         -> \"g\"\n",
"    \"ph{@}\"      -> \"f\"\n",
"    \"qua\"        -> \"kWa\"\n",
"    \"q\"          -> \"k\"\n"]

theorem lines2_ok : Part true lang macros vars (str "rewrite") lines2 (str "rewrite") := by
  apply piece_of
  · dsimp only [lines2]; repeat (first | exact .nil | apply Spells.cons)
  · decide +kernel

def lines3 : List String := [
"    \"th{@}\"      -> \"T\"\n",
"    \"tr\"         -> \"C\"\n",
"    \"dz{@}\"      -> \"d\"\n",
"    \"z{@}\"       -> \"d\"\n",
"    \"ia\"         -> \"iO\"\n",
"    \"ya\"         -> \"yO\"\n",
"    \"ua\"         -> \"uO\"\n",
"    \"Ua\"         -> \"UO\"\n",
"    \"A\"          -> \"a\"\n",
"    \"y{@}\"       -> \"Y\"\n"]

theorem lines3_ok : Part true lang macros vars (str "rewrite") lines3 (str "rewrite") := by
  apply piece_of
  · dsimp only [lines3]; repeat (first | exact .nil | apply Spells.cons)
  · decide +kernel

def lines4 : List String := [
"    \"y\"          -> \"i\"\n",
"    \"C{@}\"       -> \"XC\"\n",
"    \"{@}C\"       -> \"CX\"\n",
"    \"^k\"         -> \"Xk\"\n",
"    \"k{@|l|r|W}\" -> \"Xk\"\n",
"    \"{@}k\"       -> \"kX\"\n",
"    \"m{@}\"       -> \"Xm\"\n",
"    \"{@}m\"       -> \"mX\"\n",
"    \"n{@|Y}\"     -> \"Xn\"\n",
"    \"{@}n\"       -> \"nX\"\n"]

theorem lines4_ok : Part true lang macros vars (str "rewrite") lines4 (str "rewrite") := by
  apply piece_of
  · dsimp only [lines4]; repeat (first | exact .nil | apply Spells.cons)
  · decide +kernel

def lines5 : List String := [
"    \"N\"          -> \"NX\"\n",
"    \"^p\"         -> \"Xp\"\n",
"    \"p{@|l|r}\"   -> \"Xp\"\n",
"    \"{@}p\"       -> \"pX\"\n",
"    \"^t\"         -> \"Xt\"\n",
"    \"t{@|l}\"     -> \"Xt\"\n",
"    \"{@}t\"       -> \"tX\"\n",
"\n"]

theorem lines5_ok : Part true lang macros vars (str "rewrite") lines5 (str "rewrite") := by
  apply piece_of
  · dsimp only [lines5]; repeat (first | exact .nil | apply Spells.cons)
  · decide +kernel

def lines6 : List String := [
"transcribe:\n",
"    \"^l\"      -> \"ㄹ\"\n",
"    \"{X}l{@}\" -> \"ㄹ\"\n",
"    \"l{@}\"    -> \"-ㄹㄹ\"\n",
"    \"l\"       -> \"-ㄹ\"\n",
"    \"b\"       -> \"ㅂ\"\n",
"    \"XC\"      -> \"ㅉ\"\n",
"    \"CX\"      -> \"-ㄱ\"\n",
"    \"C\"       -> \"ㅉ\"\n",
"    \"d\"       -> \"ㅈ\"\n",
"    \"D\"       -> \"ㄷ\"\n"]

theorem lines6_ok : Part true lang macros vars (str "rewrite") lines6 (str "transcribe") := by
  apply piece_of
  · dsimp only [lines6]; repeat (first | exact .nil | apply Spells.cons)
  · decide +kernel

def lines7 : List String := [
"    \"f\"       -> \"ㅍ\"\n",
"    \"g\"       -> \"ㄱ\"\n",
"    \"h{@}\"    -> \"ㅎ\"\n",
"    \"Xk\"      -> \"ㄲ\"\n",
"    \"kX\"      -> \"-ㄱ\"\n",
"    \"k\"       -> \"ㄲ\"\n",
"    \"K\"       -> \"ㅋ\"\n",
"    \"Xm\"      -> \"ㅁ\"\n",
"    \"mX\"      -> \"-ㅁ\"\n",
"    \"Xn\"      -> \"ㄴ\"\n"]

theorem lines7_ok : Part true lang macros vars (str "transcribe") lines7 (str "transcribe") := by
  apply piece_of
  · dsimp only [lines7]; repeat (first | exact .nil | apply Spells.cons)
  · decide +kernel

def lines8 : List String := [
"    \"nX\"      -> \"-ㄴ\"\n",
"    \"NX\"      -> \"-ㅇ\"\n",
"    \"Xp\"      -> \"ㅃ\"\n",
"    \"pX\"      -> \"-ㅂ\"\n",
"    \"p\"       -> \"ㅃ\"\n",
"    \"r\"       -> \"ㄹ\"\n",
"    \"s\"       -> \"ㅅ\"\n",
"    \"Xt\"      -> \"ㄸ\"\n",
"    \"tX\"      -> \"-ㅅ\"\n",
"    \"t\"       -> \"ㄸ\"\n"]

theorem lines8_ok : Part true lang macros vars (str "transcribe") lines8 (str "transcribe") := by
  apply piece_of
  · dsimp only [lines8]; repeat (first | exact .nil | apply Spells.cons)
  · decide +kernel

def lines9 : List String := [
"    \"T\"       -> \"ㅌ\"\n",
"    \"v\"       -> \"ㅂ\"\n",
"    \"x\"       -> \"ㅆ\"\n",
"    \"z\"       -> \"ㅋ\"\n",
"    \"Wa\"      -> \"ㅘ\"\n",
"    \"Ya\"      -> \"ㅑ\"\n",
"    \"Ye\"      -> \"ㅒ\"\n",
"    \"YE\"      -> \"ㅖ\"\n",
"    \"Yi\"      -> \"ㅣ\"\n",
"    \"Yo\"      -> \"ㅛ\"\n"]

theorem lines9_ok : Part true lang macros vars (str "transcribe") lines9 (str "transcribe") := by
  apply piece_of
  · dsimp only [lines9]; repeat (first | exact .nil | apply Spells.cons)
  · decide +kernel

def lines10 : List String := [
"    \"YO\"      -> \"ㅕ\"\n",
"    \"Yu\"      -> \"ㅠ\"\n",
"    \"YU\"      -> \"ㅠ\"\n",
"    \"a\"       -> \"ㅏ\"\n",
"    \"e\"       -> \"ㅐ\"\n",
"    \"E\"       -> \"ㅔ\"\n",
"    \"i\"       -> \"ㅣ\"\n",
"    \"o\"       -> \"ㅗ\"\n",
"    \"O\"       -> \"ㅓ\"\n",
"    \"u\"       -> \"ㅜ\"\n"]

theorem lines10_ok : Part true lang macros vars (str "transcribe") lines10 (str "transcribe") := by
  apply piece_of
  · dsimp only [lines10]; repeat (first | exact .nil | apply Spells.cons)
  · decide +kernel

def lines11 : List String := [
"    \"U\"       -> \"ㅡ\"\n",
"\n"]

theorem lines11_ok : Part true lang macros vars (str "transcribe") lines11 (str "transcribe") := by
  apply piece_of
  · dsimp only [lines11]; repeat (first | exact .nil | apply Spells.cons)
  · decide +kernel

def lines12 : List String := [
"test:\n",
"    \"Quôc\"   -> \"꾸옥\"\n",
"    \"Quang\"  -> \"꽝\"\n",
"    \"Quyên\"  -> \"꾸옌\"\n",
"    \"Pleiku\" -> \"쁠래이꾸\"\n",
"    \"Nguyên\" -> \"응우옌\"\n",
"    \"yên\"    -> \"옌\"\n",
"\n"]

theorem lines12_ok : Part true lang macros vars (str "transcribe") lines12 (str "test") := by
  apply piece_of
  · dsimp only [lines12]; repeat (first | exact .nil | apply Spells.cons)
  · decide +kernel

/-- The lines of the file. -/
def lines : List String := head ++ (lines1 ++ (lines2 ++ (lines3 ++ (lines4 ++ (lines5 ++ (lines6 ++ (lines7 ++ (lines8 ++ (lines9 ++ (lines10 ++ (lines11 ++ (lines12))))))))))))

/-- The file is a spec with checked rules. -/
theorem sound : Sound (text lines) lang := sound_of head_ok (lines1_ok.append (lines2_ok.append (lines3_ok.append (lines4_ok.append (lines5_ok.append (lines6_ok.append (lines7_ok.append (lines8_ok.append (lines9_ok.append (lines10_ok.append (lines11_ok.append (lines12_ok)))))))))))) (by decide +kernel)

end Verif.Specs.Vie
