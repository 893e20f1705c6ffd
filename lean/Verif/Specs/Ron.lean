import Verif.Proofs.Bundle

/-! specs/ron.hsl, generated by tools/gen_specs.py. -/

set_option Elab.async false

namespace Verif.Specs.Ron

open Hsl

/-- The language of the spec. -/
def lang : Language :=
  ⟨str "ron", (str "ro", str "ron"), str "Romanian", str "루마니아어", str "Latn", []⟩

def macros : List (Bytes × Bytes) := [(str "@", str "<vowels>")]

def vars : List (Bytes × List Bytes) := [(str "voiceless", [str "C", str "f", str "h", str "k", str "p", str "s", str "t", str "T"]),
  (str "vowels", [str "a", str "A", str "e", str "i", str "I", str "o", str "u"])]

def keys : List (Rune × List Rune) := [(536, [537]), (351, [537]), (350, [537]),
  (538, [539]), (355, [539]), (354, [539]),
  (194, [226]),
  (258, [259]), (277, [259]), (276, [259]),
  (206, [238])]

def kept : List Rune := [537, 539, 226, 259, 238]

def head : List String := [
"lang:\n",
"    id      = \"ron\"\n",
"    codes   = \"ro\", \"ron\"\n",
"    english = \"Romanian\"\n",
"    korean  = \"루마니아어\"\n",
"    script  = \"Latn\"\n",
"\n",
"config:\n",
"    author = \"Brian Jongseong Park <iceager@gmail.com>\"\n",
"    stage  = \"draft\"\n",
"\n",
"macros:\n",
"    \"@\" = \"<vowels>\"\n",
"\n",
"vars:\n",
"    \"voiceless\" = \"C\", \"f\", \"h\", \"k\", \"p\", \"s\", \"t\", \"T\"\n",
"    \"vowels\"    = \"a\", \"A\", \"e\", \"i\", \"I\", \"o\", \"u\"\n",
"\n",
"normalize:\n",
"    \"ș\" = \"Ș\", \"ş\", \"Ş\"\n",
"    \"ț\" = \"Ț\", \"ţ\", \"Ţ\"\n",
"    \"â\" = \"Â\"\n",
"    \"ă\" = \"Ă\", \"ĕ\", \"Ĕ\"\n",
"    \"î\" = \"Î\"\n",
"\n"]

theorem head_ok : ∃ xs, Reads [] (runes (text head)) xs (str "normalize") ∧ headOk lang macros vars keys kept xs = true := by
  apply piece_of
  · dsimp only [head]; repeat (first | exact .nil | apply Spells.cons)
  · decide +kernel

def lines1 : List String := [
"rewrite:\n",
"    \"ă\"       -> \"A\"\n",
"    \"â\"       -> \"I\"\n",
"    \"î\"       -> \"I\"\n",
"    \"ș\"       -> \"S\"\n",
"    \"ț\"       -> \"T\"\n",
"    \"ch\"      -> \"k\"\n",
"    \"gh\"      -> \"G\"\n",
"    \"^y{@}\"   -> \"Y\"\n",
"    \"y\"       -> \"i\"\n",
"    \"cea\"     -> \"Ca\"\n"]

theorem lines1_ok : Part true lang macros vars (str "normalize") lines1 (str "rewrite") := by
  apply piece_of
  · dsimp only [lines1]; repeat (first | exact .nil | apply Spells.cons)
  · decide +kernel

def lines2 : List String := [
"    \"gea\"     -> \"ja\"\n",
"    \"c{e|i}\"  -> \"C\"\n",
"    \"g{e|i}\"  -> \"j\"\n",
"    \"cc\"      -> \"c\"\n",
"    \"gg\"      -> \"g\"\n",
"    \"c\"       -> \"k\"\n",
"    \"g\"       -> \"G\"\n",
"    \"dz\"      -> \"z\"\n",
"    \"^ea$\"    -> \"Yea\"\n",
"    \"^ei$\"    -> \"Yei\"\n"]

theorem lines2_ok : Part true lang macros vars (str "rewrite") lines2 (str "rewrite") := by
  apply piece_of
  · dsimp only [lines2]; repeat (first | exact .nil | apply Spells.cons)
  · decide +kernel

def lines3 : List String := [
"    \"^el$\"    -> \"Yel\"\n",
"    \"^ele$\"   -> \"Yele\"\n",
"    \"^eu$\"    -> \"Yeu\"\n",
"    \"^era$\"   -> \"Yera\"\n",
"    \"^erai$\"  -> \"Yerai\"\n",
"    \"^eram$\"  -> \"Yeram\"\n",
"    \"^eraTi$\" -> \"YeraTi\"\n",
"    \"^erau$\"  -> \"Yerau\"\n",
"    \"^este$\"  -> \"Yeste\"\n",
"    \"^eSti$\"  -> \"YeSti\"\n"]

theorem lines3_ok : Part true lang macros vars (str "rewrite") lines3 (str "rewrite") := by
  apply piece_of
  · dsimp only [lines3]; repeat (first | exact .nil | apply Spells.cons)
  · decide +kernel

def lines4 : List String := [
"    \"^ex{@}\"  -> \"eGz\"\n",
"    \"SS\"      -> \"S\"\n",
"    \"S{@}\"    -> \"sY\"\n",
"    \"S\"       -> \"sYu\"\n",
"    \"xx\"      -> \"x\"\n",
"    \"x\"       -> \"ks\"\n",
"    \"q\"       -> \"k\"\n",
"    \"kh\"      -> \"k\"\n",
"    \"ph\"      -> \"p\"\n",
"    \"th\"      -> \"t\"\n"]

theorem lines4_ok : Part true lang macros vars (str "rewrite") lines4 (str "rewrite") := by
  apply piece_of
  · dsimp only [lines4]; repeat (first | exact .nil | apply Spells.cons)
  · decide +kernel

def lines5 : List String := [
"    \"w\"       -> \"v\"\n",
"    \"^y{@}\"   -> \"Y\"\n",
"    \"y\"       -> \"i\"\n",
"    \"aa\"      -> \"a\"\n",
"    \"bb\"      -> \"b\"\n",
"    \"dd\"      -> \"d\"\n",
"    \"ee\"      -> \"e\"\n",
"    \"ff\"      -> \"f\"\n",
"    \"hh\"      -> \"h\"\n",
"    \"ii\"      -> \"i\"\n"]

theorem lines5_ok : Part true lang macros vars (str "rewrite") lines5 (str "rewrite") := by
  apply piece_of
  · dsimp only [lines5]; repeat (first | exact .nil | apply Spells.cons)
  · decide +kernel

def lines6 : List String := [
"    \"jj\"      -> \"j\"\n",
"    \"kk\"      -> \"k\"\n",
"    \"ll\"      -> \"l\"\n",
"    \"mm\"      -> \"m\"\n",
"    \"nn\"      -> \"n\"\n",
"    \"mn$\"     -> \"mnI\"\n",
"    \"oo\"      -> \"o\"\n",
"    \"pp\"      -> \"p\"\n",
"    \"rr\"      -> \"r\"\n",
"    \"ss\"      -> \"s\"\n"]

theorem lines6_ok : Part true lang macros vars (str "rewrite") lines6 (str "rewrite") := by
  apply piece_of
  · dsimp only [lines6]; repeat (first | exact .nil | apply Spells.cons)
  · decide +kernel

def lines7 : List String := [
"    \"tt\"      -> \"t\"\n",
"    \"uu\"      -> \"u\"\n",
"    \"vv\"      -> \"v\"\n",
"    \"zz\"      -> \"z\"\n",
"    \"^m\"      -> \"P\"\n",
"    \"^n\"      -> \"Q\"\n",
"\n"]

theorem lines7_ok : Part true lang macros vars (str "rewrite") lines7 (str "rewrite") := by
  apply piece_of
  · dsimp only [lines7]; repeat (first | exact .nil | apply Spells.cons)
  · decide +kernel

def lines8 : List String := [
"transcribe:\n",
"    \"{@}mm{@}\"          -> \"-ㅁㅁ\"\n",
"    \"{@}nn{@}\"          -> \"-ㄴㄴ\"\n",
"    \"^k\"                -> \"ㅋ\"\n",
"    \"{@}k{<voiceless>}\" -> \"-ㄱ\"\n",
"    \"^p\"                -> \"ㅍ\"\n",
"    \"{@}p{<voiceless>}\" -> \"-ㅂ\"\n",
"    \"k\"                 -> \"ㅋ\"\n",
"    \"p\"                 -> \"ㅍ\"\n",
"    \"b\"                 -> \"ㅂ\"\n",
"    \"C\"                 -> \"ㅊ\"\n"]

theorem lines8_ok : Part true lang macros vars (str "rewrite") lines8 (str "transcribe") := by
  apply piece_of
  · dsimp only [lines8]; repeat (first | exact .nil | apply Spells.cons)
  · decide +kernel

def lines9 : List String := [
"    \"d\"                 -> \"ㄷ\"\n",
"    \"f\"                 -> \"ㅍ\"\n",
"    \"G\"                 -> \"ㄱ\"\n",
"    \"h\"                 -> \"ㅎ\"\n",
"    \"j{@}\"              -> \"ㅈ\"\n",
"    \"j\"                 -> \"ㅈㅣ\"\n",
"    \"^l\"                -> \"ㄹ\"\n",
"    \"{m|n}l\"            -> \"ㄹ\"\n",
"    \"l{@}\"              -> \"-ㄹㄹ\"\n",
"    \"l\"                 -> \"-ㄹ\"\n"]

theorem lines9_ok : Part true lang macros vars (str "transcribe") lines9 (str "transcribe") := by
  apply piece_of
  · dsimp only [lines9]; repeat (first | exact .nil | apply Spells.cons)
  · decide +kernel

def lines10 : List String := [
"    \"P\"                 -> \"ㅁ\"\n",
"    \"m{@}\"              -> \"ㅁ\"\n",
"    \"m\"                 -> \"-ㅁ\"\n",
"    \"Q\"                 -> \"ㄴ\"\n",
"    \"n{@}\"              -> \"ㄴ\"\n",
"    \"n\"                 -> \"-ㄴ\"\n",
"    \"r\"                 -> \"ㄹ\"\n",
"    \"s\"                 -> \"ㅅ\"\n",
"    \"t\"                 -> \"ㅌ\"\n",
"    \"T\"                 -> \"ㅊ\"\n"]

theorem lines10_ok : Part true lang macros vars (str "transcribe") lines10 (str "transcribe") := by
  apply piece_of
  · dsimp only [lines10]; repeat (first | exact .nil | apply Spells.cons)
  · decide +kernel

def lines11 : List String := [
"    \"v\"                 -> \"ㅂ\"\n",
"    \"z\"                 -> \"ㅈ\"\n",
"    \"Ya\"                -> \"ㅑ\"\n",
"    \"YA\"                -> \"ㅕ\"\n",
"    \"Ye\"                -> \"ㅖ\"\n",
"    \"Yi\"                -> \"ㅣ\"\n",
"    \"YI\"                -> \"ㅣㅡ\"\n",
"    \"Yo\"                -> \"ㅛ\"\n",
"    \"Yu\"                -> \"ㅠ\"\n",
"    \"a\"                 -> \"ㅏ\"\n"]

theorem lines11_ok : Part true lang macros vars (str "transcribe") lines11 (str "transcribe") := by
  apply piece_of
  · dsimp only [lines11]; repeat (first | exact .nil | apply Spells.cons)
  · decide +kernel

def lines12 : List String := [
"    \"A\"                 -> \"ㅓ\"\n",
"    \"e\"                 -> \"ㅔ\"\n",
"    \"i\"                 -> \"ㅣ\"\n",
"    \"I\"                 -> \"ㅡ\"\n",
"    \"o\"                 -> \"ㅗ\"\n",
"    \"u\"                 -> \"ㅜ\"\n",
"\n"]

theorem lines12_ok : Part true lang macros vars (str "transcribe") lines12 (str "transcribe") := by
  apply piece_of
  · dsimp only [lines12]; repeat (first | exact .nil | apply Spells.cons)
  · decide +kernel

def lines13 : List String := [
"test:\n",
"    \"taxi\"       -> \"탁시\"\n",
"    \"este\"       -> \"예스테\"\n",
"    \"Cine\"       -> \"치네\"\n",
"    \"alb\"        -> \"알브\"\n",
"    \"telefonist\" -> \"텔레포니스트\"\n",
"    \"Jiu\"        -> \"지우\"\n",
"    \"radio\"      -> \"라디오\"\n",
"    \"Avram\"      -> \"아브람\"\n",
"    \"duh\"        -> \"두흐\"\n",
"    \"Victoria\"   -> \"빅토리아\"\n",
"    \"Cartof\"     -> \"카르토프\"\n",
"    \"Elena\"      -> \"엘레나\"\n",
"    \"Theodor\"    -> \"테오도르\"\n",
"    \"Galaţi\"     -> \"갈라치\"\n",
"    \"Gheorghe\"   -> \"게오르게\"\n",
"    \"hotel\"      -> \"호텔\"\n",
"    \"Moldova\"    -> \"몰도바\"\n",
"    \"hering\"     -> \"헤린그\"\n",
"    \"Brad\"       -> \"브라드\"\n",
"    \"examen\"     -> \"에그자멘\"\n",
"    \"Bran\"       -> \"브란\"\n",
"    \"Cîmpina\"    -> \"큼피나\"\n",
"    \"cap\"        -> \"카프\"\n",
"    \"autobuz\"    -> \"아우토부즈\"\n",
"    \"era\"        -> \"예라\"\n",
"    \"lemn\"       -> \"렘느\"\n",
"    \"el\"         -> \"옐\"\n",
"    \"Focşani\"    -> \"폭샤니\"\n",
"    \"Maramureş\"  -> \"마라무레슈\"\n",
"    \"Oradea\"     -> \"오라데아\"\n",
"    \"clei\"       -> \"클레이\"\n",
"    \"eu\"         -> \"예우\"\n",
"    \"Cluj\"       -> \"클루지\"\n",
"    \"Mureş\"      -> \"무레슈\"\n",
"    \"pas\"        -> \"파스\"\n",
"    \"pumn\"       -> \"품느\"\n",
"    \"Sibiu\"      -> \"시비우\"\n",
"    \"Bacău\"      -> \"바커우\"\n",
"    \"Braşov\"     -> \"브라쇼브\"\n",
"    \"Arad\"       -> \"아라드\"\n",
"    \"pianist\"    -> \"피아니스트\"\n",
"    \"Gigel\"      -> \"지젤\"\n",
"    \"România\"    -> \"로므니아\"\n",
"    \"Sturdza\"    -> \"스투르자\"\n",
"    \"bilet\"      -> \"빌레트\"\n",
"    \"Emil\"       -> \"에밀\"\n",
"    \"bibliotecă\" -> \"비블리오테커\"\n",
"    \"Cheia\"      -> \"케이아\"\n",
"    \"centru\"     -> \"첸트루\"\n",
"    \"septembrie\" -> \"셉템브리에\"\n",
"    \"şag\"        -> \"샤그\"\n",
"    \"ziar\"       -> \"지아르\"\n",
"    \"Nucet\"      -> \"누체트\"\n",
"    \"factură\"    -> \"팍투러\"\n",
"    \"kilogram\"   -> \"킬로그람\"\n",
"    \"ţigară\"     -> \"치가러\"\n",
"    \"braţ\"       -> \"브라츠\"\n",
"    \"haţeg\"      -> \"하체그\"\n",
"    \"dor\"        -> \"도르\"\n",
"    \"Cîntec\"     -> \"큰테크\"\n",
"\n"]

theorem lines13_ok : Part true lang macros vars (str "transcribe") lines13 (str "test") := by
  apply piece_of
  · dsimp only [lines13]; repeat (first | exact .nil | apply Spells.cons)
  · decide +kernel

/-- The lines of the file. -/
def lines : List String := head ++ (lines1 ++ (lines2 ++ (lines3 ++ (lines4 ++ (lines5 ++ (lines6 ++ (lines7 ++ (lines8 ++ (lines9 ++ (lines10 ++ (lines11 ++ (lines12 ++ (lines13)))))))))))))

/-- The file is a spec with checked rules. -/
theorem sound : Sound (text lines) lang := sound_of head_ok (lines1_ok.append (lines2_ok.append (lines3_ok.append (lines4_ok.append (lines5_ok.append (lines6_ok.append (lines7_ok.append (lines8_ok.append (lines9_ok.append (lines10_ok.append (lines11_ok.append (lines12_ok.append (lines13_ok))))))))))))) (by decide +kernel)

end Verif.Specs.Ron
