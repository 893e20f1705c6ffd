import Verif.Proofs.Bundle

/-! specs/hbs.hsl, generated by tools/gen_specs.py. -/

set_option Elab.async false

namespace Verif.Specs.Hbs

open Hsl

/-- The language of the spec. -/
def lang : Language :=
  ⟨str "hbs", (str "sh", str "hbs"), str "Serbo-Croatian", str "세르보크로아트어", str "Latn", []⟩

def macros : List (Bytes × Bytes) := [(str "@", str "<vowels>")]

def vars : List (Bytes × List Bytes) := [(str "consonants", [str "c", str "C", str "f", str "h", str "s", str "t"]),
  (str "vowels", [str "a", str "e", str "i", str "o", str "u", str "y"])]

def keys : List (Rune × List Rune) := [(1035, [263]), (1115, [263]), (262, [263]),
  (268, [269]),
  (272, [273]), (1106, [273]), (1026, [273]),
  (459, [110, 106]), (1034, [110, 106]), (458, [110, 106]), (1114, [110, 106]),
  (1033, [108, 106]), (456, [108, 106]), (1113, [108, 106]), (455, [108, 106]),
  (352, [353]), (1064, [353]), (1096, [353]),
  (1095, [67]), (1063, [67]),
  (1119, [100, 382]), (453, [100, 382]), (452, [100, 382]), (1039, [100, 382]),
  (1040, [97]), (1072, [97]),
  (1094, [99]), (1062, [99]),
  (1041, [98]), (1073, [98]),
  (1077, [101]), (1045, [101]),
  (1044, [100]), (1076, [100]),
  (1043, [103]), (1075, [103]),
  (1060, [102]), (1092, [102]),
  (1048, [105]), (1080, [105]),
  (1093, [104]), (1061, [104]),
  (1082, [107]), (1050, [107]),
  (1032, [106]), (1112, [106]),
  (1052, [109]), (1084, [109]),
  (1051, [108]), (1083, [108]),
  (1086, [111]), (1054, [111]),
  (1085, [110]), (1053, [110]),
  (1087, [112]), (1055, [112]),
  (1057, [115]), (1089, [115]),
  (1056, [114]), (1088, [114]),
  (1059, [117]), (1091, [117]),
  (1090, [116]), (1058, [116]),
  (1074, [118]), (1042, [118]),
  (1079, [122]), (1047, [122]),
  (1078, [382]), (381, [382]), (1046, [382])]

def kept : List Rune := [263, 269, 273, 110, 108, 353, 67, 100, 97, 99, 98, 101, 100, 103, 102, 105, 104, 107, 106, 109, 108, 111, 110, 112, 115, 114, 117, 116, 118, 122, 382]

def head : List String := [
"lang:\n",
"    id      = \"hbs\"\n",
"    codes   = \"sh\", \"hbs\"\n",
"    english = \"Serbo-Croatian\"\n",
"    korean  = \"세르보크로아트어\"\n",
"    script  = \"Latn\"\n",
"\n",
"config:\n",
"    author = \"Brian Jongseong Park <iceager@gmail.com>\"\n",
"    stage  = \"draft\"\n",
"\n",
"macros:\n",
"    \"@\" = \"<vowels>\"\n",
"\n",
"vars:\n",
"    \"consonants\" = \"c\", \"C\", \"f\", \"h\", \"s\", \"t\"\n",
"    \"vowels\"     = \"a\", \"e\", \"i\", \"o\", \"u\", \"y\"\n",
"\n",
"normalize:\n",
"    \"ć\"  = \"Ћ\", \"ћ\", \"Ć\"\n",
"    \"č\"  = \"Č\"\n",
"    \"đ\"  = \"Đ\", \"ђ\", \"Ђ\"\n",
"    \"nj\" = \"ǋ\", \"Њ\", \"Ǌ\", \"њ\"\n",
"    \"lj\" = \"Љ\", \"ǈ\", \"љ\", \"Ǉ\"\n",
"    \"š\"  = \"Š\", \"Ш\", \"ш\"\n",
"    \"C\"  = \"ч\", \"Ч\"\n",
"    \"dž\" = \"џ\", \"ǅ\", \"Ǆ\", \"Џ\"\n",
"    \"a\"  = \"А\", \"а\"\n",
"    \"c\"  = \"ц\", \"Ц\"\n",
"    \"b\"  = \"Б\", \"б\"\n",
"    \"e\"  = \"е\", \"Е\"\n",
"    \"d\"  = \"Д\", \"д\"\n",
"    \"g\"  = \"Г\", \"г\"\n",
"    \"f\"  = \"Ф\", \"ф\"\n",
"    \"i\"  = \"И\", \"и\"\n",
"    \"h\"  = \"х\", \"Х\"\n",
"    \"k\"  = \"к\", \"К\"\n",
"    \"j\"  = \"Ј\", \"ј\"\n",
"    \"m\"  = \"М\", \"м\"\n",
"    \"l\"  = \"Л\", \"л\"\n",
"    \"o\"  = \"о\", \"О\"\n",
"    \"n\"  = \"н\", \"Н\"\n",
"    \"p\"  = \"п\", \"П\"\n",
"    \"s\"  = \"С\", \"с\"\n",
"    \"r\"  = \"Р\", \"р\"\n",
"    \"u\"  = \"У\", \"у\"\n",
"    \"t\"  = \"т\", \"Т\"\n",
"    \"v\"  = \"в\", \"В\"\n",
"    \"z\"  = \"з\", \"З\"\n",
"    \"ž\"  = \"ж\", \"Ž\", \"Ж\"\n",
"\n"]

theorem head_ok : ∃ xs, Reads [] (runes (text head)) xs (str "normalize") ∧ headOk lang macros vars keys kept xs = true := by
  apply piece_of
  · dsimp only [head]; repeat (first | exact .nil | apply Spells.cons)
  · decide +kernel

def lines1 : List String := [
"rewrite:\n",
"    \"č\"         -> \"C\"\n",
"    \"ć\"         -> \"C\"\n",
"    \"đ\"         -> \"D\"\n",
"    \"š\"         -> \"S\"\n",
"    \"dž\"        -> \"D\"\n",
"    \"ž\"         -> \"Z\"\n",
"    \"tj\"        -> \"C\"\n",
"    \"S{@}\"      -> \"sJ\"\n",
"    \"S$\"        -> \"si\"\n",
"    \"S\"         -> \"sJu\"\n"]

theorem lines1_ok : Part true lang macros vars (str "normalize") lines1 (str "rewrite") := by
  apply piece_of
  · dsimp only [lines1]; repeat (first | exact .nil | apply Spells.cons)
  · decide +kernel

def lines2 : List String := [
"    \"^je\"       -> \"Je\"\n",
"    \"{@|s}je\"   -> \"Je\"\n",
"    \"je\"        -> \"e\"\n",
"    \"{l|n}j{@}\" -> \"J\"\n",
"    \"{l|n}j\"    -> \"\"\n",
"    \"j{@}\"      -> \"J\"\n",
"    \"j\"         -> \"i\"\n",
"    \"xx\"        -> \"x\"\n",
"    \"x\"         -> \"ks\"\n",
"    \"qu\"        -> \"kv\"\n"]

theorem lines2_ok : Part true lang macros vars (str "rewrite") lines2 (str "rewrite") := by
  apply piece_of
  · dsimp only [lines2]; repeat (first | exact .nil | apply Spells.cons)
  · decide +kernel

def lines3 : List String := [
"    \"q\"         -> \"k\"\n",
"    \"w\"         -> \"v\"\n",
"    \"^y{@}\"     -> \"J\"\n",
"    \"y\"         -> \"i\"\n",
"    \"aa\"        -> \"a\"\n",
"    \"bb\"        -> \"b\"\n",
"    \"dd\"        -> \"d\"\n",
"    \"ee\"        -> \"e\"\n",
"    \"ff\"        -> \"f\"\n",
"    \"gg\"        -> \"g\"\n"]

theorem lines3_ok : Part true lang macros vars (str "rewrite") lines3 (str "rewrite") := by
  apply piece_of
  · dsimp only [lines3]; repeat (first | exact .nil | apply Spells.cons)
  · decide +kernel

def lines4 : List String := [
"    \"hh\"        -> \"h\"\n",
"    \"ii\"        -> \"i\"\n",
"    \"kk\"        -> \"k\"\n",
"    \"ll\"        -> \"l\"\n",
"    \"mm\"        -> \"m\"\n",
"    \"nn\"        -> \"n\"\n",
"    \"oo\"        -> \"o\"\n",
"    \"pp\"        -> \"p\"\n",
"    \"rr\"        -> \"r\"\n",
"    \"ss\"        -> \"s\"\n"]

theorem lines4_ok : Part true lang macros vars (str "rewrite") lines4 (str "rewrite") := by
  apply piece_of
  · dsimp only [lines4]; repeat (first | exact .nil | apply Spells.cons)
  · decide +kernel

def lines5 : List String := [
"    \"tt\"        -> \"t\"\n",
"    \"uu\"        -> \"u\"\n",
"    \"vv\"        -> \"v\"\n",
"    \"zz\"        -> \"z\"\n",
"    \"^m\"        -> \"P\"\n",
"    \"^n\"        -> \"Q\"\n",
"\n"]

theorem lines5_ok : Part true lang macros vars (str "rewrite") lines5 (str "rewrite") := by
  apply piece_of
  · dsimp only [lines5]; repeat (first | exact .nil | apply Spells.cons)
  · decide +kernel

def lines6 : List String := [
"transcribe:\n",
"    \"{@}mm{@}\"             -> \"-ㅁㅁ\"\n",
"    \"{@}nn{@}\"             -> \"-ㄴㄴ\"\n",
"    \"^k\"                   -> \"ㅋ\"\n",
"    \"{@}k{<consonants>|p}\" -> \"-ㄱ\"\n",
"    \"^p\"                   -> \"ㅍ\"\n",
"    \"{@}p{<consonants>|k}\" -> \"-ㅂ\"\n",
"    \"k\"                    -> \"ㅋ\"\n",
"    \"p\"                    -> \"ㅍ\"\n",
"    \"C{@}\"                 -> \"ㅊ\"\n",
"    \"C\"                    -> \"ㅊㅣ\"\n"]

theorem lines6_ok : Part true lang macros vars (str "rewrite") lines6 (str "transcribe") := by
  apply piece_of
  · dsimp only [lines6]; repeat (first | exact .nil | apply Spells.cons)
  · decide +kernel

def lines7 : List String := [
"    \"b\"                    -> \"ㅂ\"\n",
"    \"c\"                    -> \"ㅊ\"\n",
"    \"d\"                    -> \"ㄷ\"\n",
"    \"D{@}\"                 -> \"ㅈ\"\n",
"    \"D\"                    -> \"ㅈㅣ\"\n",
"    \"f\"                    -> \"ㅍ\"\n",
"    \"g\"                    -> \"ㄱ\"\n",
"    \"h\"                    -> \"ㅎ\"\n",
"    \"^l\"                   -> \"ㄹ\"\n",
"    \"{m|n}l\"               -> \"ㄹ\"\n"]

theorem lines7_ok : Part true lang macros vars (str "transcribe") lines7 (str "transcribe") := by
  apply piece_of
  · dsimp only [lines7]; repeat (first | exact .nil | apply Spells.cons)
  · decide +kernel

def lines8 : List String := [
"    \"l{@|J}\"               -> \"-ㄹㄹ\"\n",
"    \"l\"                    -> \"-ㄹ\"\n",
"    \"P\"                    -> \"ㅁ\"\n",
"    \"m{@|J|l|r|n}\"         -> \"ㅁ\"\n",
"    \"m\"                    -> \"-ㅁ\"\n",
"    \"Q\"                    -> \"ㄴ\"\n",
"    \"n{@|J}\"               -> \"ㄴ\"\n",
"    \"n\"                    -> \"-ㄴ\"\n",
"    \"r\"                    -> \"ㄹ\"\n",
"    \"s\"                    -> \"ㅅ\"\n"]

theorem lines8_ok : Part true lang macros vars (str "transcribe") lines8 (str "transcribe") := by
  apply piece_of
  · dsimp only [lines8]; repeat (first | exact .nil | apply Spells.cons)
  · decide +kernel

def lines9 : List String := [
"    \"t\"                    -> \"ㅌ\"\n",
"    \"v\"                    -> \"ㅂ\"\n",
"    \"z\"                    -> \"ㅈ\"\n",
"    \"Z{@}\"                 -> \"ㅈ\"\n",
"    \"Z\"                    -> \"ㅈㅜ\"\n",
"    \"Ja\"                   -> \"ㅑ\"\n",
"    \"Je\"                   -> \"ㅖ\"\n",
"    \"Ji\"                   -> \"ㅣ\"\n",
"    \"Jo\"                   -> \"ㅛ\"\n",
"    \"Ju\"                   -> \"ㅠ\"\n"]

theorem lines9_ok : Part true lang macros vars (str "transcribe") lines9 (str "transcribe") := by
  apply piece_of
  · dsimp only [lines9]; repeat (first | exact .nil | apply Spells.cons)
  · decide +kernel

def lines10 : List String := [
"    \"a\"                    -> \"ㅏ\"\n",
"    \"e\"                    -> \"ㅔ\"\n",
"    \"i\"                    -> \"ㅣ\"\n",
"    \"o\"                    -> \"ㅗ\"\n",
"    \"u\"                    -> \"ㅜ\"\n",
"\n"]

theorem lines10_ok : Part true lang macros vars (str "transcribe") lines10 (str "transcribe") := by
  apply piece_of
  · dsimp only [lines10]; repeat (first | exact .nil | apply Spells.cons)
  · decide +kernel

def lines11 : List String := [
"test:\n",
"    \"jastuk\"     -> \"야스투크\"\n",
"    \"кула\"       -> \"쿨라\"\n",
"    \"vatra\"      -> \"바트라\"\n",
"    \"Ниш\"        -> \"니시\"\n",
"    \"gost\"       -> \"고스트\"\n",
"    \"opština\"    -> \"옵슈티나\"\n",
"    \"sestrić\"    -> \"세스트리치\"\n",
"    \"ostrvo\"     -> \"오스트르보\"\n",
"    \"pasulj\"     -> \"파술\"\n",
"    \"drvo\"       -> \"드르보\"\n",
"    \"сједло\"     -> \"셰들로\"\n",
"    \"drobnjak\"   -> \"드로브냐크\"\n",
"    \"čelik\"      -> \"첼리크\"\n",
"    \"смрт\"       -> \"스므르트\"\n",
"    \"muž\"        -> \"무주\"\n",
"    \"telo\"       -> \"텔로\"\n",
"    \"mlad\"       -> \"믈라드\"\n",
"    \"Njegoš\"     -> \"네고시\"\n",
"    \"јастук\"     -> \"야스투크\"\n",
"    \"vlasništvo\" -> \"블라스니슈트보\"\n",
"    \"glas\"       -> \"글라스\"\n",
"    \"torba\"      -> \"토르바\"\n",
"    \"džep\"       -> \"제프\"\n",
"    \"cev\"        -> \"체브\"\n",
"    \"pogreb\"     -> \"포그레브\"\n",
"    \"pojas\"      -> \"포야스\"\n",
"    \"nos\"        -> \"노스\"\n",
"    \"dim\"        -> \"딤\"\n",
"    \"odjelo\"     -> \"오델로\"\n",
"    \"млад\"       -> \"믈라드\"\n",
"    \"општина\"    -> \"옵슈티나\"\n",
"    \"шљивовица\"  -> \"슐리보비차\"\n",
"    \"šah\"        -> \"샤흐\"\n",
"    \"olovka\"     -> \"올로브카\"\n",
"    \"malo\"       -> \"말로\"\n",
"    \"kula\"       -> \"쿨라\"\n",
"    \"šal\"        -> \"샬\"\n",
"    \"osam\"       -> \"오삼\"\n",
"    \"svibanj\"    -> \"스비반\"\n",
"    \"narudžba\"   -> \"나루지바\"\n",
"    \"loman\"      -> \"로만\"\n",
"    \"kifla\"      -> \"키플라\"\n",
"    \"cigara\"     -> \"치가라\"\n",
"    \"novac\"      -> \"노바츠\"\n",
"    \"šaraf\"      -> \"샤라프\"\n",
"    \"zavoj\"      -> \"자보이\"\n",
"    \"molim\"      -> \"몰림\"\n",
"    \"izložba\"    -> \"이즐로주바\"\n",
"    \"dugme\"      -> \"두그메\"\n",
"    \"broš\"       -> \"브로시\"\n",
"    \"zubar\"      -> \"주바르\"\n",
"    \"korist\"     -> \"코리스트\"\n",
"    \"pozno\"      -> \"포즈노\"\n",
"    \"peta\"       -> \"페타\"\n",
"    \"krug\"       -> \"크루그\"\n",
"    \"Niš\"        -> \"니시\"\n",
"    \"много\"      -> \"므노고\"\n",
"    \"šljivovica\" -> \"슐리보비차\"\n",
"    \"posle\"      -> \"포슬레\"\n",
"    \"hitan\"      -> \"히탄\"\n",
"    \"mnogo\"      -> \"므노고\"\n",
"    \"naći\"       -> \"나치\"\n",
"    \"ljeto\"      -> \"레토\"\n",
"    \"mir\"        -> \"미르\"\n",
"    \"lep\"        -> \"레프\"\n",
"    \"levo\"       -> \"레보\"\n",
"    \"put\"        -> \"푸트\"\n",
"    \"sedam\"      -> \"세담\"\n",
"    \"balkon\"     -> \"발콘\"\n",
"    \"točka\"      -> \"토치카\"\n",
"    \"bakar\"      -> \"바카르\"\n",
"    \"desno\"      -> \"데스노\"\n",
"    \"žena\"       -> \"제나\"\n",
"    \"banka\"      -> \"반카\"\n",
"    \"obraz\"      -> \"오브라즈\"\n",
"    \"fasada\"     -> \"파사다\"\n",
"    \"medved\"     -> \"메드베드\"\n",
"    \"бједро\"     -> \"베드로\"\n",
"    \"riba\"       -> \"리바\"\n",
"    \"proliv\"     -> \"프롤리브\"\n",
"    \"smrt\"       -> \"스므르트\"\n",
"    \"bog\"        -> \"보그\"\n",
"    \"bjedro\"     -> \"베드로\"\n",
"    \"sjedlo\"     -> \"셰들로\"\n",
"    \"kolač\"      -> \"콜라치\"\n",
"\n"]

theorem lines11_ok : Part true lang macros vars (str "transcribe") lines11 (str "test") := by
  apply piece_of
  · dsimp only [lines11]; repeat (first | exact .nil | apply Spells.cons)
  · decide +kernel

/-- The lines of the file. -/
def lines : List String := head ++ (lines1 ++ (lines2 ++ (lines3 ++ (lines4 ++ (lines5 ++ (lines6 ++ (lines7 ++ (lines8 ++ (lines9 ++ (lines10 ++ (lines11)))))))))))

/-- The file is a spec with checked rules. -/
theorem sound : Sound (text lines) lang := sound_of head_ok (lines1_ok.append (lines2_ok.append (lines3_ok.append (lines4_ok.append (lines5_ok.append (lines6_ok.append (lines7_ok.append (lines8_ok.append (lines9_ok.append (lines10_ok.append (lines11_ok))))))))))) (by decide +kernel)

end Verif.Specs.Hbs
