import Verif.Proofs.Bundle

/-! specs/aze.hsl, generated by tools/gen_specs.py. -/

set_option Elab.async false

namespace Verif.Specs.Aze

open Hsl

/-- The language of the spec. -/
def lang : Language :=
  ⟨str "aze", (str "az", str "aze"), str "Azerbaijani", str "아제르바이잔어", str "Latn", []⟩

def macros : List (Bytes × Bytes) := [(str "@", str "<vowels>")]

def vars : List (Bytes × List Bytes) := [(str "cs", [str "b", str "c", str "C", str "d", str "f", str "g", str "G", str "h", str "j", str "k", str "l", str "m", str "n", str "N", str "p", str "q", str "r", str "s", str "S", str "t", str "v", str "x", str "z"]),
  (str "vl", [str "C", str "f", str "h", str "k", str "K", str "p", str "s", str "S", str "t", str "x"]),
  (str "vowels", [str "a", str "A", str "e", str "I", str "i", str "o", str "O", str "u", str "U"])]

def keys : List (Rune × List Rune) := [(1171, [287]), (1170, [287]), (286, [287]),
  (73, [305]), (1067, [305]), (1099, [305]),
  (1074, [118]), (1042, [118]),
  (1095, [231]), (1063, [231]), (199, [231]),
  (1241, [601]), (1240, [601]), (399, [601]),
  (1064, [351]), (350, [351]), (1096, [351]),
  (1040, [97]), (1072, [97]),
  (1209, [99]), (1208, [99]),
  (1041, [98]), (1073, [98]),
  (1077, [101]), (1045, [101]),
  (1044, [100]), (1076, [100]),
  (1181, [103]), (1180, [103]),
  (1060, [102]), (1092, [102]),
  (1048, [105]), (1080, [105]), (304, [105]),
  (1211, [104]), (1210, [104]),
  (1082, [107]), (1050, [107]),
  (1078, [106]), (1046, [106]),
  (1052, [109]), (1084, [109]),
  (1051, [108]), (1083, [108]),
  (1054, [111]), (1086, [111]),
  (1085, [110]), (1053, [110]),
  (1043, [113]), (1075, [113]),
  (1087, [112]), (1055, [112]),
  (1057, [115]), (1089, [115]),
  (1056, [114]), (1088, [114]),
  (1059, [117]), (1091, [117]),
  (1090, [116]), (1058, [116]),
  (1257, [246]), (1256, [246]), (214, [246]),
  (1032, [121]), (1112, [121]),
  (1093, [120]), (1061, [120]),
  (1079, [122]), (1047, [122]),
  (220, [252]), (1199, [252]), (1198, [252])]

def kept : List Rune := [287, 305, 118, 231, 601, 351, 97, 99, 98, 101, 100, 103, 102, 105, 104, 107, 106, 109, 108, 111, 110, 113, 112, 115, 114, 117, 116, 246, 121, 120, 122, 252]

def head : List String := [
"lang:\n",
"    id      = \"aze\"\n",
"    codes   = \"az\", \"aze\"\n",
"    english = \"Azerbaijani\"\n",
"    korean  = \"아제르바이잔어\"\n",
"    script  = \"Latn\"\n",
"\n",
"config:\n",
"    author = \"Brian Jongseong Park <iceager@gmail.com>\"\n",
"    stage  = \"draft\"\n",
"\n",
"macros:\n",
"    \"@\" = \"<vowels>\"\n",
"\n",
"vars:\n",
"    \"cs\"     = \"b\", \"c\", \"C\", \"d\", \"f\", \"g\", \"G\", \"h\", \"j\", \"k\", \"l\", \"m\", \"n\", \"N\", \"p\", \"q\", \"r\", \"s\", \"S\", \"t\", \"v\", \"x\", \"z\"\n",
"    \"vl\"     = \"C\", \"f\", \"h\", \"k\", \"K\", \"p\", \"s\", \"S\", \"t\", \"x\"\n",
"    \"vowels\" = \"a\", \"A\", \"e\", \"I\", \"i\", \"o\", \"O\", \"u\", \"U\"\n",
"\n",
"normalize:\n",
"    \"ğ\" = \"ғ\", \"Ғ\", \"Ğ\"\n",
"    \"ı\" = \"I\", \"Ы\", \"ы\"\n",
"    \"v\" = \"в\", \"В\"\n",
"    \"ç\" = \"ч\", \"Ч\", \"Ç\"\n",
"    \"ə\" = \"ә\", \"Ә\", \"Ə\"\n",
"    \"ş\" = \"Ш\", \"Ş\", \"ш\"\n",
"    \"a\" = \"А\", \"а\"\n",
"    \"c\" = \"ҹ\", \"Ҹ\"\n",
"    \"b\" = \"Б\", \"б\"\n",
"    \"e\" = \"е\", \"Е\"\n",
"    \"d\" = \"Д\", \"д\"\n",
"    \"g\" = \"ҝ\", \"Ҝ\"\n",
"    \"f\" = \"Ф\", \"ф\"\n",
"    \"i\" = \"И\", \"и\", \"İ\"\n",
"    \"h\" = \"һ\", \"Һ\"\n",
"    \"k\" = \"к\", \"К\"\n",
"    \"j\" = \"ж\", \"Ж\"\n",
"    \"m\" = \"М\", \"м\"\n",
"    \"l\" = \"Л\", \"л\"\n",
"    \"o\" = \"О\", \"о\"\n",
"    \"n\" = \"н\", \"Н\"\n",
"    \"q\" = \"Г\", \"г\"\n",
"    \"p\" = \"п\", \"П\"\n",
"    \"s\" = \"С\", \"с\"\n",
"    \"r\" = \"Р\", \"р\"\n",
"    \"u\" = \"У\", \"у\"\n",
"    \"t\" = \"т\", \"Т\"\n",
"    \"ö\" = \"ө\", \"Ө\", \"Ö\"\n",
"    \"y\" = \"Ј\", \"ј\"\n",
"    \"x\" = \"х\", \"Х\"\n",
"    \"z\" = \"з\", \"З\"\n",
"    \"ü\" = \"Ü\", \"ү\", \"Ү\"\n",
"\n"]

theorem head_ok : ∃ xs, Reads [] (runes (text head)) xs (str "normalize") ∧ headOk lang macros vars keys kept xs = true := by
  apply piece_of
  · dsimp only [head]; repeat (first | exact .nil | apply Spells.cons)
  · decide +kernel

def lines1 : List String := [
"rewrite:\n",
"    \"-\"            -> \"{}\"\n",
"    \"ə\"            -> \"A\"\n",
"    \"ç\"            -> \"C\"\n",
"    \"ğ\"            -> \"G\"\n",
"    \"ı\"            -> \"I\"\n",
"    \"ö\"            -> \"O\"\n",
"    \"ş\"            -> \"S\"\n",
"    \"ü\"            -> \"U\"\n",
"    \"^y{@}\"        -> \"Y\"\n",
"    \"iyy\"          -> \"iy\"\n"]

theorem lines1_ok : Part true lang macros vars (str "normalize") lines1 (str "rewrite") := by
  apply piece_of
  · dsimp only [lines1]; repeat (first | exact .nil | apply Spells.cons)
  · decide +kernel

def lines2 : List String := [
"    \"yy\"           -> \"iy\"\n",
"    \"{@}y{@}\"      -> \"Y\"\n",
"    \"iy\"           -> \"i\"\n",
"    \"y\"            -> \"i\"\n",
"    \"rl\"           -> \"l\"\n",
"    \"{p|t|k}h\"     -> \"\"\n",
"    \"w\"            -> \"v\"\n",
"    \"bb\"           -> \"b\"\n",
"    \"cc\"           -> \"c\"\n",
"    \"CC\"           -> \"C\"\n"]

theorem lines2_ok : Part true lang macros vars (str "rewrite") lines2 (str "rewrite") := by
  apply piece_of
  · dsimp only [lines2]; repeat (first | exact .nil | apply Spells.cons)
  · decide +kernel

def lines3 : List String := [
"    \"dd\"           -> \"d\"\n",
"    \"dc\"           -> \"c\"\n",
"    \"ff\"           -> \"f\"\n",
"    \"gg\"           -> \"g\"\n",
"    \"GG\"           -> \"G\"\n",
"    \"hh\"           -> \"h\"\n",
"    \"jj\"           -> \"j\"\n",
"    \"kk\"           -> \"k\"\n",
"    \"ll\"           -> \"l\"\n",
"    \"mm\"           -> \"m,m\"\n"]

theorem lines3_ok : Part true lang macros vars (str "rewrite") lines3 (str "rewrite") := by
  apply piece_of
  · dsimp only [lines3]; repeat (first | exact .nil | apply Spells.cons)
  · decide +kernel

def lines4 : List String := [
"    \"nn\"           -> \"n,n\"\n",
"    \"pp\"           -> \"p\"\n",
"    \"qq\"           -> \"q\"\n",
"    \"rr\"           -> \"r\"\n",
"    \"ss\"           -> \"s\"\n",
"    \"SS\"           -> \"S\"\n",
"    \"tt\"           -> \"t\"\n",
"    \"tC\"           -> \"C\"\n",
"    \"vv\"           -> \"v\"\n",
"    \"xx\"           -> \"x\"\n"]

theorem lines4_ok : Part true lang macros vars (str "rewrite") lines4 (str "rewrite") := by
  apply piece_of
  · dsimp only [lines4]; repeat (first | exact .nil | apply Spells.cons)
  · decide +kernel

def lines5 : List String := [
"    \"zz\"           -> \"z\"\n",
"    \"aa\"           -> \"a\"\n",
"    \"AA\"           -> \"A\"\n",
"    \"ee\"           -> \"e\"\n",
"    \"ii\"           -> \"i\"\n",
"    \"II\"           -> \"I\"\n",
"    \"oo\"           -> \"o\"\n",
"    \"OO\"           -> \"O\"\n",
"    \"uu\"           -> \"u\"\n",
"    \"UU\"           -> \"U\"\n"]

theorem lines5_ok : Part true lang macros vars (str "rewrite") lines5 (str "rewrite") := by
  apply piece_of
  · dsimp only [lines5]; repeat (first | exact .nil | apply Spells.cons)
  · decide +kernel

def lines6 : List String := [
"    \"b{<vl>}\"      -> \"p\"\n",
"    \"b$\"           -> \"p\"\n",
"    \"c{<vl>}\"      -> \"C\"\n",
"    \"c$\"           -> \"C\"\n",
"    \"d{<vl>}\"      -> \"t\"\n",
"    \"d$\"           -> \"t\"\n",
"    \"g{<vl>}\"      -> \"k\"\n",
"    \"g$\"           -> \"k\"\n",
"    \"G{<vl>}\"      -> \"x\"\n",
"    \"G$\"           -> \"x\"\n"]

theorem lines6_ok : Part true lang macros vars (str "rewrite") lines6 (str "rewrite") := by
  apply piece_of
  · dsimp only [lines6]; repeat (first | exact .nil | apply Spells.cons)
  · decide +kernel

def lines7 : List String := [
"    \"j{<vl>}\"      -> \"S\"\n",
"    \"j$\"           -> \"S\"\n",
"    \"q{<vl>}\"      -> \"Q\"\n",
"    \"q$\"           -> \"Q\"\n",
"    \"v{<vl>}\"      -> \"f\"\n",
"    \"v$\"           -> \"f\"\n",
"    \"z{<vl>}\"      -> \"s\"\n",
"    \"z$\"           -> \"s\"\n",
"    \"{@}k{<vl>}\"   -> \"k,\"\n",
"    \"{@}p{<vl>}\"   -> \"p,\"\n"]

theorem lines7_ok : Part true lang macros vars (str "rewrite") lines7 (str "rewrite") := by
  apply piece_of
  · dsimp only [lines7]; repeat (first | exact .nil | apply Spells.cons)
  · decide +kernel

def lines8 : List String := [
"    \"{@}Q{<vl>}\"   -> \"k,\"\n",
"    \"c{<cs>}\"      -> \"ci\"\n",
"    \"c$\"           -> \"ci\"\n",
"    \"C{<cs>}\"      -> \"Ci\"\n",
"    \"C$\"           -> \"Ci\"\n",
"    \"j{<cs>}\"      -> \"ju\"\n",
"    \"j$\"           -> \"ju\"\n",
"    \"S{@}\"         -> \"sY\"\n",
"    \"S\"            -> \"sYu\"\n",
"    \"^l\"           -> \"l;\"\n"]

theorem lines8_ok : Part true lang macros vars (str "rewrite") lines8 (str "rewrite") := by
  apply piece_of
  · dsimp only [lines8]; repeat (first | exact .nil | apply Spells.cons)
  · decide +kernel

def lines9 : List String := [
"    \"^m\"           -> \"m;\"\n",
"    \"^n\"           -> \"n;\"\n",
"    \"n{G|q|Q|x}\"   -> \"N\"\n",
"    \"l$\"           -> \"l,\"\n",
"    \"m$\"           -> \"m,\"\n",
"    \"n$\"           -> \"n,\"\n",
"    \"l{@|m,|n,|N}\" -> \"l;\"\n",
"    \"{,}l\"         -> \"l;\"\n",
"    \"m{@}\"         -> \"m;\"\n",
"    \"n{@}\"         -> \"n;\"\n"]

theorem lines9_ok : Part true lang macros vars (str "rewrite") lines9 (str "rewrite") := by
  apply piece_of
  · dsimp only [lines9]; repeat (first | exact .nil | apply Spells.cons)
  · decide +kernel

def lines10 : List String := [
"    \"l\"            -> \"l,\"\n",
"    \"m\"            -> \"m,\"\n",
"    \"n\"            -> \"n,\"\n",
"    \",,\"           -> \",\"\n",
"    \",;\"           -> \"\"\n",
"    \",l,\"          -> \"l,\"\n",
"    \",m,\"          -> \"m,\"\n",
"    \",n,\"          -> \"n,\"\n",
"    \"l{m;|n;}\"     -> \"l,\"\n",
"    \";\"            -> \"\"\n",
"\n"]

theorem lines10_ok : Part true lang macros vars (str "rewrite") lines10 (str "rewrite") := by
  apply piece_of
  · dsimp only [lines10]; repeat (first | exact .nil | apply Spells.cons)
  · decide +kernel

def lines11 : List String := [
"transcribe:\n",
"    \"b\"    -> \"ㅂ\"\n",
"    \"c\"    -> \"ㅈ\"\n",
"    \"C\"    -> \"ㅊ\"\n",
"    \"d\"    -> \"ㄷ\"\n",
"    \"f\"    -> \"ㅍ\"\n",
"    \"g\"    -> \"ㄱ\"\n",
"    \"G\"    -> \"ㄱ\"\n",
"    \"h\"    -> \"ㅎ\"\n",
"    \"j\"    -> \"ㅈ\"\n",
"    \"k,\"   -> \"-ㄱ\"\n"]

theorem lines11_ok : Part true lang macros vars (str "rewrite") lines11 (str "transcribe") := by
  apply piece_of
  · dsimp only [lines11]; repeat (first | exact .nil | apply Spells.cons)
  · decide +kernel

def lines12 : List String := [
"    \"k\"    -> \"ㅋ\"\n",
"    \"^l\"   -> \"ㄹ\"\n",
"    \"{,}l\" -> \"ㄹ\"\n",
"    \"l,\"   -> \"-ㄹ\"\n",
"    \"l\"    -> \"-ㄹㄹ\"\n",
"    \"m,\"   -> \"-ㅁ\"\n",
"    \"m\"    -> \"ㅁ\"\n",
"    \"n,\"   -> \"-ㄴ\"\n",
"    \"n\"    -> \"ㄴ\"\n",
"    \"N\"    -> \"-ㅇ\"\n"]

theorem lines12_ok : Part true lang macros vars (str "transcribe") lines12 (str "transcribe") := by
  apply piece_of
  · dsimp only [lines12]; repeat (first | exact .nil | apply Spells.cons)
  · decide +kernel

def lines13 : List String := [
"    \"p,\"   -> \"-ㅂ\"\n",
"    \"p\"    -> \"ㅍ\"\n",
"    \"q\"    -> \"ㄱ\"\n",
"    \"Q\"    -> \"ㅋ\"\n",
"    \"r\"    -> \"ㄹ\"\n",
"    \"s\"    -> \"ㅅ\"\n",
"    \"t\"    -> \"ㅌ\"\n",
"    \"v\"    -> \"ㅂ\"\n",
"    \"x\"    -> \"ㅎ\"\n",
"    \"z\"    -> \"ㅈ\"\n"]

theorem lines13_ok : Part true lang macros vars (str "transcribe") lines13 (str "transcribe") := by
  apply piece_of
  · dsimp only [lines13]; repeat (first | exact .nil | apply Spells.cons)
  · decide +kernel

def lines14 : List String := [
"    \"Ya\"   -> \"ㅑ\"\n",
"    \"YA\"   -> \"ㅖ\"\n",
"    \"Ye\"   -> \"ㅖ\"\n",
"    \"YI\"   -> \"ㅣㅡ\"\n",
"    \"Yi\"   -> \"ㅣ\"\n",
"    \"Yo\"   -> \"ㅛ\"\n",
"    \"YO\"   -> \"ㅚ\"\n",
"    \"Yu\"   -> \"ㅠ\"\n",
"    \"YU\"   -> \"ㅟ\"\n",
"    \"a\"    -> \"ㅏ\"\n"]

theorem lines14_ok : Part true lang macros vars (str "transcribe") lines14 (str "transcribe") := by
  apply piece_of
  · dsimp only [lines14]; repeat (first | exact .nil | apply Spells.cons)
  · decide +kernel

def lines15 : List String := [
"    \"A\"    -> \"ㅔ\"\n",
"    \"e\"    -> \"ㅔ\"\n",
"    \"I\"    -> \"ㅡ\"\n",
"    \"i\"    -> \"ㅣ\"\n",
"    \"o\"    -> \"ㅗ\"\n",
"    \"O\"    -> \"ㅚ\"\n",
"    \"u\"    -> \"ㅜ\"\n",
"    \"U\"    -> \"ㅟ\"\n",
"\n"]

theorem lines15_ok : Part true lang macros vars (str "transcribe") lines15 (str "transcribe") := by
  apply piece_of
  · dsimp only [lines15]; repeat (first | exact .nil | apply Spells.cons)
  · decide +kernel

def lines16 : List String := [
"test:\n",
"    \"Şəmkir\"                  -> \"솀키르\"\n",
"    \"Sumqayıt\"                -> \"숨가이으트\"\n",
"    \"jurnal\"                  -> \"주르날\"\n",
"    \"İlham Əliyev\"            -> \"일함 엘리예프\"\n",
"    \"Namiq Abdullayev\"        -> \"나미크 아브둘라예프\"\n",
"    \"Səməd Vurğun\"            -> \"세메트 부르군\"\n",
"    \"Abşeron\"                 -> \"압셰론\"\n",
"    \"Fətəli xan Xoyski\"       -> \"페텔리 한 호이스키\"\n",
"    \"Süleyman Rüstəm\"         -> \"쉴레이만 뤼스템\"\n",
"    \"Lənkəran\"                -> \"렌케란\"\n",
"    \"Qəmər Almaszadə\"         -> \"게메르 알마스자데\"\n",
"    \"Vaqif Mustafazadə\"       -> \"바기프 무스타파자데\"\n",
"    \"Artur Rəsizadə\"          -> \"아르투르 레시자데\"\n",
"    \"Mikayıl Müşfiq\"          -> \"미카이을 뮈슈피크\"\n",
"    \"Üzeyir Hacıbəyov\"        -> \"위제이르 하즈베요프\"\n",
"    \"Mehdi Hüseynzadə\"        -> \"메흐디 휘세인자데\"\n",
"    \"Şirvan\"                  -> \"시르반\"\n",
"    \"Kərim Kərimov\"           -> \"케림 케리모프\"\n",
"    \"Mingəçevir\"              -> \"민게체비르\"\n",
"    \"Naxçıvan\"                -> \"나흐츠반\"\n",
"    \"Rəşid Behbudov\"          -> \"레시트 베흐부도프\"\n",
"    \"Zaqatala\"                -> \"자가탈라\"\n",
"    \"Naftalan\"                -> \"나프탈란\"\n",
"    \"Bakı\"                    -> \"바크\"\n",
"    \"Zeynalabdin Tağıyev\"     -> \"제이날라브딘 타그예프\"\n",
"    \"Ramil Quliyev\"           -> \"라밀 굴리예프\"\n",
"    \"Cəfər Cabbarlı\"          -> \"제페르 자발르\"\n",
"    \"Nəriman Nərimanov\"       -> \"네리만 네리마노프\"\n",
"    \"Xınalıq\"                 -> \"흐날르크\"\n",
"    \"Məmməd ağa Şahtaxtinski\" -> \"멤메트 아가 샤흐타흐틴스키\"\n",
"    \"Aysel Teymurzadə\"        -> \"아이셀 테이무르자데\"\n",
"    \"Məhəmməd Əmin Rəsulzadə\" -> \"메헴메트 에민 레술자데\"\n",
"    \"Azərbaycan\"              -> \"아제르바이잔\"\n",
"    \"Yevlax\"                  -> \"예블라흐\"\n",
"    \"Elnur Məmmədli\"          -> \"엘누르 멤메들리\"\n",
"    \"Hüseyn Ərəblinski\"       -> \"휘세인 에레블린스키\"\n",
"    \"Rəsul Rza\"               -> \"레술 르자\"\n",
"    \"Heydər Əliyev\"           -> \"헤이데르 엘리예프\"\n",
"    \"Tovuz\"                   -> \"토부스\"\n",
"    \"Fərid Mansurov\"          -> \"페리트 만수로프\"\n",
"    \"Nigar Şıxlinskaya\"       -> \"니가르 시으흘린스카야\"\n",
"    \"İçəri Şəhər\"             -> \"이체리 셰헤르\"\n",
"    \"Nigar Rəfibəyli\"         -> \"니가르 레피베일리\"\n",
"    \"Əzizə Mustafazadə\"       -> \"에지제 무스타파자데\"\n",
"    \"Hüseyn Cavid\"            -> \"휘세인 자비트\"\n",
"    \"Bülbül\"                  -> \"뷜뷜\"\n",
"    \"Qobustan\"                -> \"고부스탄\"\n",
"    \"Rəşad Sadıqov\"           -> \"레샤트 사드고프\"\n",
"    \"Vaqif Cavadov\"           -> \"바기프 자바도프\"\n",
"    \"Gəncə\"                   -> \"겐제\"\n",
"    \"Xaçmaz\"                  -> \"하치마스\"\n",
"    \"Şəki\"                    -> \"셰키\"\n",
"    \"Məhəmmədhüseyn Şəhriyar\" -> \"메헴메트휘세인 셰흐리야르\"\n",
"    \"Məhəmməd Mövlazadə\"      -> \"메헴메트 뫼블라자데\"\n",
"    \"Füzuli\"                  -> \"퓌줄리\"\n",
"    \"Mir-Möhsün Nəvvab\"       -> \"미르뫼흐쉰 네바프\"\n",
"    \"İmadəddin Nəsimi\"        -> \"이마데딘 네시미\"\n",
"    \"Xırdalan\"                -> \"흐르달란\"\n",
"    \"Hüseyn xan Naxçıvanski\"  -> \"휘세인 한 나흐츠반스키\"\n",
"    \"Xurşidbanu Natəvan\"      -> \"후르시드바누 나테반\"\n",
"    \"Salyan\"                  -> \"살리안\"\n",
"    \"Talış\"                   -> \"탈르슈\"\n",
"    \"Ağdam\"                   -> \"아그담\"\n",
"    \"Qəbələ\"                  -> \"게벨레\"\n",
"\n"]

theorem lines16_ok : Part true lang macros vars (str "transcribe") lines16 (str "test") := by
  apply piece_of
  · dsimp only [lines16]; repeat (first | exact .nil | apply Spells.cons)
  · decide +kernel

/-- The lines of the file. -/
def lines : List String := head ++ (lines1 ++ (lines2 ++ (lines3 ++ (lines4 ++ (lines5 ++ (lines6 ++ (lines7 ++ (lines8 ++ (lines9 ++ (lines10 ++ (lines11 ++ (lines12 ++ (lines13 ++ (lines14 ++ (lines15 ++ (lines16))))))))))))))))

/-- The file is a spec with checked rules. -/
theorem sound : Sound (text lines) lang := sound_of head_ok (lines1_ok.append (lines2_ok.append (lines3_ok.append (lines4_ok.append (lines5_ok.append (lines6_ok.append (lines7_ok.append (lines8_ok.append (lines9_ok.append (lines10_ok.append (lines11_ok.append (lines12_ok.append (lines13_ok.append (lines14_ok.append (lines15_ok.append (lines16_ok)))))))))))))))) (by decide +kernel)

end Verif.Specs.Aze
