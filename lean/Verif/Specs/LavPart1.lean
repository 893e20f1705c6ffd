import Verif.Specs.LavHead

/-! specs/lav.hsl, part 1, generated by tools/gen_specs.py. -/

set_option Elab.async false

namespace Verif.Specs.Lav

open Hsl

def lines1 : List String := [
"rewrite:\n",
"    \"č\"                   -> \"C\"\n",
"    \"ģ\"                   -> \"G\"\n",
"    \"ķ\"                   -> \"K\"\n",
"    \"ļ{@}\"                -> \"lj\"\n",
"    \"ļ\"                   -> \"l\"\n",
"    \"{@}n{g|k}\"           -> \"N\"\n",
"    \"Ng{@|j|l|r}\"         -> \"N,g\"\n",
"    \"Ng\"                  -> \"N,\"\n",
"    \"ņ{@}\"                -> \"nj\"\n",
"    \"ņ\"                   -> \"n\"\n"]

theorem lines1_ok : Part true lang macros vars (str "normalize") lines1 (str "rewrite") := by
  apply piece_of
  · dsimp only [lines1]; repeat (first | exact .nil | apply Spells.cons)
  · decide +kernel

def lines2 : List String := [
"    \"š\"                   -> \"S\"\n",
"    \"ch\"                  -> \"H\"\n",
"    \"ts\"                  -> \"c\"\n",
"    \"tS\"                  -> \"C\"\n",
"    \"d{G|K}\"              -> \"\"\n",
"    \"t{G|K}\"              -> \"\"\n",
"    \"G\"                   -> \"D\"\n",
"    \"K\"                   -> \"C\"\n",
"    \"dz\"                  -> \"X\"\n",
"    \"tz\"                  -> \"X\"\n"]

theorem lines2_ok : Part true lang macros vars (str "rewrite") lines2 (str "rewrite") := by
  apply piece_of
  · dsimp only [lines2]; repeat (first | exact .nil | apply Spells.cons)
  · decide +kernel

def lines3 : List String := [
"    \"dž\"                  -> \"D\"\n",
"    \"tž\"                  -> \"D\"\n",
"    \"ž\"                   -> \"Z\"\n",
"    \"{c|C|D|s|S|X|z|Z}s$\" -> \"\"\n",
"    \"y\"                   -> \"i\"\n",
"    \"{s|S}je\"             -> \"Je\"\n",
"    \"{<cs>}je\"            -> \"e\"\n",
"    \"j{@}\"                -> \"J\"\n",
"    \"ij\"                  -> \"i\"\n",
"    \"j\"                   -> \"i\"\n"]

theorem lines3_ok : Part true lang macros vars (str "rewrite") lines3 (str "rewrite") := by
  apply piece_of
  · dsimp only [lines3]; repeat (first | exact .nil | apply Spells.cons)
  · decide +kernel

def lines4 : List String := [
"    \"{c|C|D|S|X|z|Z}J\"    -> \"\"\n",
"    \"qu\"                  -> \"kv\"\n",
"    \"q\"                   -> \"k\"\n",
"    \"w\"                   -> \"v\"\n",
"    \"{@}v{<cs>}\"          -> \"u\"\n",
"    \"{@}v$\"               -> \"u\"\n",
"    \"x\"                   -> \"ks\"\n",
"    \"bb\"                  -> \"b\"\n",
"    \"dd\"                  -> \"d\"\n",
"    \"ff\"                  -> \"f\"\n"]

theorem lines4_ok : Part true lang macros vars (str "rewrite") lines4 (str "rewrite") := by
  apply piece_of
  · dsimp only [lines4]; repeat (first | exact .nil | apply Spells.cons)
  · decide +kernel

def lines5 : List String := [
"    \"gg\"                  -> \"g\"\n",
"    \"hh\"                  -> \"h\"\n",
"    \"kk\"                  -> \"k\"\n",
"    \"ll\"                  -> \"l\"\n",
"    \"mm\"                  -> \"m,m\"\n",
"    \"nn\"                  -> \"n,n\"\n",
"    \"pp\"                  -> \"p\"\n",
"    \"rr\"                  -> \"r\"\n",
"    \"ss\"                  -> \"s\"\n",
"    \"SS\"                  -> \"S\"\n"]

theorem lines5_ok : Part true lang macros vars (str "rewrite") lines5 (str "rewrite") := by
  apply piece_of
  · dsimp only [lines5]; repeat (first | exact .nil | apply Spells.cons)
  · decide +kernel

def lines6 : List String := [
"    \"tt\"                  -> \"t\"\n",
"    \"vv\"                  -> \"v\"\n",
"    \"zz\"                  -> \"z\"\n",
"    \"ZZ\"                  -> \"Z\"\n",
"    \"ds{<vo>}\"            -> \"X\"\n",
"    \"ds\"                  -> \"c\"\n",
"    \"dS{<vo>}\"            -> \"Z\"\n",
"    \"dS\"                  -> \"C\"\n",
"    \"bz{<vl>}\"            -> \"ps\"\n",
"    \"gz{<vl>}\"            -> \"ks\"\n"]

theorem lines6_ok : Part true lang macros vars (str "rewrite") lines6 (str "rewrite") := by
  apply piece_of
  · dsimp only [lines6]; repeat (first | exact .nil | apply Spells.cons)
  · decide +kernel

def lines7 : List String := [
"    \"bZ{<vl>}\"            -> \"pS\"\n",
"    \"gZ{<vl>}\"            -> \"kS\"\n",
"    \"b{<vl>}\"             -> \"p\"\n",
"    \"d{<vl>}\"             -> \"t\"\n",
"    \"D{<vl>}\"             -> \"C\"\n",
"    \"g{<vl>}\"             -> \"k\"\n",
"    \"G{<vl>}\"             -> \"K\"\n",
"    \"X{<vl>}\"             -> \"c\"\n",
"    \"z{<vl>}\"             -> \"s\"\n",
"    \"Z{<vl>}\"             -> \"S\"\n"]

theorem lines7_ok : Part true lang macros vars (str "rewrite") lines7 (str "rewrite") := by
  apply piece_of
  · dsimp only [lines7]; repeat (first | exact .nil | apply Spells.cons)
  · decide +kernel

def lines8 : List String := [
"    \"{@}k{<vl>}\"          -> \"k,\"\n",
"    \"{@}p{<vl>}\"          -> \"p,\"\n",
"    \"ts\"                  -> \"c\"\n",
"    \"tS\"                  -> \"C\"\n",
"    \"C{<cs>}\"             -> \"ci\"\n",
"    \"C$\"                  -> \"ci\"\n",
"    \"D{<cs>}\"             -> \"zi\"\n",
"    \"D$\"                  -> \"zi\"\n",
"    \"Z{<cs>}\"             -> \"zu\"\n",
"    \"Z$\"                  -> \"zu\"\n"]

theorem lines8_ok : Part true lang macros vars (str "rewrite") lines8 (str "rewrite") := by
  apply piece_of
  · dsimp only [lines8]; repeat (first | exact .nil | apply Spells.cons)
  · decide +kernel

def lines9 : List String := [
"    \"S{<cs>}\"             -> \"sJu\"\n",
"    \"S$\"                  -> \"sJu\"\n",
"    \"C\"                   -> \"c\"\n",
"    \"D\"                   -> \"z\"\n",
"    \"H\"                   -> \"h\"\n",
"    \"S\"                   -> \"sJ\"\n",
"    \"X\"                   -> \"z\"\n",
"    \"Z\"                   -> \"z\"\n",
"    \"^l\"                  -> \"l;\"\n",
"    \"^m\"                  -> \"m;\"\n"]

theorem lines9_ok : Part true lang macros vars (str "rewrite") lines9 (str "rewrite") := by
  apply piece_of
  · dsimp only [lines9]; repeat (first | exact .nil | apply Spells.cons)
  · decide +kernel

def lines10 : List String := [
"    \"^n\"                  -> \"n;\"\n",
"    \"l$\"                  -> \"l,\"\n",
"    \"m$\"                  -> \"m,\"\n",
"    \"n$\"                  -> \"n,\"\n",
"    \"l{@|J|m,|n,}\"        -> \"l;\"\n",
"    \"{,}l\"                -> \"l;\"\n",
"    \"m{@|J}\"              -> \"m;\"\n",
"    \"n{@|J}\"              -> \"n;\"\n",
"    \"l\"                   -> \"l,\"\n",
"    \"m\"                   -> \"m,\"\n"]

theorem lines10_ok : Part true lang macros vars (str "rewrite") lines10 (str "rewrite") := by
  apply piece_of
  · dsimp only [lines10]; repeat (first | exact .nil | apply Spells.cons)
  · decide +kernel

def lines11 : List String := [
"    \"n\"                   -> \"n,\"\n",
"    \",,\"                  -> \",\"\n",
"    \",;\"                  -> \"\"\n",
"    \",l,\"                 -> \"l,\"\n",
"    \",m,\"                 -> \"m,\"\n",
"    \",n,\"                 -> \"n,\"\n",
"    \"l{m;|n;}\"            -> \"l,\"\n",
"    \";\"                   -> \"\"\n",
"\n"]

theorem lines11_ok : Part true lang macros vars (str "rewrite") lines11 (str "rewrite") := by
  apply piece_of
  · dsimp only [lines11]; repeat (first | exact .nil | apply Spells.cons)
  · decide +kernel

def lines12 : List String := [
"transcribe:\n",
"    \"b\"    -> \"ㅂ\"\n",
"    \"c\"    -> \"ㅊ\"\n",
"    \"d\"    -> \"ㄷ\"\n",
"    \"f\"    -> \"ㅍ\"\n",
"    \"g\"    -> \"ㄱ\"\n",
"    \"h\"    -> \"ㅎ\"\n",
"    \"k,\"   -> \"-ㄱ\"\n",
"    \"k\"    -> \"ㅋ\"\n",
"    \"^l\"   -> \"ㄹ\"\n",
"    \"{,}l\" -> \"ㄹ\"\n"]

theorem lines12_ok : Part true lang macros vars (str "rewrite") lines12 (str "transcribe") := by
  apply piece_of
  · dsimp only [lines12]; repeat (first | exact .nil | apply Spells.cons)
  · decide +kernel

def lines13 : List String := [
"    \"l,\"   -> \"-ㄹ\"\n",
"    \"l\"    -> \"-ㄹㄹ\"\n",
"    \"m,\"   -> \"-ㅁ\"\n",
"    \"m\"    -> \"ㅁ\"\n",
"    \"n,\"   -> \"-ㄴ\"\n",
"    \"n\"    -> \"ㄴ\"\n",
"    \"N\"    -> \"-ㅇ\"\n",
"    \"p,\"   -> \"-ㅂ\"\n",
"    \"p\"    -> \"ㅍ\"\n",
"    \"r\"    -> \"ㄹ\"\n"]

theorem lines13_ok : Part true lang macros vars (str "transcribe") lines13 (str "transcribe") := by
  apply piece_of
  · dsimp only [lines13]; repeat (first | exact .nil | apply Spells.cons)
  · decide +kernel

def lines14 : List String := [
"    \"s\"    -> \"ㅅ\"\n",
"    \"t\"    -> \"ㅌ\"\n",
"    \"v\"    -> \"ㅂ\"\n",
"    \"z\"    -> \"ㅈ\"\n",
"    \"Ja\"   -> \"ㅑ\"\n",
"    \"Je\"   -> \"ㅖ\"\n",
"    \"Ji\"   -> \"ㅣ\"\n",
"    \"Jo\"   -> \"ㅛ\"\n",
"    \"Ju\"   -> \"ㅠ\"\n",
"    \"a\"    -> \"ㅏ\"\n"]

theorem lines14_ok : Part true lang macros vars (str "transcribe") lines14 (str "transcribe") := by
  apply piece_of
  · dsimp only [lines14]; repeat (first | exact .nil | apply Spells.cons)
  · decide +kernel

def lines15 : List String := [
"    \"e\"    -> \"ㅔ\"\n",
"    \"i\"    -> \"ㅣ\"\n",
"    \"o\"    -> \"ㅗ\"\n",
"    \"u\"    -> \"ㅜ\"\n",
"\n"]

theorem lines15_ok : Part true lang macros vars (str "transcribe") lines15 (str "transcribe") := by
  apply piece_of
  · dsimp only [lines15]; repeat (first | exact .nil | apply Spells.cons)
  · decide +kernel

def lines16 : List String := [
"test:\n",
"    \"Nikolajs Loskis\"          -> \"니콜라이스 로스키스\"\n",
"    \"Daugava\"                  -> \"다우가바\"\n",
"    \"Andrejs Pumpurs\"          -> \"안드레이스 품푸르스\"\n",
"    \"Alberts\"                  -> \"알베르츠\"\n",
"    \"Kārlis Irbītis\"           -> \"카를리스 이르비티스\"\n",
"    \"Artis Pabriks\"            -> \"아르티스 파브릭스\"\n",
"    \"Elvīra Ozoliņa\"           -> \"엘비라 오졸리냐\"\n",
"    \"Eliass Eliezers Desslers\" -> \"엘리아스 엘리에제르스 데슬레르스\"\n",
"    \"Eduards Veidenbaums\"      -> \"에두아르츠 베이덴바움스\"\n",
"    \"Miķelis Krogzemis\"        -> \"미첼리스 크로그제미스\"\n",
"    \"Stanislavs Olijars\"       -> \"스타니슬라우스 올리야르스\"\n",
"    \"Ernests Blanks\"           -> \"에르네스츠 블랑크스\"\n",
"    \"Eduards Berklavs\"         -> \"에두아르츠 베르클라우스\"\n",
"    \"Pēteris Stučka\"           -> \"페테리스 스투치카\"\n",
"    \"Artūrs Irbe\"              -> \"아르투르스 이르베\"\n",
"    \"Sandis Ozoliņš\"           -> \"산디스 오졸린슈\"\n",
"    \"Juris Rubenis\"            -> \"유리스 루베니스\"\n",
"    \"Valdis Zatlers\"           -> \"발디스 자틀레르스\"\n",
"    \"Sergejs Eizenšteins\"      -> \"세르게이스 에이젠슈테인스\"\n",
"    \"Aleksandrs Koblencs\"      -> \"알렉산드르스 코블렌츠\"\n",
"    \"Vidzeme\"                  -> \"비제메\"\n",
"    \"Daugavpils\"               -> \"다우가우필스\"\n",
"    \"Ojārs Vācietis\"           -> \"오야르스 바치에티스\"\n",
"    \"Ventspils\"                -> \"벤츠필스\"\n",
"    \"Kurzeme\"                  -> \"쿠르제메\"\n",
"    \"Uļjana Semjonova\"         -> \"울랴나 세묘노바\"\n",
"    \"Sergejs Žoltoks\"          -> \"세르게이스 졸톡스\"\n",
"    \"Rūdolfs Blaumanis\"        -> \"루돌프스 블라우마니스\"\n",
"    \"Grobiņa\"                  -> \"그로비냐\"\n",
"    \"Rēzekne\"                  -> \"레제크네\"\n",
"    \"Vladimirs Petrovs\"        -> \"블라디미르스 페트로우스\"\n",
"    \"Aleksandrs Kovaļevskis\"   -> \"알렉산드르스 코발레우스키스\"\n",
"    \"Emīls Dārziņš\"            -> \"에밀스 다르진슈\"\n",
"    \"Imants Ziedonis\"          -> \"이만츠 지에도니스\"\n",
"    \"Latgale\"                  -> \"라트갈레\"\n",
"    \"Aleksandrs Vanags\"        -> \"알렉산드르스 바낙스\"\n",
"    \"Miķelis Valters\"          -> \"미첼리스 발테르스\"\n",
"    \"Jūrmala\"                  -> \"유르말라\"\n",
"    \"Vizma Belševica\"          -> \"비즈마 벨셰비차\"\n",
"    \"Krišjānis Valdemārs\"      -> \"크리샤니스 발데마르스\"\n",
"    \"Latvija\"                  -> \"라트비야\"\n",
"    \"Kārlis Ulmanis\"           -> \"카를리스 울마니스\"\n",
"    \"Gustavs Klucis\"           -> \"구스타우스 클루치스\"\n",
"    \"Ernests Štālbergs\"        -> \"에르네스츠 슈탈베르크스\"\n",
"    \"Helmuts Balderis\"         -> \"헬무츠 발데리스\"\n",
"    \"Kaspars Kambala\"          -> \"카스파르스 캄발라\"\n",
"    \"Visvaldis\"                -> \"비스발디스\"\n",
"    \"Māris Štrombergs\"         -> \"마리스 슈트롬베르크스\"\n",
"    \"Guntis Ulmanis\"           -> \"군티스 울마니스\"\n",
"    \"Jānis Balodis\"            -> \"야니스 발로디스\"\n",
"    \"Movša Feigins\"            -> \"모우샤 페이긴스\"\n",
"    \"Vilhelms Ostvalds\"        -> \"빌헬름스 오스트발츠\"\n",
"    \"Valdemārs Ozoliņš\"        -> \"발데마르스 오졸린슈\"\n",
"    \"Mārtiņš Rubenis\"          -> \"마르틴슈 루베니스\"\n",
"    \"Elīna Garanča\"            -> \"엘리나 가란차\"\n",
"    \"Ābrams Izāks Kūks\"        -> \"아브람스 이작스 쿡스\"\n",
"    \"Jersika\"                  -> \"예르시카\"\n",
"    \"Juris Kronbergs\"          -> \"유리스 크론베르크스\"\n",
"    \"Makss Veinreihs\"          -> \"막스 베인레이흐스\"\n",
"    \"Jēkabpils\"                -> \"예캅필스\"\n",
"    \"Uvis Helmanis\"            -> \"우비스 헬마니스\"\n",
"    \"Aleksandrs Voitkevičs\"    -> \"알렉산드르스 보이트케비치\"\n",
"    \"Kārlis Padegs\"            -> \"카를리스 파덱스\"\n",
"    \"Jevgēnija Ļisicina\"       -> \"예우게니야 리시치나\"\n"]

theorem lines16_ok : Part true lang macros vars (str "transcribe") lines16 (str "test") := by
  apply piece_of
  · dsimp only [lines16]; repeat (first | exact .nil | apply Spells.cons)
  · decide +kernel

end Verif.Specs.Lav
