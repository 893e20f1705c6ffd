import Verif.Specs.PolHead

/-! specs/pol.hsl, part 1, generated by tools/gen_specs.py. -/

set_option Elab.async false

namespace Verif.Specs.Pol

open Hsl

def lines1 : List String := [
"rewrite:\n",
"    \"wałęsa\"        -> \"wałensa\"\n",
"    \"ą{l|ł}\"        -> \"o\"\n",
"    \"ą\"             -> \"oN\"\n",
"    \"ę{l|ł}\"        -> \"e\"\n",
"    \"ę$\"            -> \"e\"\n",
"    \"ę\"             -> \"eN\"\n",
"    \"ół\"            -> \"u\"\n",
"    \"łł\"            -> \"ł\"\n",
"    \"ł{@}\"          -> \"W\"\n",
"    \"ł\"             -> \"%u\"\n"]

theorem lines1_ok : Part true lang macros vars (str "normalize") lines1 (str "rewrite") := by
  apply piece_of
  · dsimp only [lines1]; repeat (first | exact .nil | apply Spells.cons)
  · decide +kernel

def lines2 : List String := [
"    \"ó\"             -> \"u\"\n",
"    \"rz\"            -> \"ż\"\n",
"    \"dź\"            -> \"ć\"\n",
"    \"ć\"             -> \"cj\"\n",
"    \"^th\"           -> \"t\"\n",
"    \"hh\"            -> \"h\"\n",
"    \"ch\"            -> \"h\"\n",
"    \"ź{<vl>}\"       -> \"sj\"\n",
"    \"ź$\"            -> \"sj\"\n",
"    \"ź\"             -> \"zj\"\n"]

theorem lines2_ok : Part true lang macros vars (str "rewrite") lines2 (str "rewrite") := by
  apply piece_of
  · dsimp only [lines2]; repeat (first | exact .nil | apply Spells.cons)
  · decide +kernel

def lines3 : List String := [
"    \"ś\"             -> \"sj\"\n",
"    \"dz{<vl>}\"      -> \"c\"\n",
"    \"dz$\"           -> \"c\"\n",
"    \"dz\"            -> \"z\"\n",
"    \"dż{@}\"         -> \"z\"\n",
"    \"dż\"            -> \"C\"\n",
"    \"cz\"            -> \"C\"\n",
"    \"cj\"            -> \"C\"\n",
"    \"C$\"            -> \"ci\"\n",
"    \"C{@}\"          -> \"c\"\n"]

theorem lines3_ok : Part true lang macros vars (str "rewrite") lines3 (str "rewrite") := by
  apply piece_of
  · dsimp only [lines3]; repeat (first | exact .nil | apply Spells.cons)
  · decide +kernel

def lines4 : List String := [
"    \"C\"             -> \"ci\"\n",
"    \"b{<vl>}\"       -> \"p\"\n",
"    \"b$\"            -> \"p\"\n",
"    \"d{<vl>}\"       -> \"t\"\n",
"    \"d$\"            -> \"t\"\n",
"    \"g{<vl>}\"       -> \"k\"\n",
"    \"g$\"            -> \"k\"\n",
"    \"w{<vl>}\"       -> \"f\"\n",
"    \"w$\"            -> \"f\"\n",
"    \"ż{<vl>}\"       -> \"sz\"\n"]

theorem lines4_ok : Part true lang macros vars (str "rewrite") lines4 (str "rewrite") := by
  apply piece_of
  · dsimp only [lines4]; repeat (first | exact .nil | apply Spells.cons)
  · decide +kernel

def lines5 : List String := [
"    \"{<vl>}ż\"       -> \"sz\"\n",
"    \"ż$\"            -> \"sz\"\n",
"    \"ż{@}\"          -> \"z\"\n",
"    \"żj\"            -> \"zj\"\n",
"    \"ż\"             -> \"zu\"\n",
"    \"sz{@}\"         -> \"sJ\"\n",
"    \"szj\"           -> \"sJ\"\n",
"    \"sz$\"           -> \"si\"\n",
"    \"sz\"            -> \"sJu\"\n",
"    \"z{<vl>}\"       -> \"s\"\n"]

theorem lines5_ok : Part true lang macros vars (str "rewrite") lines5 (str "rewrite") := by
  apply piece_of
  · dsimp only [lines5]; repeat (first | exact .nil | apply Spells.cons)
  · decide +kernel

def lines6 : List String := [
"    \"z$\"            -> \"s\"\n",
"    \"xx\"            -> \"x\"\n",
"    \"x\"             -> \"ks\"\n",
"    \"tt\"            -> \"t\"\n",
"    \"w\"             -> \"v\"\n",
"    \"q\"             -> \"kv\"\n",
"    \"aa\"            -> \"a\"\n",
"    \"bb\"            -> \"b\"\n",
"    \"dd\"            -> \"d\"\n",
"    \"ee\"            -> \"e\"\n"]

theorem lines6_ok : Part true lang macros vars (str "rewrite") lines6 (str "rewrite") := by
  apply piece_of
  · dsimp only [lines6]; repeat (first | exact .nil | apply Spells.cons)
  · decide +kernel

def lines7 : List String := [
"    \"ff\"            -> \"f\"\n",
"    \"jj\"            -> \"ij\"\n",
"    \"ii\"            -> \"i\"\n",
"    \"zj{@}\"         -> \"z\"\n",
"    \"{<cs>}je\"      -> \"e\"\n",
"    \"j{@}\"          -> \"J\"\n",
"    \"j\"             -> \"i\"\n",
"    \"ij\"            -> \"i\"\n",
"    \"yj\"            -> \"y\"\n",
"    \"kk\"            -> \"k\"\n"]

theorem lines7_ok : Part true lang macros vars (str "rewrite") lines7 (str "rewrite") := by
  apply piece_of
  · dsimp only [lines7]; repeat (first | exact .nil | apply Spells.cons)
  · decide +kernel

def lines8 : List String := [
"    \"ll\"            -> \"l\"\n",
"    \"{@}mm{@}\"      -> \"m,m\"\n",
"    \"mm\"            -> \"m\"\n",
"    \"{@}nn{@}\"      -> \"n,n\"\n",
"    \"oo\"            -> \"o\"\n",
"    \"pp\"            -> \"p\"\n",
"    \"rr\"            -> \"r\"\n",
"    \"ss\"            -> \"s\"\n",
"    \"tt\"            -> \"t\"\n",
"    \"uu\"            -> \"u\"\n"]

theorem lines8_ok : Part true lang macros vars (str "rewrite") lines8 (str "rewrite") := by
  apply piece_of
  · dsimp only [lines8]; repeat (first | exact .nil | apply Spells.cons)
  · decide +kernel

def lines9 : List String := [
"    \"X\"             -> \"\"\n",
"    \"vv\"            -> \"v\"\n",
"    \"^y{@}\"         -> \"J\"\n",
"    \"yy\"            -> \"y\"\n",
"    \"y\"             -> \"i\"\n",
"    \"zz\"            -> \"z\"\n",
"    \"{@}k{p|s|t|z}\" -> \"k,\"\n",
"    \"{@}p{k|s|t|z}\" -> \"p,\"\n",
"    \"^l\"            -> \"l;\"\n",
"    \"^m\"            -> \"m;\"\n"]

theorem lines9_ok : Part true lang macros vars (str "rewrite") lines9 (str "rewrite") := by
  apply piece_of
  · dsimp only [lines9]; repeat (first | exact .nil | apply Spells.cons)
  · decide +kernel

def lines10 : List String := [
"    \"^n\"            -> \"n;\"\n",
"    \"l$\"            -> \"l,\"\n",
"    \"m$\"            -> \"m,\"\n",
"    \"n$\"            -> \"n,\"\n",
"    \"l{@|J|m,|n,}\"  -> \"l;\"\n",
"    \"{,}l\"          -> \"l;\"\n",
"    \"m{@|J}\"        -> \"m;\"\n",
"    \"n{@|J}\"        -> \"n;\"\n",
"    \"l\"             -> \"l,\"\n",
"    \"m\"             -> \"m,\"\n"]

theorem lines10_ok : Part true lang macros vars (str "rewrite") lines10 (str "rewrite") := by
  apply piece_of
  · dsimp only [lines10]; repeat (first | exact .nil | apply Spells.cons)
  · decide +kernel

def lines11 : List String := [
"    \"n\"             -> \"n,\"\n",
"    \",,\"            -> \",\"\n",
"    \",;\"            -> \"\"\n",
"    \",l,\"           -> \"l,\"\n",
"    \",m,\"           -> \"m,\"\n",
"    \",n,\"           -> \"n,\"\n",
"    \"l{m;|n;}\"      -> \"l,\"\n",
"    \";\"             -> \"\"\n",
"\n"]

theorem lines11_ok : Part true lang macros vars (str "rewrite") lines11 (str "rewrite") := by
  apply piece_of
  · dsimp only [lines11]; repeat (first | exact .nil | apply Spells.cons)
  · decide +kernel

def lines12 : List String := [
"transcribe:\n",
"    \"b\"    -> \"ㅂ\"\n",
"    \"c\"    -> \"ㅊ\"\n",
"    \"d\"    -> \"ㄷ\"\n",
"    \"f\"    -> \"ㅍ\"\n",
"    \"g\"    -> \"ㄱ\"\n",
"    \"h\"    -> \"ㅎ\"\n",
"    \"k,\"   -> \"-ㄱ\"\n",
"    \"k\"    -> \"ㅋ\"\n",
"    \"^l\"   -> \"ㄹ\"\n",
"    \"{,}l\" -> \"ㄹ\"\n"]

theorem lines12_ok : Part true lang macros vars (str "rewrite") lines12 (str "transcribe") := by
  apply piece_of
  · dsimp only [lines12]; repeat (first | exact .nil | apply Spells.cons)
  · decide +kernel

def lines13 : List String := [
"    \"l,\"   -> \"-ㄹ\"\n",
"    \"l\"    -> \"-ㄹㄹ\"\n",
"    \"m,\"   -> \"-ㅁ\"\n",
"    \"m\"    -> \"ㅁ\"\n",
"    \"n,\"   -> \"-ㄴ\"\n",
"    \"n\"    -> \"ㄴ\"\n",
"    \"N\"    -> \"-ㅇ\"\n",
"    \"p,\"   -> \"-ㅂ\"\n",
"    \"p\"    -> \"ㅍ\"\n",
"    \"r\"    -> \"ㄹ\"\n"]

theorem lines13_ok : Part true lang macros vars (str "transcribe") lines13 (str "transcribe") := by
  apply piece_of
  · dsimp only [lines13]; repeat (first | exact .nil | apply Spells.cons)
  · decide +kernel

def lines14 : List String := [
"    \"s\"    -> \"ㅅ\"\n",
"    \"t\"    -> \"ㅌ\"\n",
"    \"v\"    -> \"ㅂ\"\n",
"    \"z\"    -> \"ㅈ\"\n",
"    \"Ja\"   -> \"ㅑ\"\n",
"    \"Je\"   -> \"ㅖ\"\n",
"    \"Ji\"   -> \"ㅣ\"\n",
"    \"Jo\"   -> \"ㅛ\"\n",
"    \"Ju\"   -> \"ㅠ\"\n",
"    \"Wa\"   -> \"ㅇㅘ\"\n"]

theorem lines14_ok : Part true lang macros vars (str "transcribe") lines14 (str "transcribe") := by
  apply piece_of
  · dsimp only [lines14]; repeat (first | exact .nil | apply Spells.cons)
  · decide +kernel

def lines15 : List String := [
"    \"We\"   -> \"ㅇㅞ\"\n",
"    \"Wi\"   -> \"ㅇㅟ\"\n",
"    \"Wo\"   -> \"ㅇㅝ\"\n",
"    \"Wu\"   -> \"ㅇㅜ\"\n",
"    \"a\"    -> \"ㅏ\"\n",
"    \"e\"    -> \"ㅔ\"\n",
"    \"i\"    -> \"ㅣ\"\n",
"    \"o\"    -> \"ㅗ\"\n",
"    \"u\"    -> \"ㅜ\"\n",
"\n"]

theorem lines15_ok : Part true lang macros vars (str "transcribe") lines15 (str "transcribe") := by
  apply piece_of
  · dsimp only [lines15]; repeat (first | exact .nil | apply Spells.cons)
  · decide +kernel

def lines16 : List String := [
"test:\n",
"    \"dywan\"                       -> \"디반\"\n",
"    \"straż\"                       -> \"스트라시\"\n",
"    \"Stefan Banach\"               -> \"스테판 바나흐\"\n",
"    \"Jacek Kuroń\"                 -> \"야체크 쿠론\"\n",
"    \"targ\"                        -> \"타르크\"\n",
"    \"dobrze\"                      -> \"도브제\"\n",
"    \"Adam Ważyk\"                  -> \"아담 바지크\"\n",
"    \"Jan Łukasiewicz\"             -> \"얀 우카시에비치\"\n",
"    \"Edward Ochab\"                -> \"에드바르트 오하프\"\n",
"    \"matka\"                       -> \"마트카\"\n",
"    \"zabawka\"                     -> \"자바프카\"\n",
"    \"Poznań\"                      -> \"포즈난\"\n",
"    \"Bronisław Malinowski\"        -> \"브로니스와프 말리노프스키\"\n",
"    \"Rzeszów\"                     -> \"제슈프\"\n",
"    \"Rafał Szukała\"               -> \"라파우 슈카와\"\n",
"    \"proszę\"                      -> \"프로셰\"\n",
"    \"łyżka\"                       -> \"위슈카\"\n",
"    \"Józef Cyrankiewicz\"          -> \"유제프 치란키에비치\"\n",
"    \"chory\"                       -> \"호리\"\n",
"    \"grzmot\"                      -> \"그주모트\"\n",
"    \"Seweryn Bialer\"              -> \"세베린 비알레르\"\n",
"    \"Krzysztof Kieślowski\"        -> \"크시슈토프 키에실로프스키\"\n",
"    \"łodż\"                        -> \"워치\"\n",
"    \"nerka\"                       -> \"네르카\"\n",
"    \"kuchnia\"                     -> \"쿠흐니아\"\n",
"    \"węgorz\"                      -> \"벵고시\"\n",
"    \"Lech Kaczyński\"              -> \"레흐 카친스키\"\n",
"    \"burak\"                       -> \"부라크\"\n",
"    \"zdrowy\"                      -> \"즈드로비\"\n",
"    \"wywóz\"                       -> \"비부스\"\n",
"    \"Jacek Podsiadło\"             -> \"야체크 포트시아드워\"\n",
"    \"kapelusz\"                    -> \"카펠루시\"\n",
"    \"Stefan Themerson\"            -> \"스테판 테메르손\"\n",
"    \"góra\"                        -> \"구라\"\n",
"    \"Florian Znaniecki\"           -> \"플로리안 즈나니에츠키\"\n",
"    \"cel\"                         -> \"첼\"\n",
"    \"Lech Wałęsa\"                 -> \"레흐 바웬사\"\n",
"    \"noc\"                         -> \"노츠\"\n",
"    \"jasny\"                       -> \"야스니\"\n",
"    \"Jerzy Dudek\"                 -> \"예지 두데크\"\n",
"    \"Krzysztof Penderecki\"        -> \"크시슈토프 펜데레츠키\"\n",
"    \"Tadeusz Kościuszko\"          -> \"타데우시 코시치우슈코\"\n",
"    \"mokry\"                       -> \"모크리\"\n",
"    \"bank\"                        -> \"반크\"\n",
"    \"Mateusz Sawrymowicz\"         -> \"마테우시 사브리모비치\"\n",
"    \"Karol Wojtyła\"               -> \"카롤 보이티와\"\n",
"    \"mąka\"                        -> \"몽카\"\n",
"    \"kolano\"                      -> \"콜라노\"\n",
"    \"odpis\"                       -> \"오트피스\"\n",
"    \"Katarzyna Woźniak\"           -> \"카타지나 보지니아크\"\n",
"    \"kula\"                        -> \"쿨라\"\n",
"    \"Michał Witkowski\"            -> \"미하우 비트코프스키\"\n",
"    \"Jan Tomaszewski\"             -> \"얀 토마셰프스키\"\n",
"    \"Grzegorz Lato\"               -> \"그제고시 라토\"\n",
"    \"Stefan Wyszyński\"            -> \"스테판 비신스키\"\n",
"    \"fryzjer\"                     -> \"프리제르\"\n",
"    \"grad\"                        -> \"그라트\"\n",
"    \"motyl\"                       -> \"모틸\"\n",
"    \"koszt\"                       -> \"코슈트\"\n",
"    \"Otylia Jędrzejczak\"          -> \"오틸리아 옝제이차크\"\n",
"    \"trawa\"                       -> \"트라바\"\n",
"    \"Wacław Sierpiński\"           -> \"바츠와프 시에르핀스키\"\n",
"    \"zero\"                        -> \"제로\"\n",
"    \"Aleksander Wielopolski\"      -> \"알렉산데르 비엘로폴스키\"\n",
"    \"sznur\"                       -> \"슈누르\"\n",
"    \"Leszek Miller\"               -> \"레셰크 밀레르\"\n",
"    \"fasola\"                      -> \"파솔라\"\n",
"    \"Władysław Gomułka\"           -> \"브와디스와프 고무우카\"\n",
"    \"Jadwiga Andegaweńska\"        -> \"야드비가 안데가벤스카\"\n",
"    \"Jarosław Iwaszkiewicz\"       -> \"야로스와프 이바슈키에비치\"\n"]

theorem lines16_ok : Part true lang macros vars (str "transcribe") lines16 (str "test") := by
  apply piece_of
  · dsimp only [lines16]; repeat (first | exact .nil | apply Spells.cons)
  · decide +kernel

end Verif.Specs.Pol
