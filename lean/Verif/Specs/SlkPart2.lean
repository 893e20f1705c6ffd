import Verif.Specs.SlkHead

/-! specs/slk.hsl, part 2, generated by tools/gen_specs.py. -/

set_option Elab.async false

namespace Verif.Specs.Slk

open Hsl

def lines17 : List String := [
"    \"{,}l\"                                                       -> \"l;\"\n",
"    \"m{@|r}\"                                                     -> \"m;\"\n",
"    \"n{@|J}\"                                                     -> \"n;\"\n",
"    \"l\"                                                          -> \"l,\"\n",
"    \"m\"                                                          -> \"m,\"\n",
"    \"n\"                                                          -> \"n,\"\n",
"    \",,\"                                                         -> \",\"\n",
"    \",;\"                                                         -> \"\"\n",
"    \",l,\"                                                        -> \"l,\"\n",
"    \",m,\"                                                        -> \"m,\"\n"]

theorem lines17_ok : Part true lang macros vars (str "rewrite") lines17 (str "rewrite") := by
  apply piece_of
  · dsimp only [lines17]; repeat (first | exact .nil | apply Spells.cons)
  · decide +kernel

def lines18 : List String := [
"    \",n,\"                                                        -> \"n,\"\n",
"    \"l{m;|n;}\"                                                   -> \"l,\"\n",
"    \";\"                                                          -> \"\"\n",
"\n"]

theorem lines18_ok : Part true lang macros vars (str "rewrite") lines18 (str "rewrite") := by
  apply piece_of
  · dsimp only [lines18]; repeat (first | exact .nil | apply Spells.cons)
  · decide +kernel

def lines19 : List String := [
"transcribe:\n",
"    \"b\"    -> \"ㅂ\"\n",
"    \"c\"    -> \"ㅊ\"\n",
"    \"d\"    -> \"ㄷ\"\n",
"    \"f\"    -> \"ㅍ\"\n",
"    \"g\"    -> \"ㄱ\"\n",
"    \"h\"    -> \"ㅎ\"\n",
"    \"H\"    -> \"ㅎ\"\n",
"    \"k,\"   -> \"-ㄱ\"\n",
"    \"k\"    -> \"ㅋ\"\n",
"    \"^l\"   -> \"ㄹ\"\n"]

theorem lines19_ok : Part true lang macros vars (str "rewrite") lines19 (str "transcribe") := by
  apply piece_of
  · dsimp only [lines19]; repeat (first | exact .nil | apply Spells.cons)
  · decide +kernel

def lines20 : List String := [
"    \"{,}l\" -> \"ㄹ\"\n",
"    \"l,\"   -> \"-ㄹ\"\n",
"    \"l\"    -> \"-ㄹㄹ\"\n",
"    \"m,\"   -> \"-ㅁ\"\n",
"    \"m\"    -> \"ㅁ\"\n",
"    \"n,\"   -> \"-ㄴ\"\n",
"    \"n\"    -> \"ㄴ\"\n",
"    \"p,\"   -> \"-ㅂ\"\n",
"    \"p\"    -> \"ㅍ\"\n",
"    \"r\"    -> \"ㄹ\"\n"]

theorem lines20_ok : Part true lang macros vars (str "transcribe") lines20 (str "transcribe") := by
  apply piece_of
  · dsimp only [lines20]; repeat (first | exact .nil | apply Spells.cons)
  · decide +kernel

def lines21 : List String := [
"    \"s\"    -> \"ㅅ\"\n",
"    \"t\"    -> \"ㅌ\"\n",
"    \"v\"    -> \"ㅂ\"\n",
"    \"z\"    -> \"ㅈ\"\n",
"    \"Ja\"   -> \"ㅑ\"\n",
"    \"Je\"   -> \"ㅖ\"\n",
"    \"Ji\"   -> \"ㅣ\"\n",
"    \"Jo\"   -> \"ㅛ\"\n",
"    \"Ju\"   -> \"ㅠ\"\n",
"    \"a\"    -> \"ㅏ\"\n"]

theorem lines21_ok : Part true lang macros vars (str "transcribe") lines21 (str "transcribe") := by
  apply piece_of
  · dsimp only [lines21]; repeat (first | exact .nil | apply Spells.cons)
  · decide +kernel

def lines22 : List String := [
"    \"e\"    -> \"ㅔ\"\n",
"    \"i\"    -> \"ㅣ\"\n",
"    \"o\"    -> \"ㅗ\"\n",
"    \"u\"    -> \"ㅜ\"\n",
"\n"]

theorem lines22_ok : Part true lang macros vars (str "transcribe") lines22 (str "transcribe") := by
  apply piece_of
  · dsimp only [lines22]; repeat (first | exact .nil | apply Spells.cons)
  · decide +kernel

def lines23 : List String := [
"test:\n",
"    \"Prešov\"                   -> \"프레쇼우\"\n",
"    \"Ľudovít Štúr\"             -> \"류도비트 슈투르\"\n",
"    \"Nitra\"                    -> \"니트라\"\n",
"    \"Pavol Hurajt\"             -> \"파볼 후라이트\"\n",
"    \"Martin\"                   -> \"마르틴\"\n",
"    \"Martin Škrtel\"            -> \"마르틴 슈크르텔\"\n",
"    \"deväť\"                    -> \"데베티\"\n",
"    \"Milan Hodža\"              -> \"밀란 호자\"\n",
"    \"Manínska tiesňava\"        -> \"마닌스카 티에스냐바\"\n",
"    \"Vavrinec\"                 -> \"바우리네츠\"\n",
"    \"Komárno\"                  -> \"코마르노\"\n",
"    \"Aurel Stodola\"            -> \"아우렐 스토돌라\"\n",
"    \"Zvolen\"                   -> \"즈볼렌\"\n",
"    \"Hviezdoslav\"              -> \"흐비에즈도슬라우\"\n",
"    \"Daniela Hantuchová\"       -> \"다니엘라 한투호바\"\n",
"    \"Poprad\"                   -> \"포프라트\"\n",
"    \"Vladimír Mečiar\"          -> \"블라디미르 메치아르\"\n",
"    \"Natália Prekopová\"        -> \"나탈리아 프레코포바\"\n",
"    \"Bratislava\"               -> \"브라티슬라바\"\n",
"    \"Milan Rastislav Štefánik\" -> \"밀란 라스티슬라우 슈테파니크\"\n",
"    \"Štefan Banič\"             -> \"슈테판 바니치\"\n",
"    \"Jozef Miloslav Hurban\"    -> \"요제프 밀로슬라우 후르반\"\n",
"    \"jahôd\"                    -> \"야후오트\"\n",
"    \"Martina Moravcová\"        -> \"마르티나 모라우초바\"\n",
"    \"Bardejov\"                 -> \"바르데요우\"\n",
"    \"Jozef Roháček\"            -> \"요제프 로하체크\"\n",
"    \"Dionýz Ilkovič\"           -> \"디오니스 일코비치\"\n",
"    \"Peter Šťastný\"            -> \"페테르 슈탸스트니\"\n",
"    \"Rožňava\"                  -> \"로주냐바\"\n",
"    \"Dominika Cibulková\"       -> \"도미니카 치불코바\"\n",
"    \"Michaela Kocianová\"       -> \"미하엘라 코치아노바\"\n",
"    \"pätnásť\"                  -> \"페트나스티\"\n",
"    \"Marek Hamšík\"             -> \"마레크 함시크\"\n",
"    \"Alexander Dubček\"         -> \"알렉산데르 둡체크\"\n",
"    \"Michal Martikán\"          -> \"미할 마르티칸\"\n",
"    \"Spiš\"                     -> \"스피시\"\n",
"    \"Trnava\"                   -> \"트르나바\"\n",
"    \"Váh\"                      -> \"바흐\"\n",
"    \"Banská Bystrica\"          -> \"반스카 비스트리차\"\n",
"    \"Považská\"                 -> \"포바슈스카\"\n",
"    \"Trenčín\"                  -> \"트렌친\"\n",
"    \"Rudolf Vrba\"              -> \"루돌프 브르바\"\n",
"    \"Mikuláš Dzurinda\"         -> \"미쿨라시 주린다\"\n",
"    \"Zuzana Sekerová\"          -> \"주자나 세케로바\"\n",
"    \"mäkčeň\"                   -> \"멕첸\"\n",
"    \"Anton Bernolák\"           -> \"안톤 베르놀라크\"\n",
"    \"Ján Čarnogurský\"          -> \"얀 차르노구르스키\"\n",
"    \"Dominik Hrbatý\"           -> \"도미니크 흐르바티\"\n",
"    \"Žilina\"                   -> \"질리나\"\n",
"    \"Andrej Hlinka\"            -> \"안드레이 흘린카\"\n",
"    \"Jozef Murgaš\"             -> \"요제프 무르가시\"\n",
"    \"Košice\"                   -> \"코시체\"\n",
"    \"Slavín\"                   -> \"슬라빈\"\n",
"    \"Michalovce\"               -> \"미할로우체\"\n",
"    \"Peter Bondra\"             -> \"페테르 본드라\"\n",
"    \"Žehra\"                    -> \"제흐라\"\n",
"    \"Magdaléna Rybáriková\"     -> \"마그달레나 리바리코바\"\n",
"    \"Zuzana Štefečeková\"       -> \"주자나 슈테페체코바\"\n",
"    \"Marián Gáborík\"           -> \"마리안 가보리크\"\n",
"    \"Zdeno Chára\"              -> \"즈데노 하라\"\n",
"    \"Marian Hossa\"             -> \"마리안 호사\"\n",
"    \"Eugen Suchoň\"             -> \"에우겐 수혼\"\n",
"    \"Anastasiya Kuzmina\"       -> \"아나스타시야 쿠즈미나\"\n",
"    \"Gustáv Husák\"             -> \"구스타우 후사크\"\n",
"    \"Jozef Tiso\"               -> \"요제프 티소\"\n",
"    \"Elena Kaliská\"            -> \"엘레나 칼리스카\"\n",
"    \"Janko Matúška\"            -> \"얀코 마투슈카\"\n",
"    \"Pavol Demitra\"            -> \"파볼 데미트라\"\n",
"    \"Vlkolínec\"                -> \"블콜리네츠\"\n",
"    \"Vydrica\"                  -> \"비드리차\"\n"]

theorem lines23_ok : Part true lang macros vars (str "transcribe") lines23 (str "test") := by
  apply piece_of
  · dsimp only [lines23]; repeat (first | exact .nil | apply Spells.cons)
  · decide +kernel

def lines24 : List String := [
"    \"Karol Kučera\"             -> \"카롤 쿠체라\"\n",
"    \"Ján Bahýľ\"                -> \"얀 바힐\"\n",
"    \"Štefan Marko Daxner\"      -> \"슈테판 마르코 닥스네르\"\n",
"    \"Vladimír Weiss\"           -> \"블라디미르 베이스\"\n",
"\n"]

theorem lines24_ok : Part true lang macros vars (str "test") lines24 (str "test") := by
  apply piece_of
  · dsimp only [lines24]; repeat (first | exact .nil | apply Spells.cons)
  · decide +kernel

end Verif.Specs.Slk
