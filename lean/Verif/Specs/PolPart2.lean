import Verif.Specs.PolHead

/-! specs/pol.hsl, part 2, generated by tools/gen_specs.py. -/

set_option Elab.async false

namespace Verif.Specs.Pol

open Hsl

def lines17 : List String := [
"    \"Dariusz Dziekanowski\"        -> \"다리우시 지에카노프스키\"\n",
"    \"gwoździk\"                    -> \"그보지지크\"\n",
"    \"Adam Mickiewicz\"             -> \"아담 미츠키에비치\"\n",
"    \"zimno\"                       -> \"짐노\"\n",
"    \"Jarosław Kaczyński\"          -> \"야로스와프 카친스키\"\n",
"    \"musztarda\"                   -> \"무슈타르다\"\n",
"    \"przyjaciół\"                  -> \"프시야치우\"\n",
"    \"rzeka\"                       -> \"제카\"\n",
"    \"Leszek Kołakowski\"           -> \"레셰크 코와코프스키\"\n",
"    \"Donald Tusk\"                 -> \"도날트 투스크\"\n",
"    \"Joachim Lelewel\"             -> \"요아힘 렐레벨\"\n",
"    \"Aleksander Jabłoński\"        -> \"알렉산데르 야브원스키\"\n",
"    \"Kazimierz Deyna\"             -> \"카지미에시 데이나\"\n",
"    \"Henryk Wieniawski\"           -> \"헨리크 비에니아프스키\"\n",
"    \"łono\"                        -> \"워노\"\n",
"    \"Józef Piłsudski\"             -> \"유제프 피우수트스키\"\n",
"    \"Warszawa\"                    -> \"바르샤바\"\n",
"    \"Częstochowa\"                 -> \"쳉스토호바\"\n",
"    \"dziś\"                        -> \"지시\"\n",
"    \"Gdańsk\"                      -> \"그단스크\"\n",
"    \"Bogdan Borusewicz\"           -> \"보그단 보루세비치\"\n",
"    \"Włodzimierz Cimoszewicz\"     -> \"브워지미에시 치모셰비치\"\n",
"    \"słodki\"                      -> \"스워트키\"\n",
"    \"Leopold Godowsky\"            -> \"레오폴트 고도프스키\"\n",
"    \"od\"                          -> \"오트\"\n",
"    \"Czesław Miłosz\"              -> \"체스와프 미워시\"\n",
"    \"daktyl\"                      -> \"닥틸\"\n",
"    \"serce\"                       -> \"세르체\"\n",
"    \"Zbigniew Messner\"            -> \"즈비그니에프 메스네르\"\n",
"    \"Słupsk\"                      -> \"스웁스크\"\n",
"    \"Jan Andrzej Paweł Kaczmarek\" -> \"얀 안제이 파베우 카치마레크\"\n",
"    \"kąt\"                         -> \"콩트\"\n",
"    \"szybko\"                      -> \"십코\"\n",
"    \"Paweł Korzeniowski\"          -> \"파베우 코제니오프스키\"\n",
"    \"zamek\"                       -> \"자메크\"\n",
"    \"Luiza Złotkowska\"            -> \"루이자 즈워트코프스카\"\n",
"    \"trąba\"                       -> \"트롱바\"\n",
"    \"Włodzimierz Smolarek\"        -> \"브워지미에시 스몰라레크\"\n",
"    \"Wanda Wasilewska\"            -> \"반다 바실레프스카\"\n",
"    \"Edward Gierek\"               -> \"에드바르트 기에레크\"\n",
"    \"herbata\"                     -> \"헤르바타\"\n",
"    \"garnek\"                      -> \"가르네크\"\n",
"    \"Anja Rubik\"                  -> \"아냐 루비크\"\n",
"    \"przjyaciół\"                  -> \"프시아치우\"\n",
"    \"pod\"                         -> \"포트\"\n",
"    \"Krystian Zimerman\"           -> \"크리스티안 지메르만\"\n",
"    \"Marek Belka\"                 -> \"마레크 벨카\"\n",
"    \"Aleksander Kwaśniewski\"      -> \"알렉산데르 크바시니에프스키\"\n",
"    \"chleb\"                       -> \"흘레프\"\n",
"    \"klucz\"                       -> \"클루치\"\n",
"    \"Stefan Żeromski\"             -> \"스테판 제롬스키\"\n",
"    \"dać\"                         -> \"다치\"\n",
"    \"mosiądz\"                     -> \"모시옹츠\"\n",
"    \"kraj\"                        -> \"크라이\"\n",
"    \"kanał\"                       -> \"카나우\"\n",
"    \"Leonid Hurwicz\"              -> \"레오니트 후르비치\"\n",
"    \"Feliks Dzierżyński\"          -> \"펠릭스 지에르진스키\"\n",
"    \"Sławomir Szmal\"              -> \"스와보미르 슈말\"\n",
"    \"łóżko\"                       -> \"우슈코\"\n",
"    \"Cyprian Kamil Norwid\"        -> \"치프리안 카밀 노르비트\"\n",
"    \"ślepy\"                       -> \"실레피\"\n",
"    \"Przemyśl\"                    -> \"프셰미실\"\n",
"    \"Stanisław Mikołajczyk\"       -> \"스타니스와프 미코와이치크\"\n",
"    \"Sławomir Mrożek\"             -> \"스와보미르 므로제크\"\n",
"    \"ręka\"                        -> \"렝카\"\n",
"    \"dzwon\"                       -> \"즈본\"\n",
"    \"Witold Gombrowicz\"           -> \"비톨트 곰브로비치\"\n"]

theorem lines17_ok : Part true lang macros vars (str "test") lines17 (str "test") := by
  apply piece_of
  · dsimp only [lines17]; repeat (first | exact .nil | apply Spells.cons)
  · decide +kernel

def lines18 : List String := [
"    \"Jerzy Buzek\"                 -> \"예지 부제크\"\n",
"    \"para\"                        -> \"파라\"\n",
"    \"Wojciech Jaruzelski\"         -> \"보이치에흐 야루젤스키\"\n",
"    \"Piotr Szewc\"                 -> \"피오트르 셰프츠\"\n",
"    \"befsztyk\"                    -> \"베프슈티크\"\n",
"    \"kępa\"                        -> \"켕파\"\n",
"    \"but\"                         -> \"부트\"\n",
"    \"beczka\"                      -> \"베치카\"\n",
"    \"Zbigniew Herbert\"            -> \"즈비그니에프 헤르베르트\"\n",
"    \"Roman Dmowski\"               -> \"로만 드모프스키\"\n",
"    \"Zygmunt Krasiński\"           -> \"지그문트 크라신스키\"\n",
"    \"tą\"                          -> \"통\"\n",
"    \"zbrodnia\"                    -> \"즈브로드니아\"\n",
"    \"Grabski\"                     -> \"그랍스키\"\n",
"    \"Józef Glemp\"                 -> \"유제프 글렘프\"\n",
"    \"Maria Skłodowska\"            -> \"마리아 스크워도프스카\"\n",
"    \"Magdalena Frackowiak\"        -> \"마그달레나 프라츠코비아크\"\n",
"    \"Ignacy Jan Paderewski\"       -> \"이그나치 얀 파데레프스키\"\n",
"    \"kino\"                        -> \"키노\"\n",
"    \"żyto\"                        -> \"지토\"\n",
"    \"Stanisław Barańczak\"         -> \"스타니스와프 바란차크\"\n",
"    \"mrówka\"                      -> \"므루프카\"\n",
"    \"Adam Michnik\"                -> \"아담 미흐니크\"\n",
"    \"Maciej Żurawski\"             -> \"마치에이 주라프스키\"\n",
"    \"Stefan Kisielewski\"          -> \"스테판 키시엘레프스키\"\n",
"    \"czysty\"                      -> \"치스티\"\n",
"    \"Stanisław Kania\"             -> \"스타니스와프 카니아\"\n",
"    \"olej\"                        -> \"올레이\"\n",
"    \"pęcherz\"                     -> \"펭헤시\"\n",
"    \"Olga Tokarczuk\"              -> \"올가 토카르추크\"\n",
"    \"drzewo\"                      -> \"제보\"\n",
"    \"Balicki\"                     -> \"발리츠키\"\n",
"    \"piwnica\"                     -> \"피브니차\"\n",
"    \"sam\"                         -> \"삼\"\n",
"    \"krew\"                        -> \"크레프\"\n",
"    \"kołnierz\"                    -> \"코우니에시\"\n",
"    \"Alfred Tarski\"               -> \"알프레트 타르스키\"\n",
"    \"Ludwik Łazarz Zamenhof\"      -> \"루드비크 와자시 자멘호프\"\n",
"    \"Zbigniew Boniek\"             -> \"즈비그니에프 보니에크\"\n",
"    \"Kazimierz Marcinkiewicz\"     -> \"카지미에시 마르친키에비치\"\n",
"    \"Ernest Wilimowski\"           -> \"에르네스트 빌리모프스키\"\n",
"    \"dokument\"                    -> \"도쿠멘트\"\n",
"    \"kosz\"                        -> \"코시\"\n",
"    \"Jerzy Andrzejewski\"          -> \"예지 안제예프스키\"\n",
"    \"tam\"                         -> \"탐\"\n",
"    \"Jagiełło\"                    -> \"야기에워\"\n",
"    \"Jacek Krzynówek\"             -> \"야체크 크시누베크\"\n",
"    \"głowa\"                       -> \"그워바\"\n",
"    \"dach\"                        -> \"다흐\"\n",
"    \"srebro\"                      -> \"스레브로\"\n",
"    \"pas\"                         -> \"파스\"\n",
"    \"rower\"                       -> \"로베르\"\n",
"    \"Zbigniew Bujak\"              -> \"즈비그니에프 부야크\"\n",
"    \"Andrzej Stasiuk\"             -> \"안제이 스타시우크\"\n",
"    \"Tadeusz Mazowiecki\"          -> \"타데우시 마조비에츠키\"\n",
"    \"stacja\"                      -> \"스타차\"\n",
"    \"Adam Małysz\"                 -> \"아담 마위시\"\n",
"    \"Andrzej Szarmach\"            -> \"안제이 샤르마흐\"\n",
"    \"lis\"                         -> \"리스\"\n",
"    \"różny\"                       -> \"루주니\"\n",
"    \"Bolesław Bierut\"             -> \"볼레스와프 비에루트\"\n",
"    \"Stanisław Ignacy Witkiewicz\" -> \"스타니스와프 이그나치 비트키에비치\"\n",
"    \"szary\"                       -> \"샤리\"\n",
"    \"udo\"                         -> \"우도\"\n",
"    \"więź\"                        -> \"비엥시\"\n",
"    \"zima\"                        -> \"지마\"\n",
"    \"Kazimierz Fajans\"            -> \"카지미에시 파얀스\"\n",
"    \"most\"                        -> \"모스트\"\n",
"    \"Kazimierz Funk\"              -> \"카지미에시 푼크\"\n"]

theorem lines18_ok : Part true lang macros vars (str "test") lines18 (str "test") := by
  apply piece_of
  · dsimp only [lines18]; repeat (first | exact .nil | apply Spells.cons)
  · decide +kernel

def lines19 : List String := [
"    \"Jerzy Grotowski\"             -> \"예지 그로토프스키\"\n",
"    \"Wanda Jakubowska\"            -> \"반다 야쿠보프스카\"\n",
"    \"król\"                        -> \"크룰\"\n",
"    \"Eliza Orzeszkowa\"            -> \"엘리자 오제슈코바\"\n",
"    \"Wanda Landowska\"             -> \"반다 란도프스카\"\n",
"    \"Wojciech Szczęsny\"           -> \"보이치에흐 슈쳉스니\"\n",
"    \"Katarzyna Sowula\"            -> \"카타지나 소불라\"\n",
"    \"Bronisław Komorowski\"        -> \"브로니스와프 코모로프스키\"\n",
"    \"Andrzej Wajda\"               -> \"안제이 바이다\"\n",
"    \"Ignacy Daszyński\"            -> \"이그나치 다신스키\"\n",
"    \"bułka\"                       -> \"부우카\"\n",
"    \"obraz\"                       -> \"오브라스\"\n",
"    \"Justyna Kowalczyk\"           -> \"유스티나 코발치크\"\n",
"    \"dziura\"                      -> \"지우라\"\n",
"    \"Włodzimierz Lubański\"        -> \"브워지미에시 루반스키\"\n",
"    \"chłop\"                       -> \"흐워프\"\n",
"    \"Henryk Jankowski\"            -> \"헨리크 얀코프스키\"\n",
"    \"próba\"                       -> \"프루바\"\n",
"    \"Hrubieszów\"                  -> \"흐루비에슈프\"\n",
"    \"niedźwiedź\"                  -> \"니에치비에치\"\n",
"    \"Mia Wasikowska\"              -> \"미아 바시코프스카\"\n",
"    \"Stanisław Wyspiański\"        -> \"스타니스와프 비스피안스키\"\n",
"    \"mleko\"                       -> \"믈레코\"\n",
"\n"]

theorem lines19_ok : Part true lang macros vars (str "test") lines19 (str "test") := by
  apply piece_of
  · dsimp only [lines19]; repeat (first | exact .nil | apply Spells.cons)
  · decide +kernel

end Verif.Specs.Pol
