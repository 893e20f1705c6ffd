import Verif.Specs.IslHead

/-! specs/isl.hsl, part 2, generated by tools/gen_specs.py. -/

set_option Elab.async false

namespace Verif.Specs.Isl

open Hsl

def lines17 : List String := [
"transcribe:\n",
"    \"b\"    -> \"ㅂ\"\n",
"    \"d\"    -> \"ㄷ\"\n",
"    \"D\"    -> \"ㄷ\"\n",
"    \"F\"    -> \"ㅍ\"\n",
"    \"g\"    -> \"ㄱ\"\n",
"    \"H\"    -> \"ㅎ\"\n",
"    \"k,\"   -> \"-ㄱ\"\n",
"    \"k\"    -> \"ㅋ\"\n",
"    \"^l\"   -> \"ㄹ\"\n",
"    \"{,}l\" -> \"ㄹ\"\n"]

theorem lines17_ok : Part true lang macros vars (str "rewrite") lines17 (str "transcribe") := by
  apply piece_of
  · dsimp only [lines17]; repeat (first | exact .nil | apply Spells.cons)
  · decide +kernel

def lines18 : List String := [
"    \"l,\"   -> \"-ㄹ\"\n",
"    \"l\"    -> \"-ㄹㄹ\"\n",
"    \"m,\"   -> \"-ㅁ\"\n",
"    \"m\"    -> \"ㅁ\"\n",
"    \"n,\"   -> \"-ㄴ\"\n",
"    \"n\"    -> \"ㄴ\"\n",
"    \"N\"    -> \"-ㅇ\"\n",
"    \"p\"    -> \"ㅍ\"\n",
"    \"r\"    -> \"ㄹ\"\n",
"    \"s\"    -> \"ㅅ\"\n"]

theorem lines18_ok : Part true lang macros vars (str "transcribe") lines18 (str "transcribe") := by
  apply piece_of
  · dsimp only [lines18]; repeat (first | exact .nil | apply Spells.cons)
  · decide +kernel

def lines19 : List String := [
"    \"S\"    -> \"ㅊ\"\n",
"    \"t\"    -> \"ㅌ\"\n",
"    \"T\"    -> \"ㅅ\"\n",
"    \"v\"    -> \"ㅂ\"\n",
"    \"Z\"    -> \"ㅈ\"\n",
"    \"%\"    -> \"ㅇ\"\n",
"    \"Ja\"   -> \"ㅑ\"\n",
"    \"Je\"   -> \"ㅖ\"\n",
"    \"Ji\"   -> \"ㅣ\"\n",
"    \"Jo\"   -> \"ㅛ\"\n"]

theorem lines19_ok : Part true lang macros vars (str "transcribe") lines19 (str "transcribe") := by
  apply piece_of
  · dsimp only [lines19]; repeat (first | exact .nil | apply Spells.cons)
  · decide +kernel

def lines20 : List String := [
"    \"Ju\"   -> \"ㅠ\"\n",
"    \"JU\"   -> \"ㅠ\"\n",
"    \"JQ\"   -> \"ㅖ\"\n",
"    \"a\"    -> \"ㅏ\"\n",
"    \"e\"    -> \"ㅔ\"\n",
"    \"i\"    -> \"ㅣ\"\n",
"    \"o\"    -> \"ㅗ\"\n",
"    \"u\"    -> \"ㅟ\"\n",
"    \"U\"    -> \"ㅜ\"\n",
"    \"Q\"    -> \"ㅚ\"\n",
"\n"]

theorem lines20_ok : Part true lang macros vars (str "transcribe") lines20 (str "transcribe") := by
  apply piece_of
  · dsimp only [lines20]; repeat (first | exact .nil | apply Spells.cons)
  · decide +kernel

def lines21 : List String := [
"test:\n",
"    \"Geir Hilmar\"                          -> \"게이르 힐마르\"\n",
"    \"Hermann Hreiðarsson\"                  -> \"헤르만 흐레이다르손\"\n",
"    \"Ólafur Darri Ólafsson\"                -> \"올라뷔르 다리 올라프손\"\n",
"    \"Þjórsá\"                               -> \"시오르사우\"\n",
"    \"Gunnfríður Jónsdóttir\"                -> \"귄프리뒤르 욘스도티르\"\n",
"    \"Ísafjörður\"                           -> \"이사피외르뒤르\"\n",
"    \"Davíð Stefánsson\"                     -> \"다비드 스테파운손\"\n",
"    \"Ari Þorgilsson\"                       -> \"아리 소르길손\"\n",
"    \"Seyðisfjörður\"                        -> \"세이디스피외르뒤르\"\n",
"    \"Tómas Guðmundsson\"                    -> \"토마스 그뷔드뮌손\"\n",
"    \"Eiríkur rauði\"                        -> \"에이리퀴르 뢰이디\"\n",
"    \"Gisli Gudjonsson\"                     -> \"기슬리 그뷔드욘손\"\n",
"    \"Bragi Ólafsson\"                       -> \"브라이이 올라프손\"\n",
"    \"Eyjafjallajökull\"                     -> \"에이야피아들라예퀴들\"\n",
"    \"Einar Kárason\"                        -> \"에이나르 카우라손\"\n",
"    \"Hafnarfjörður\"                        -> \"하프나르피외르뒤르\"\n",
"    \"Þorsteinn Gylfason\"                   -> \"소르스테이든 길바손\"\n",
"    \"Kolbeinn Tumason\"                     -> \"콜베이든 튀마손\"\n",
"    \"Kjartan Ólafsson\"                     -> \"캬르탄 올라프손\"\n",
"    \"Eiður Smári Guðjohnsen\"               -> \"에이뒤르 스마우리 그뷔드요흔센\"\n",
"    \"Ásgeir Sigurvinsson\"                  -> \"아우스게이르 시귀르빈손\"\n",
"    \"Einar Bárðarson\"                      -> \"에이나르 바우르다르손\"\n",
"    \"Þorlákshöfn\"                          -> \"소를라욱스회픈\"\n",
"    \"Hvolsvöllur\"                          -> \"크볼스뵈들뤼르\"\n",
"    \"Hannibal Valdimarsson\"                -> \"한니발 발디마르손\"\n",
"    \"Mosfellsbær\"                          -> \"모스펠스바이르\"\n",
"    \"Steingrímur Hermannsson\"              -> \"스테잉그리뮈르 헤르만손\"\n",
"    \"Viktor Arnar Ingólfsson\"              -> \"빅토르 아르드나르 잉골프손\"\n",
"    \"Gísli Pálsson\"                        -> \"기슬리 파울손\"\n",
"    \"Guðmundur Hagalín\"                    -> \"그뷔드뮌뒤르 하갈린\"\n",
"    \"Neskaupstaður\"                        -> \"네스쾨이프스타뒤르\"\n",
"    \"Einar Már Guðmundsson\"                -> \"에이나르 마우르 그뷔드뮌손\"\n",
"    \"Goðafoss\"                             -> \"고다포스\"\n",
"    \"Halldór Ásgrímsson\"                   -> \"할도르 아우스그림손\"\n",
"    \"Björk Guðmundsdóttir\"                 -> \"비외르크 그뷔드뮌스도티르\"\n",
"    \"Arnaldur Indriðason\"                  -> \"아르드날뒤르 인드리다손\"\n",
"    \"Vík\"                                  -> \"비크\"\n",
"    \"Jón Páll Sigmarsson\"                  -> \"욘 파우들 시그마르손\"\n",
"    \"Thorkell Atlason\"                     -> \"소르케들 아틀라손\"\n",
"    \"Jóhannes Karl Gudjonsson\"             -> \"요한네스 카르들 그뷔드욘손\"\n",
"    \"Stefán Guðmundur Guðmundsson\"         -> \"스테파운 그뷔드뮌뒤르 그뷔드뮌손\"\n",
"    \"Unnur Birna Vilhjálmsdóttir\"          -> \"윈뉘르 비르드나 빌햐울름스도티르\"\n",
"    \"Einar Örn Benediktsson\"               -> \"에이나르 외르든 베네딕츠손\"\n",
"    \"Keflavík\"                             -> \"케플라비크\"\n",
"    \"Ásmundur Sveinsson\"                   -> \"아우스뮌뒤르 스베인손\"\n",
"    \"Sigurður Helgason\"                    -> \"시귀르뒤르 헬가손\"\n",
"    \"Einar Hjörleifsson Kvaran\"            -> \"에이나르 혜르들레이프손 크바란\"\n",
"    \"Jón Loftsson\"                         -> \"욘 로프츠손\"\n",
"    \"Húsavík\"                              -> \"후사비크\"\n",
"    \"Kópavogur\"                            -> \"코파보귀르\"\n",
"    \"Garðar\"                               -> \"가르다르\"\n"]

theorem lines21_ok : Part true lang macros vars (str "transcribe") lines21 (str "test") := by
  apply piece_of
  · dsimp only [lines21]; repeat (first | exact .nil | apply Spells.cons)
  · decide +kernel

def lines22 : List String := [
"    \"Helgi Valdimarsson\"                   -> \"헬기 발디마르손\"\n",
"    \"Þorgeirr Þorkelsson Ljósvetningagoði\" -> \"소르게이르 소르켈손 리오스베트닝가고디\"\n",
"    \"Silvía Nótt\"                          -> \"실비아 노트\"\n",
"    \"Ragnheiður Gröndal\"                   -> \"라근헤이뒤르 그뢴달\"\n",
"    \"Hreiðar Már Sigurðsson\"               -> \"흐레이다르 마우르 시귀르손\"\n",
"    \"Emilíana Torrini Davíðsdóttir\"        -> \"에밀리아나 토리니 다비스도티르\"\n",
"    \"Ívar Ingimarsson\"                     -> \"이바르 잉기마르손\"\n",
"    \"Ólafsvík\"                             -> \"올라프스비크\"\n",
"    \"Reykjanes\"                            -> \"레이캬네스\"\n",
"    \"Eggert Pálsson\"                       -> \"에게르트 파울손\"\n",
"    \"Haukur Tómasson\"                      -> \"회이퀴르 토마손\"\n",
"    \"Tinna Gunnlaugsdóttir\"                -> \"틴나 귄뢰익스도티르\"\n",
"    \"Þórisvatn\"                            -> \"소리스바튼\"\n",
"    \"Agnar Helgason\"                       -> \"아그나르 헬가손\"\n",
"    \"Blöndós\"                              -> \"블뢴도스\"\n",
"    \"Sveinn Björnsson\"                     -> \"스베이든 비외르든손\"\n",
"    \"Vigdís Grímsdóttir\"                   -> \"비그디스 그림스도티르\"\n",
"    \"Markús Örn Antonsson\"                 -> \"마르쿠스 외르든 안톤손\"\n",
"    \"Kári Stefánsson\"                      -> \"카우리 스테파운손\"\n",
"    \"Freydís Eiríksdóttir\"                 -> \"프레이디스 에이릭스도티르\"\n",
"    \"Hannes Hafstein\"                      -> \"한네스 하프스테인\"\n",
"    \"Borganes\"                             -> \"보르가네스\"\n",
"    \"Siglufjörður\"                         -> \"시글뤼피외르뒤르\"\n",
"    \"Jón Kalman Stefánsson\"                -> \"욘 칼만 스테파운손\"\n",
"    \"Ragnar Bjarnason\"                     -> \"라그나르 비아르드나손\"\n",
"    \"Snorri Hjartarson\"                    -> \"스노리 햐르타르손\"\n",
"    \"Ingólfur Arnarson\"                    -> \"잉골뷔르 아르드나르손\"\n",
"    \"Björgólfur Guðmundsson\"               -> \"비외르골뷔르 그뷔드뮌손\"\n",
"    \"Vatnajökull\"                          -> \"바트나예퀴들\"\n",
"    \"Njarðvík\"                             -> \"니아르드비크\"\n",
"    \"Dalvík\"                               -> \"달비크\"\n",
"    \"Ásgeir Ásgeirsson\"                    -> \"아우스게이르 아우스게이르손\"\n",
"    \"Friðrik Þór Friðriksson\"              -> \"프리드리크 소르 프리드릭손\"\n",
"    \"Surtsey\"                              -> \"쉬르트세이\"\n",
"    \"Ásgeir Helgason\"                      -> \"아우스게이르 헬가손\"\n",
"    \"Jón Ásgeir Jóhannesson\"               -> \"욘 아우스게이르 요한네손\"\n",
"    \"Vilhjálmur Stefánsson\"                -> \"빌햐울뮈르 스테파운손\"\n",
"    \"Jón Leifs\"                            -> \"욘 레이프스\"\n",
"    \"Halldór Kiljan Laxness\"               -> \"할도르 킬리안 락스네스\"\n",
"    \"Jón Thoroddsen\"                       -> \"욘 소로드센\"\n",
"    \"Árni Sigfússon\"                       -> \"아우르드니 시그푸손\"\n",
"    \"Þórarinn Eldjárn\"                     -> \"소라린 엘디아우르든\"\n",
"    \"Magnús Magnússon\"                     -> \"마그누스 마그누손\"\n",
"    \"Hvammstangi\"                          -> \"크밤스타웅기\"\n",
"    \"Kristín Marja Baldursdóttir\"          -> \"크리스틴 마리아 발뒤르스도티르\"\n",
"    \"Þingvellir\"                           -> \"싱그베들리르\"\n",
"    \"Margrét Vilhjálmsdóttir\"              -> \"마르그리에트 빌햐울름스도티르\"\n",
"    \"Baltasar Kormákur\"                    -> \"발타사르 코르마우퀴르\"\n",
"    \"Akranes\"                              -> \"아크라네스\"\n",
"    \"Langjökull\"                           -> \"라웅그예퀴들\"\n",
"    \"Þorfinnur Karlsefni\"                  -> \"소르핀뉘르 카르들세프니\"\n"]

theorem lines22_ok : Part true lang macros vars (str "test") lines22 (str "test") := by
  apply piece_of
  · dsimp only [lines22]; repeat (first | exact .nil | apply Spells.cons)
  · decide +kernel

def lines23 : List String := [
"    \"Þorvaldur Eiríksson\"                  -> \"소르발뒤르 에이릭손\"\n",
"    \"Loftur Sæmundsson\"                    -> \"로프튀르 사이뮌손\"\n",
"    \"Borgafjörður\"                         -> \"보르가피외르뒤르\"\n",
"    \"Eiríkur Hauksson\"                     -> \"에이리퀴르 회익손\"\n",
"    \"Skjálfandafljót\"                      -> \"스캬울반다플리오트\"\n",
"    \"Albert Guðmundsson\"                   -> \"알베르트 그뷔드뮌손\"\n",
"    \"Ísleifur Gissurarson\"                 -> \"이슬레이뷔르 기쉬라르손\"\n",
"    \"Friðrik Ólafsson\"                     -> \"프리드리크 올라프손\"\n",
"    \"Gísli Örn Garðarsson\"                 -> \"기슬리 외르든 가르다르손\"\n",
"    \"Jóhannes úr Kötlum\"                   -> \"요한네스 우르 쾨틀륌\"\n",
"    \"Sjón\"                                 -> \"숀\"\n",
"    \"Vigdís Finnbogadóttir\"                -> \"비그디스 핀보가도티르\"\n",
"    \"Halldór Blöndal\"                      -> \"할도르 블뢴달\"\n",
"    \"Ólafsfjörður\"                         -> \"올라프스피외르뒤르\"\n",
"    \"Kristján Eldjárn\"                     -> \"크리스티아운 엘디아우르든\"\n",
"    \"Stykkishólmur\"                        -> \"스티키스홀뮈르\"\n",
"    \"Nína Dögg Filippusdóttir\"             -> \"니나 되그 필리퓌스도티르\"\n",
"    \"Hannes Hólmsteinn Gissurarson\"        -> \"한네스 홀름스테이든 기쉬라르손\"\n",
"    \"Margrét Hermanns Auðardóttir\"         -> \"마르그리에트 헤르만스 외이다르도티르\"\n",
"    \"Djúpivogur\"                           -> \"디우피보귀르\"\n",
"    \"Sigurður Nordal\"                      -> \"시귀르뒤르 노르달\"\n",
"    \"Hofsjökull\"                           -> \"호프스예퀴들\"\n",
"    \"Guðmundur Arason\"                     -> \"그뷔드뮌뒤르 아라손\"\n",
"    \"Ólafur Egill Ólafsson\"                -> \"올라뷔르 에이이들 올라프손\"\n",
"    \"Hafdís Huld\"                          -> \"하프디스 휠드\"\n",
"    \"Leifur Eiríksson\"                     -> \"레이뷔르 에이릭손\"\n",
"    \"Grímsey\"                              -> \"그림세이\"\n",
"    \"Björn Hlynur Haraldsson\"              -> \"비외르든 흘리뉘르 하랄손\"\n",
"    \"Einar Benediktsson\"                   -> \"에이나르 베네딕츠손\"\n",
"    \"Selfoss\"                              -> \"셀포스\"\n",
"    \"Ágústa Eva Erlendsdóttir\"             -> \"아우구스타 에바 에를렌스도티르\"\n",
"    \"Árni Magnússon\"                       -> \"아우르드니 마그누손\"\n",
"    \"Björgólfur Thor Björgólfsson\"         -> \"비외르골뷔르 소르 비외르골프손\"\n",
"    \"Steinunn Sigurðardóttir\"              -> \"스테이뉜 시귀르다르도티르\"\n",
"    \"Raufarhöfn\"                           -> \"뢰이바르회픈\"\n",
"    \"Höfn í Hornafirði\"                    -> \"회픈 이 호르드나피르디\"\n",
"    \"Ólafur Jóhann Ólafsson\"               -> \"올라뷔르 요한 올라프손\"\n",
"    \"Magnús Ver Magnússon\"                 -> \"마그누스 베르 마그누손\"\n",
"    \"Vilhjálmur Árnason\"                   -> \"빌햐울뮈르 아우르드나손\"\n",
"    \"Hallgrímur Helgason\"                  -> \"하들그리뮈르 헬가손\"\n",
"    \"Heiðar Helguson\"                      -> \"헤이다르 헬귀손\"\n",
"    \"Hilmir Snær Guðnason\"                 -> \"힐미르 스나이르 그뷔드나손\"\n",
"    \"Björn Bjarnason\"                      -> \"비외르든 비아르드나손\"\n",
"    \"Davíð Oddsson\"                        -> \"다비드 오드손\"\n",
"    \"Jón Baldvin Hannibalsson\"             -> \"욘 발드빈 한니발손\"\n",
"    \"Mugison\"                              -> \"뮈이이손\"\n",
"    \"Akureyri\"                             -> \"아퀴레이리\"\n",
"    \"Mývatn\"                               -> \"미바튼\"\n",
"    \"Hólmavík\"                             -> \"홀마비크\"\n",
"    \"Einar Jónsson\"                        -> \"에이나르 욘손\"\n",
"    \"Bolungarvík\"                          -> \"볼룽가르비크\"\n"]

theorem lines23_ok : Part true lang macros vars (str "test") lines23 (str "test") := by
  apply piece_of
  · dsimp only [lines23]; repeat (first | exact .nil | apply Spells.cons)
  · decide +kernel

def lines24 : List String := [
"    \"Lagarfljólt\"                          -> \"라가르플리올트\"\n",
"    \"Mýrdalsjökull\"                        -> \"미르달스예퀴들\"\n",
"    \"Þorsteinn Pálsson\"                    -> \"소르스테이든 파울손\"\n",
"    \"Ragnar Bragason\"                      -> \"라그나르 브라가손\"\n",
"    \"Magnús Þorsteinsson\"                  -> \"마그누스 소르스테인손\"\n",
"    \"Þórbergur Þórðarson\"                  -> \"소르베르귀르 소르다르손\"\n",
"    \"Egilsstaðir\"                          -> \"에이일스타디르\"\n",
"    \"Grindavík\"                            -> \"그린다비크\"\n",
"    \"Hrafn Gunnlaugsson\"                   -> \"흐라픈 귄뢰익손\"\n",
"    \"Páll Skúlason\"                        -> \"파우들 스쿨라손\"\n",
"    \"Jón Sigurðsson\"                       -> \"욘 시귀르손\"\n",
"    \"Sauðárkrókur\"                         -> \"쇠이다우르크로퀴르\"\n",
"    \"Örvar Þóreyjarson Smárason\"           -> \"외르바르 소레이야르손 스마우라손\"\n",
"    \"Sigurður Þórarinsson\"                 -> \"시귀르뒤르 소라린손\"\n",
"    \"Jónas Hallgrímsson\"                   -> \"요나스 하들그림손\"\n",
"    \"Hilmar Örn Hilmarsson\"                -> \"힐마르 외르든 힐마르손\"\n",
"    \"Þóra Magnúsdóttir\"                    -> \"소라 마그누스도티르\"\n",
"    \"Vopnafjörður\"                         -> \"보프나피외르뒤르\"\n",
"    \"Ólafur Ragnar Grímsson\"               -> \"올라뷔르 라그나르 그림손\"\n",
"    \"Linda Pétursdóttir\"                   -> \"린다 피에튀르스도티르\"\n",
"    \"Vala Flosadottir\"                     -> \"발라 플로사도티르\"\n",
"    \"Jóhanna Sigurðardóttir\"               -> \"요한나 시귀르다르도티르\"\n",
"    \"Hvíta\"                                -> \"크비타\"\n",
"    \"Reykjavík\"                            -> \"레이캬비크\"\n",
"    \"Hólmfríður Karlsdóttir\"               -> \"홀름프리뒤르 카르들스도티르\"\n",
"    \"Guðríður Þorbjarnardóttir\"            -> \"그뷔드리뒤르 소르비아르드나르도티르\"\n",
"    \"Einar Hákonarson\"                     -> \"에이나르 하우코나르손\"\n",
"    \"Þórshöfn\"                             -> \"소르스회픈\"\n",
"    \"Björgvin Halldórsson\"                 -> \"비외르그빈 할도르손\"\n",
"    \"Snorri Sturluson\"                     -> \"스노리 스튀르들뤼손\"\n",
"\n"]

theorem lines24_ok : Part true lang macros vars (str "test") lines24 (str "test") := by
  apply piece_of
  · dsimp only [lines24]; repeat (first | exact .nil | apply Spells.cons)
  · decide +kernel

end Verif.Specs.Isl
